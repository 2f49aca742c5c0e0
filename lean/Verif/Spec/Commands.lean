import Verif.Model.Commands
import Mathlib.Data.Nat.Digits.Defs

/-! # Specification vocabulary: names in command lines, and what options mean -/

namespace HandEye.Spec

/-- White space. -/
def Blank (c : Char) : Prop := c = ' ' ∨ c = '\t' ∨ c = '\r' ∨ c = '\n'

/-- A text without white space, quotes and backslashes. -/
def Plain (t : Text) : Prop := ∀ c ∈ t, ¬ Blank c ∧ c ≠ '\\' ∧ c ≠ '\'' ∧ c ≠ '"'

/-- A text that does not begin with a dash. -/
def NoDash (t : Text) : Prop := ∀ c, t.head? = some c → c ≠ '-'

/-- The number with the given decimal digits. -/
def digitsNumber (l : List ℕ) : ℕ := l.foldl (fun n d => 10 * n + d) 0

/-- A decimal digit as a character. -/
def digitChar (d : ℕ) : Char := Char.ofNat (48 + d)

/-- A natural number in decimal notation. -/
def decimal (n : ℕ) : Text := if n = 0 then ['0'] else (Nat.digits 10 n).reverse.map digitChar

/-- An integer in decimal notation. -/
def decimalInt (n : ℤ) : Text := if n < 0 then '-' :: decimal n.natAbs else decimal n.natAbs

/-- A value as it is meant, for the words that stand for it. -/
inductive Means : ArgKind → Bool → List Text → ArgValue → Prop
  | text (t : Text) : Means .str false [t] (.str t)
  | number (n : ℤ) : Means .int false [decimalInt n] (.int n)
  | texts (l : List Text) (h : l ≠ []) : Means .str true l (.strs l)
  | word (b : Bool) : Means .bool false [if b then "True".toList else "False".toList] (.bool b)
  | digit (b : Bool) : Means .bool false [if b then ['1'] else ['0']] (.bool b)
  | numbers (l : List ℤ) (h : l ≠ []) : Means .int true (l.map decimalInt) (.ints l)

/-- An option in a command line: `--name word word ...`, or `--name=value`. -/
inductive Given where
  | words (name : Text) (ws : List Text)
  | equals (name value : Text)

/-- The name of the option. -/
def Given.name : Given → Text
  | .words n _ => n
  | .equals n _ => n

/-- What is given to the option. -/
def Given.values : Given → List Text
  | .words _ ws => ws
  | .equals _ v => [v]

/-- The words of the command line. -/
def Given.tokens : Given → List Text
  | .words n ws => n :: ws
  | .equals n v => [n ++ '=' :: v]

/-- Values that follow an option as words of their own do not begin with a dash. -/
def Given.Separate : Given → Prop
  | .words _ ws => ∀ t ∈ ws, NoDash t
  | .equals _ _ => True

end HandEye.Spec
