import Verif.Spec.Commands

/-! # Specification vocabulary: which command lines are accepted, and what they mean -/

namespace HandEye.Spec

/-- A whole number in decimal notation, with or without a sign. -/
inductive IsNumber : Text → ℤ → Prop
  | plain (ds : List ℕ) (h : ds ≠ []) (hd : ∀ d ∈ ds, d < 10) : IsNumber (ds.map digitChar) (digitsNumber ds)
  | plus (ds : List ℕ) (h : ds ≠ []) (hd : ∀ d ∈ ds, d < 10) : IsNumber ('+' :: ds.map digitChar) (digitsNumber ds)
  | minus (ds : List ℕ) (h : ds ≠ []) (hd : ∀ d ∈ ds, d < 10) : IsNumber ('-' :: ds.map digitChar) (-(digitsNumber ds : ℤ))

/-- The words that an option takes, and its value for them: one word, or for a list at least one. -/
inductive Takes : ArgKind → Bool → List Text → ArgValue → Prop
  | text (t : Text) : Takes .str false [t] (.str t)
  | truth (t : Text) : Takes .bool false [t] (.bool (t ≠ []))
  | number (t : Text) (n : ℤ) (h : IsNumber t n) : Takes .int false [t] (.int n)
  | texts (l : List Text) (h : l ≠ []) : Takes .str true l (.strs l)
  | numbers (l : List Text) (ns : List ℤ) (h : l ≠ []) (hn : List.Forall₂ IsNumber l ns) : Takes .int true l (.ints ns)

/-- An option in a command line, perhaps with a value after an equals sign, and the words that follow it. -/
structure Chunk where
  name : Text
  explicit : Option Text
  words : List Text

/-- The first word: `--name`, or `--name=value`. -/
def Chunk.first (c : Chunk) : Text :=
  match c.explicit with
  | none => c.name
  | some e => c.name ++ '=' :: e

/-- The words of the command line. -/
def Chunk.tokens (c : Chunk) : List Text := c.first :: c.words

/-- The value of an option with its words: those after it, or that after the equals sign if there are no further words. -/
def Chunk.Value (c : Chunk) (kind : ArgKind) (many : Bool) (v : ArgValue) : Prop :=
  match c.explicit with
  | none => Takes kind many c.words v
  | some e => c.words = [] ∧ Takes kind many [e] v

/-- What an option is after a command line: its last value, or, if it may be left out and is, the default. -/
def Outcome (chunks : List Chunk) (s : ArgSpec) (v : ArgValue) : Prop :=
  (∃ before c after, chunks = before ++ c :: after ∧ c.name = s.name ∧ (∀ a ∈ after, a.name ≠ s.name) ∧ c.Value s.kind s.many v) ∨
  ((∀ c ∈ chunks, c.name ≠ s.name) ∧ s.required = false ∧ v = s.default)

/-- A word of the command line of the batch estimator: a flag with its value, or something else. -/
inductive FlagWord where
  | equals (dashes : ℕ) (name value : Text)
  | words (dashes : ℕ) (name value : Text)
  | other (t : Text)

/-- The words of the command line. -/
def FlagWord.tokens : FlagWord → List Text
  | .equals k n v => [List.replicate k '-' ++ n ++ '=' :: v]
  | .words k n v => [List.replicate k '-' ++ n, v]
  | .other t => [t]

/-- The name of a flag: not empty, without an equals sign and not beginning with a dash. -/
def FlagName (n : Text) : Prop := n ≠ [] ∧ NoDash n ∧ '=' ∉ n

/-- One or two dashes and a known flag; other words do not begin with a dash, except for a single one. -/
def FlagWord.Proper (known : List Text) : FlagWord → Prop
  | .equals k n _ => (k = 1 ∨ k = 2) ∧ n ∈ known ∧ FlagName n
  | .words k n _ => (k = 1 ∨ k = 2) ∧ n ∈ known ∧ FlagName n
  | .other t => NoDash t ∨ t = ['-']

/-- What is assigned to a flag. -/
def FlagWord.assigned : FlagWord → Option (Text × Text)
  | .equals _ n v => some (n, v)
  | .words _ n v => some (n, v)
  | .other _ => none

/-- What is no flag. -/
def FlagWord.rest : FlagWord → Option Text
  | .other t => some t
  | _ => none

end HandEye.Spec
