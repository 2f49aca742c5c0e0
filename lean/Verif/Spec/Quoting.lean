import Verif.Spec.Commands

/-! # Specification vocabulary: words that are written with quotes and backslashes, and commands in several lines -/

namespace HandEye.Spec

/-- What stands between double quotes: a character, a backslash or quote after a backslash, or a backslash before another character, which stays. -/
inductive Inner where
  | char (c : Char)
  | escaped (c : Char)
  | kept (c : Char)

/-- How it is written. -/
def Inner.text : Inner → Text
  | .char c => [c]
  | .escaped c => ['\\', c]
  | .kept c => ['\\', c]

/-- What it stands for. -/
def Inner.meaning : Inner → Text
  | .char c => [c]
  | .escaped c => [c]
  | .kept c => ['\\', c]

/-- Written as it has to be. -/
def Inner.Proper : Inner → Prop
  | .char c => c ≠ '\\' ∧ c ≠ '"'
  | .escaped c => c = '\\' ∨ c = '"'
  | .kept c => c ≠ '\\' ∧ c ≠ '"'

/-- A piece of a word: a character, a character after a backslash, or a text in quotes. -/
inductive Piece where
  | char (c : Char)
  | escaped (c : Char)
  | single (t : Text)
  | double (l : List Inner)

/-- How it is written. -/
def Piece.text : Piece → Text
  | .char c => [c]
  | .escaped c => ['\\', c]
  | .single t => '\'' :: (t ++ ['\''])
  | .double l => '"' :: (l.flatMap Inner.text ++ ['"'])

/-- What it stands for. -/
def Piece.meaning : Piece → Text
  | .char c => [c]
  | .escaped c => [c]
  | .single t => t
  | .double l => l.flatMap Inner.meaning

/-- Written as it has to be. -/
def Piece.Proper : Piece → Prop
  | .char c => ¬ Blank c ∧ c ≠ '\\' ∧ c ≠ '\'' ∧ c ≠ '"'
  | .escaped _ => True
  | .single t => '\'' ∉ t
  | .double l => ∀ i ∈ l, i.Proper

/-- A text without a backslash, written as it is. -/
def asIs (t : Text) : List Piece := t.map .char

/-- A word with white space before it, which may go on in the next line after a backslash. -/
structure Laid where
  before : Text
  next : Option Text := none
  word : List Piece

/-- The white space. -/
def Laid.blanks (p : Laid) : Text := p.before ++ p.next.getD []

/-- The word. -/
def Laid.meaning (p : Laid) : Text := p.word.flatMap Piece.meaning

/-- There is white space before the word, and the word is written as it has to be. -/
def Laid.Proper (p : Laid) : Prop :=
  p.blanks ≠ [] ∧ (∀ c ∈ p.blanks, Blank c) ∧ p.word ≠ [] ∧ ∀ q ∈ p.word, q.Proper

/-- The lines of a command that begins with the given text. -/
def layout : Text → List Laid → List Text
  | line, [] => [line]
  | line, p :: r =>
    match p.next with
    | none => layout (line ++ p.before ++ p.word.flatMap Piece.text) r
    | some b => (line ++ p.before ++ ['\\']) :: layout (b ++ p.word.flatMap Piece.text) r

/-- A character of a name that no program and no shell treats specially. -/
def NameChar (c : Char) : Prop := c.isAlphanum = true ∨ c ∈ ['/', '_', '-', '.', ':', '+', ',']

/-- A name that needs no quotes, and that no program takes for an option. -/
def Name (t : Text) : Prop := t ≠ [] ∧ (∀ c ∈ t, NameChar c) ∧ NoDash t

end HandEye.Spec
