import Verif.Model.Py

/-!
# Python list vocabulary: indexing, slices, `enumerate`
-/

namespace HandEye

/-- The position that index `i` names in a list of length `n`: Python counts negative indices from the
end. -/
def pyPos (n : ℕ) (i : ℤ) : Option ℕ :=
  if 0 ≤ i then (if i.toNat < n then some i.toNat else none)
  else if 0 ≤ (n : ℤ) + i then some ((n : ℤ) + i).toNat else none

/-- `l[i]`, with IndexError. -/
def pyGet {α : Type} (l : List α) (i : ℤ) : Py α :=
  match pyPos l.length i with
  | some k => match l[k]? with
    | some a => .ok a
    | none => .error .index
  | none => .error .index

/-- `l[n]` for a non-negative index, with IndexError. -/
def pyAt {α : Type} (l : List α) (n : ℕ) : Py α :=
  match l[n]? with
  | some a => .ok a
  | none => .error .index

/-- A slice bound: clamped to `[0, n]`, negative ones counted from the end. -/
def pyBound (n : ℕ) (i : ℤ) : ℕ :=
  if 0 ≤ i then min i.toNat n else ((n : ℤ) + i).toNat

/-- `l[i:]`. -/
def pyFrom {α : Type} (l : List α) (i : ℤ) : List α := l.drop (pyBound l.length i)

/-- `l[:i]`. -/
def pyTo {α : Type} (l : List α) (i : ℤ) : List α := l.take (pyBound l.length i)

end HandEye
