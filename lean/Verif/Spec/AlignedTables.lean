import Mathlib.Data.Real.Basic
import Mathlib.Data.List.Sort

/-! # Specification vocabulary: aligned pose tables -/

namespace HandEye.Spec

/-- The steps between consecutive times. -/
def steps : List ℝ → List ℝ
  | a :: b :: l => (b - a) :: steps (b :: l)
  | _ => []

/-- The median: the middle element, or the mean of the two middle elements, of the sorted list. -/
def IsMedian (l : List ℝ) (m : ℝ) : Prop :=
  ∃ (s : List ℝ) (a b : ℝ), s.Perm l ∧ s.Pairwise (· ≤ ·) ∧ s[(s.length - 1) / 2]? = some a ∧
    s[s.length / 2]? = some b ∧ m = (a + b) / 2

/-- Time `t` has support in the times `high`: it is one of them but the last, or it lies between two of
them, not the last two, of which the earlier is less than and the later at most 0.1 s away. -/
def Near (high : List ℝ) (t : ℝ) : Prop :=
  (∃ k : ℕ, high[k]? = some t ∧ k + 1 < high.length) ∨
  ∃ (k : ℕ) (l r : ℝ), high[k]? = some l ∧ high[k + 1]? = some r ∧ k + 2 < high.length ∧ l < t ∧ t < r ∧
    t - l < 1 / 10 ∧ r - t ≤ 1 / 10

end HandEye.Spec
