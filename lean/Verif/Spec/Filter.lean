import Verif.Spec.Signal
import Mathlib.Algebra.BigOperators.Intervals
import Mathlib.Data.Rat.Floor

/-! # Specification vocabulary: clipping and smoothing -/

namespace HandEye.Spec

/-- `m` is the `p`-th percentile of the values `l`: on the sorted values, at the position that divides the
index range in the proportion `p : 100 - p`, linear in between. -/
def IsPercentile (l : List ℝ) (p m : ℝ) : Prop :=
  ∃ (s : List ℝ) (k : ℕ) (f a : ℝ), s.Perm l ∧ s.Pairwise (· ≤ ·) ∧ k + f = p / 100 * (s.length - 1 : ℝ) ∧
    0 ≤ f ∧ f < 1 ∧ s[k]? = some a ∧
    (f = 0 ∧ m = a ∨ ∃ b, s[k + 1]? = some b ∧ m = (1 - f) * a + f * b)

/-- Limiting a value to the range from `-m` to `m`. -/
def Clipped (m x y : ℝ) : Prop := (|x| ≤ m → y = x) ∧ (m < x → y = m) ∧ (x < -m → y = -m)

/-- The mean of the `k` consecutive samples of which sample `i` is the middle one (for even `k`, there is one
more before it than after). -/
noncomputable def windowMean (f : ℤ → ℝ) (k : ℕ) (i : ℤ) : ℝ :=
  (∑ j ∈ Finset.range k, f (i - (k / 2 : ℕ) + j)) / k

end HandEye.Spec
