import Mathlib.Algebra.BigOperators.Finprod
import Verif.Spec.Signal

/-! # Specification vocabulary: what figures show -/

namespace HandEye.Spec

/-- The correlation of two signals where A is read `m` samples earlier than B. -/
noncomputable def correlationAt (A B : List ℝ) (m : ℤ) : ℝ := ∑ᶠ i : ℤ, sample B i * sample A (i - m)

/-- `m` is the smallest of the numbers of a list. -/
def IsLeast (m : ℝ) (l : List ℝ) : Prop := m ∈ l ∧ ∀ x ∈ l, m ≤ x

/-- Sampling at times `start`, `start + period`, ... -/
def RegularTimes (times : List ℝ) (start period : ℝ) : Prop :=
  ∀ (i : ℕ) (t : ℝ), times[i]? = some t → t = start + i * period

end HandEye.Spec
