import Verif.Spec.Recorded

/-! # Specification vocabulary: recordings with outliers -/

namespace HandEye.Spec

/-- The tolerance for scalar parts within which pairs of recorded motions with errors of at most `η` may be taken for equal, by a test with the tolerance `tol`
in an arithmetic with the unit roundoff `u`. -/
noncomputable def testedTolerance (u η D tol : ℝ) : ℝ := tol + 2.1 * η + 5 * u * (1 + 2 * D + η)

/-- Two recordings with outliers: `L₀` are the true poses (for outliers: the poses that were meant to be recorded), in the same order.  No two poses are within `η`
of a half turn of each other.  Seen from a pair that fits the calibration, no outlier corresponds in the scalar parts; and seen from an outlier fewer than `m`
pairs do. -/
structure VisibleOutliers (u δ θ D η tol : ℝ) (m : ℕ) (g X : DQuat) (bs ws : List DQuat) (L₀ : List (DQuat × DQuat)) : Prop where
  recorded : List.Forall₂ (RecordedPair δ θ D) (bs.zip ws) L₀
  hand : ∀ p ∈ L₀, ∀ q ∈ L₀, η < cosHalf p.1.rot q.1.rot
  eye : ∀ p ∈ L₀, ∀ q ∈ L₀, η < cosHalf p.2.rot q.2.rot
  visible : ∀ p ∈ L₀, FitsMotion g X p → ∀ q ∈ L₀, Corresponds (testedTolerance u η D tol) p q → FitsMotion g X q
  few : ∀ p ∈ L₀, ¬ FitsMotion g X p → number (Corresponds (testedTolerance u η D tol) p) L₀ < m

end HandEye.Spec
