import Verif.Spec.Recorded

/-! # Specification vocabulary: recordings that fit a calibration -/

namespace HandEye.Spec

/-- Two recordings of equally many poses: all pairs were recorded, with the errors of `RecordedPair`, from true pairs that fit the calibration `X` (and the
motion `g` between the two fixed frames), and any two of the true orientations of the hand are so far from half a turn apart that the signs of the scalar parts
are certain. -/
structure FittingRecording (u δ θ D : ℝ) (g X : DQuat) (bs ws : List DQuat) : Prop where
  same : ws.length = bs.length
  true_poses : ∃ L₀ : List (DQuat × DQuat), (∀ p ∈ bs.zip ws, ∃ p₀ ∈ L₀, RecordedPair δ θ D p p₀) ∧ (∀ p ∈ L₀, FitsMotion g X p) ∧
    ∀ p ∈ L₀, ∀ q ∈ L₀, relativeError u δ θ D < cosHalf p.1.rot q.1.rot

/-- The tolerance for scalar parts that such recordings need. -/
noncomputable def neededTolerance (u δ θ D : ℝ) : ℝ := 2 * relativeError u δ θ D + 5 * u * (1 + 2 * D + relativeError u δ θ D)

end HandEye.Spec
