import Verif.Spec.Outliers

/-! # Specification vocabulary: a mounting that enough measurements support -/

namespace HandEye.Spec

/-- A mounting without a half turn that at least `min` of the measurements fit exactly, with two rotation axes among them, and that is told apart from the other
measurements by the scalar parts. -/
structure Supported (tol : ℝ) (min : ℕ) (bs ws : List DQuat) (g X : DQuat) : Prop where
  unit_g : IsUnit g
  unit_X : IsUnit X
  no_half_turn : X.rot.w ≠ 0
  apart : ∀ p ∈ bs.zip ws, Fits g X p → ∀ q ∈ bs.zip ws, Corresponds tol p q → Fits g X q
  axes : TurnsAboutTwoAxes (handsOf (Fits g X) (bs.zip ws))
  enough : min ≤ number (Fits g X) (bs.zip ws)

end HandEye.Spec
