import Verif.Spec.OutlierPoses
import Verif.Spec.Rounded

/-! # Specification vocabulary: recorded pairs of poses and the true ones -/

namespace HandEye.Spec

/-- One pose as it was recorded and the true one (a unit dual quaternion): the real parts differ by at most `δ`, the dual parts by at most `θ`, and
the true dual part is at most `D` long. -/
structure RecordedPose (δ θ D : ℝ) (a a₀ : DQuat) : Prop where
  unit : IsUnit a₀
  rot : gap a.rot a₀.rot ≤ δ
  dual : gap a.dual a₀.dual ≤ θ
  size : len a₀.dual ≤ D

/-- A pair of poses of the hand and of the eye. -/
def RecordedPair (δ θ D : ℝ) (p p₀ : DQuat × DQuat) : Prop := RecordedPose δ θ D p.1 p₀.1 ∧ RecordedPose δ θ D p.2 p₀.2

/-- The error of a motion from one recorded pose to another, for a unit roundoff `u`. -/
noncomputable def relativeError (u δ θ D : ℝ) : ℝ := 19 * u + 2.1 * δ + ((70 * u + 4.2 * δ) * (D + θ) + 2.1 * θ)

/-- The error of such a motion after one more normalisation. -/
noncomputable def normalisedError (u η D : ℝ) : ℝ := (3.2 + 2.3 * D) * η + (11 + 21 * D) * u

/-- A filter of pairs of poses that returns some of the given pairs, in their order. -/
def KeepsPairs (filter : List DQuat → List DQuat → Py (List DQuat × List DQuat)) : Prop :=
  ∀ bs ws r, ws.length = bs.length → filter bs ws = .ok r → r.2.length = r.1.length ∧ (r.1.zip r.2).Sublist (bs.zip ws)

end HandEye.Spec
