import Verif.Spec.Mounted
import Verif.Spec.Pose

/-! # Specification vocabulary: measurements with outliers -/

namespace HandEye.Spec

/-- The pair (pose of the hand, pose of the eye) fits the mounting X and the world transform g: `w = g b X`, in
Mathlib's dual numbers over the quaternions. -/
def Fits (g X : DQuat) (p : DQuat × DQuat) : Prop := p.2.toDual = g.toDual * p.1.toDual * X.toDual

/-- The scalar parts of a motion, which give its rotation angle and its translation along the screw axis: of the two dual
quaternions that represent it, those of the one with a non-negative real scalar part. -/
noncomputable def scalarParts (m : DQuat) : ℝ × ℝ := if m.rot.w < 0 then (-m.rot.w, -m.dual.w) else (m.rot.w, m.dual.w)

/-- Between the measurements p and q the hand and the eye have made motions with the same scalar parts, up to the given
absolute and 10⁻⁵ relative tolerance. -/
def Corresponds (tol : ℝ) (p q : DQuat × DQuat) : Prop :=
  let h := scalarParts (p.1.conj * q.1)
  let e := scalarParts (p.2.conj * q.2)
  |e.1 - h.1| ≤ tol + 1e-5 * |h.1| ∧ |e.2 - h.2| ≤ tol + 1e-5 * |h.2|

open Classical in
/-- How many of the measurements have a property. -/
noncomputable def number (P : DQuat × DQuat → Prop) (ms : List (DQuat × DQuat)) : ℕ := ms.countP fun m => decide (P m)

open Classical in
/-- The hand poses of the measurements with a property. -/
noncomputable def handsOf (P : DQuat × DQuat → Prop) (ms : List (DQuat × DQuat)) : List DQuat :=
  (ms.filter fun m => decide (P m)).map Prod.fst

/-- A sample consists of measurements that fit the mounting. -/
def AllFit (g X : DQuat) (bs ws : List DQuat) (s : List ℕ) : Prop :=
  ∀ i ∈ s, ∀ q, (bs.zip ws)[i]? = some q → Fits g X q

/-- Seen from the measurement p with the mounting X, the measurement q is clearly wrong: the motion of the hand and that of the eye,
carried over to the hand, move the origin to points that are at least pt apart, or turn by at least the angle ot (in
degrees, and not by less than a thousandth of a degree) relative to each other. -/
def ClearlyWrong (ot pt : ℝ) (X : DQuat) (p q : DQuat × DQuat) : Prop :=
  let h := p.1.conj * q.1
  let e := X * (p.2.conj * q.2) * X.conj
  pt ≤ dist (motion h ⟨0, 0, 0⟩) (motion e ⟨0, 0, 0⟩) ∨ (ot ≤ rotationAngle h.rot e.rot ∧ cosHalf h.rot e.rot < 1 - 6e-11)

/-- A sample of measurements that fit the mounting, with two rotation axes among them. -/
def TellingSample (g X : DQuat) (bs ws : List DQuat) (s : List ℕ) : Prop :=
  AllFit g X bs ws s ∧ TurnsAboutTwoAxes (s.filterMap fun i => bs[i]?)

end HandEye.Spec
