import Verif.Model.Batch
import Verif.Spec.Csv
import Verif.Spec.Track

/-!
# What the batch estimator should read and write
-/

namespace HandEye.Spec

open Quaternion in
/-- A quaternion as a rotation in the convention of Hamilton: `x ↦ q x q*`. -/
noncomputable def hamiltonTurn (q : Quat) (x : Vec3) : Vec3 := imPart (q.toH * x.toH * star q.toH)

open Quaternion in
/-- A quaternion as a rotation in the JPL convention: `x ↦ q* x q`. -/
noncomputable def jplTurn (q : Quat) (x : Vec3) : Vec3 := imPart (star q.toH * x.toH * q.toH)

/-- Equal up to half a unit of the eighteenth digit, component by component. -/
def CloseQuat (p q : Quat) : Prop := Close18 p.x q.x ∧ Close18 p.y q.y ∧ Close18 p.z q.z ∧ Close18 p.w q.w

/-- Equal up to half a unit of the eighteenth digit. -/
def CloseVec (u v : Vec3) : Prop := Close18 u.x v.x ∧ Close18 u.y v.y ∧ Close18 u.z v.z

/-- `m` is the row `p` of a table as a measurement, in the convention of the estimator (JPL): the quaternion is kept if the
table is in that convention and mirrored otherwise. -/
def MeasurementOf (use_jpl : Bool) (p m : StampedPose) : Prop :=
  Close18 p.t m.t ∧ CloseVec p.pose.pos m.pose.pos ∧
    (use_jpl = true → CloseQuat p.pose.q m.pose.q) ∧ (use_jpl = false → CloseQuat (mirrored p.pose.q) m.pose.q)

/-- The length of a quaternion. -/
noncomputable def quatLength (q : Quat) : ℝ := Real.sqrt (q.x ^ 2 + q.y ^ 2 + q.z ^ 2 + q.w ^ 2)

end HandEye.Spec
