import Verif.Model.TimeAlign

/-! # Specification vocabulary: tables read from files -/

namespace HandEye.Spec

/-- `r` is `q` scaled to unit length. -/
def UnitMultiple (q r : Quat) : Prop :=
  r.x ^ 2 + r.y ^ 2 + r.z ^ 2 + r.w ^ 2 = 1 ∧
    ∃ s : ℝ, 0 < s ∧ r.x = s * q.x ∧ r.y = s * q.y ∧ r.z = s * q.z ∧ r.w = s * q.w

/-- The quaternion of the inverse rotation, which is the same rotation in the other convention. -/
def mirrored (q : Quat) : Quat := ⟨-q.x, -q.y, -q.z, q.w⟩

/-- Equal up to half a unit of the eighteenth digit after the point. -/
def Close18 (a b : ℝ) : Prop := |a - b| ≤ 1 / 2 * 1e-18

/-- `b` is the pose `a` printed with eighteen digits after the point, the quaternion then scaled to unit
length. -/
def ReadBack (a b : StampedPose) : Prop :=
  Close18 a.t b.t ∧ Close18 a.pose.pos.x b.pose.pos.x ∧ Close18 a.pose.pos.y b.pose.pos.y ∧
    Close18 a.pose.pos.z b.pose.pos.z ∧
    ∃ q : Quat, Close18 a.pose.q.x q.x ∧ Close18 a.pose.q.y q.y ∧ Close18 a.pose.q.z q.z ∧ Close18 a.pose.q.w q.w ∧
      UnitMultiple q b.pose.q

/-- `R` is the table `T` with the quaternions scaled to unit length. -/
def ReadAs (T R : List StampedPose) : Prop :=
  List.Forall₂ (fun p r => r.t = p.t ∧ r.pose.pos = p.pose.pos ∧ UnitMultiple p.pose.q r.pose.q) T R

end HandEye.Spec
