import Verif.Model.Rounded
import Verif.Spec.Interp
import Verif.Spec.Pose

/-! # Specification vocabulary: floating-point errors -/

namespace HandEye.Spec

/-- The standard model of floating-point arithmetic: every rounding has a relative error of at most `u`; a dot product
of four elements has the error of four roundings on each product (true for every order of the additions, and with
fused operations). -/
structure Machine (u : ℝ) (A : Arith) : Prop where
  small : u ≤ 1 / 1000
  rounds : ∀ x : ℝ, |A.fl x - x| ≤ u * |x|
  dots : ∀ p q : Quat, |A.dot p q - (p.x * q.x + p.y * q.y + p.z * q.z + p.w * q.w)| ≤
    ((1 + u) ^ 4 - 1) * (|p.x * q.x| + |p.y * q.y| + |p.z * q.z| + |p.w * q.w|)

/-- The length of a quaternion array. -/
noncomputable def len (q : Quat) : ℝ := Real.sqrt (q.x ^ 2 + q.y ^ 2 + q.z ^ 2 + q.w ^ 2)

/-- The distance between two quaternion arrays. -/
noncomputable def gap (p q : Quat) : ℝ :=
  Real.sqrt ((p.x - q.x) ^ 2 + (p.y - q.y) ^ 2 + (p.z - q.z) ^ 2 + (p.w - q.w) ^ 2)

/-- Half of the angle that `angle_between_quaternions` is about: the angle between the arrays. -/
noncomputable def halfAngle (p q : Quat) : ℝ :=
  Real.arccos ((p.x * q.x + p.y * q.y + p.z * q.z + p.w * q.w) / (len p * len q))

/-- The numbers that `float64` can represent (with unbounded exponent): 53 binary digits. -/
def IsDouble (x : ℝ) : Prop := ∃ m e : ℤ, |m| ≤ 2 ^ 53 ∧ x = m * 2 ^ e

end HandEye.Spec
