import Verif.Model.Quat
import Verif.Model.DualQuat

/-! # Specification vocabulary: distances between poses -/

namespace HandEye.Spec

/-- Euclidean distance. -/
noncomputable def dist (a b : Vec3) : ℝ :=
  Real.sqrt ((a.x - b.x) ^ 2 + (a.y - b.y) ^ 2 + (a.z - b.z) ^ 2)

/-- The cosine of half the angle between the rotations that two (non-zero) quaternions stand for. -/
noncomputable def cosHalf (p q : Quat) : ℝ :=
  |p.x * q.x + p.y * q.y + p.z * q.z + p.w * q.w| /
    (Real.sqrt (p.x ^ 2 + p.y ^ 2 + p.z ^ 2 + p.w ^ 2) * Real.sqrt (q.x ^ 2 + q.y ^ 2 + q.z ^ 2 + q.w ^ 2))

/-- The angle between two rotations, in degrees. -/
noncomputable def rotationAngle (p q : Quat) : ℝ := 360 / Real.pi * Real.arccos (cosHalf p q)

end HandEye.Spec
