import Verif.Model.Py

/-! # Specification vocabulary for rotations and rigid motions

Independent of the quaternion code: cross product, Rodrigues' formula. -/

namespace HandEye.Spec

/-- The cross product. -/
def cross (u v : Vec3) : Vec3 :=
  ⟨u.y * v.z - u.z * v.y, u.z * v.x - u.x * v.z, u.x * v.y - u.y * v.x⟩

/-- Rodrigues' formula: `v` turned by `angle` about the unit vector `n`. -/
noncomputable def rodrigues (angle : ℝ) (n v : Vec3) : Vec3 :=
  Real.cos angle • v + Real.sin angle • cross n v + ((1 - Real.cos angle) * n.dot v) • n

/-- The unit vector in direction `v`. -/
noncomputable def direction (v : Vec3) : Vec3 := (1 / v.norm) • v

end HandEye.Spec
