import Verif.Model.IntQuat

/-! # Specification vocabulary: integers of 64 bits -/

namespace HandEye.Spec

/-- The number is an integer of 64 bits. -/
def FitsWord (n : ℤ) : Prop := -2 ^ 63 ≤ n ∧ n ≤ 2 ^ 63 - 1

/-- Integer components of at most this size. -/
def Within (b : ℤ) (q : IQuat) : Prop := |q.x| ≤ b ∧ |q.y| ≤ b ∧ |q.z| ≤ b ∧ |q.w| ≤ b

/-- A quaternion with floats, or with integers of at most this size. -/
def Moderate (b : ℤ) : NumQuat → Prop
  | .int q => Within b q
  | .float _ => True

/-- The largest bound for which four squares fit. -/
def largestComponent : ℤ := 1518500249

/-- The Hamilton product of integers. -/
def exactMul (p q : IQuat) : IQuat where
  x := p.w * q.x + p.x * q.w + p.y * q.z - p.z * q.y
  y := p.w * q.y - p.x * q.z + p.y * q.w + p.z * q.x
  z := p.w * q.z + p.x * q.y - p.y * q.x + p.z * q.w
  w := p.w * q.w - p.x * q.x - p.y * q.y - p.z * q.z

/-- A component that is a number, and if it is an integer at most this large. -/
def NumberWithin (b : ℤ) : PyArg → Prop
  | .int n => |n| ≤ b
  | .float _ => True
  | .other => False

end HandEye.Spec
