import Verif.Model.DualQuat
import Mathlib.LinearAlgebra.UnitaryGroup

/-!
# The comparisons of `numpy.testing`
-/

namespace HandEye.Spec

/-- `npt.assert_allclose(actual, desired, rtol, atol)` for one number; the defaults of numpy are `1e-7` and `0`. -/
def AssertClose (rtol atol actual desired : ℝ) : Prop := |actual - desired| ≤ atol + rtol * |desired|

/-- `npt.assert_almost_equal(actual, desired)`: seven decimals. -/
def AlmostEqual (actual desired : ℝ) : Prop := |desired - actual| < 1.5e-7

/-- `npt.assert_allclose` for the arrays of quaternions. -/
structure QuatClose (rtol atol : ℝ) (actual desired : Quat) : Prop where
  x : AssertClose rtol atol actual.x desired.x
  y : AssertClose rtol atol actual.y desired.y
  z : AssertClose rtol atol actual.z desired.z
  w : AssertClose rtol atol actual.w desired.w

/-- `npt.assert_allclose` for the arrays of dual quaternions. -/
structure DQuatClose (rtol atol : ℝ) (actual desired : DQuat) : Prop where
  rot : QuatClose rtol atol actual.rot desired.rot
  dual : QuatClose rtol atol actual.dual desired.dual

/-- A rotation as a homogeneous 4x4 matrix, as `tf.transformations.random_rotation_matrix` gives it. -/
structure Rotation4 (R : Matrix (Fin 4) (Fin 4) ℝ) : Prop where
  block : (Matrix.of fun i j : Fin 3 => R i.castSucc j.castSucc) ∈ Matrix.specialOrthogonalGroup (Fin 3) ℝ
  row : ∀ j : Fin 3, R 3 j.castSucc = 0
  column : ∀ i : Fin 3, R i.castSucc 3 = 0
  corner : R 3 3 = 1

/-- A half turn: the trace of the rotation is -1. -/
def HalfTurn4 (R : Matrix (Fin 4) (Fin 4) ℝ) : Prop := R 0 0 + R 1 1 + R 2 2 = -1

end HandEye.Spec
