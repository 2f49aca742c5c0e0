import Verif.Model.HandEye
import Verif.Model.Csv
import Mathlib.Data.Int.Log

/-!
# The quaternion classes in floating-point arithmetic

`Model/Quat.lean` and `Model/DualQuat.lean` read the code over the real numbers.  Here the same lines are read
with a rounding after every elementary operation, in the order in which Python performs the operations.  `Q.py`,
`DQ.py` and `HE.py` abbreviate `quaternion.py`, `dual_quaternion.py` and `dual_quaternion_hand_eye_calibration.py` in
`/repo/hand_eye_calibration/python/hand_eye_calibration/`.

Simplified: no overflow and no underflow (exponents are unbounded), no signed zero; the constants `1e-8` and `1e-12`
and the comparison `np.allclose` are read exactly.
-/

namespace HandEye

/-- The arithmetic of the machine: `fl` rounds the exact result of `+`, `-`, `*`, `/` and `np.sqrt`; `dot` is
`np.dot` of two arrays with four elements (the order of its additions is up to the library); `acos` is `np.arccos`
between -1 and 1. -/
structure Arith where
  fl : ℝ → ℝ
  dot : Quat → Quat → ℝ
  acos : ℝ → ℝ

namespace Arith

variable (A : Arith)

/-- Q.py:55-63 `__mul__` with a quaternion. -/
def mul (p q : Quat) : Quat where
  x := A.fl (A.fl (A.fl (A.fl (p.w * q.x) + A.fl (p.x * q.w)) + A.fl (p.y * q.z)) - A.fl (p.z * q.y))
  y := A.fl (A.fl (A.fl (A.fl (p.w * q.y) - A.fl (p.x * q.z)) + A.fl (p.y * q.w)) + A.fl (p.z * q.x))
  z := A.fl (A.fl (A.fl (A.fl (p.w * q.z) + A.fl (p.x * q.y)) - A.fl (p.y * q.x)) + A.fl (p.z * q.w))
  w := A.fl (A.fl (A.fl (A.fl (p.w * q.w) - A.fl (p.x * q.x)) - A.fl (p.y * q.y)) - A.fl (p.z * q.z))

/-- Q.py:34-37 `__add__`. -/
def add (p q : Quat) : Quat := ⟨A.fl (p.x + q.x), A.fl (p.y + q.y), A.fl (p.z + q.z), A.fl (p.w + q.w)⟩

/-- Q.py:64-67 and 72-83: the product with a scalar. -/
def smul (s : ℝ) (q : Quat) : Quat := ⟨A.fl (s * q.x), A.fl (s * q.y), A.fl (s * q.z), A.fl (s * q.w)⟩

/-- The quotient of an array by a number that is not zero. -/
noncomputable def quot (q : Quat) (s : ℝ) : Quat := ⟨A.fl (q.x / s), A.fl (q.y / s), A.fl (q.z / s), A.fl (q.w / s)⟩

/-- Q.py:94-97 `__truediv__` by a scalar. -/
noncomputable def divScalar (q : Quat) (s : ℝ) : Py Quat := if s = 0 then .error .nonFinite else .ok (A.quot q s)

/-- Q.py:158-164 `inverse`. -/
noncomputable def inverse (q : Quat) : Py Quat := A.divScalar q.conj (A.dot q q)

/-- Q.py:166-168 `norm`. -/
noncomputable def norm (q : Quat) : ℝ := A.fl (Real.sqrt (A.dot q q))

/-- Q.py:170-175 `normalize`. -/
noncomputable def normalize (q : Quat) : Quat := if A.norm q > 1e-8 then A.quot q (A.norm q) else q

/-- Q.py:310-314 `angle_between_quaternions`. -/
noncomputable def angleBetween (q1 q2 : Quat) : Py ℝ :=
  if q1.allclose q2 1e-12 then .ok 0
  else do
    let i ← A.inverse q2
    let w := (A.mul q1 i).w
    if -1 ≤ w ∧ w ≤ 1 then .ok (A.fl (2 * A.acos w)) else .error .nonFinite

/-- DQ.py:66-70 `__mul__` with a dual quaternion. -/
def dqMul (a b : DQuat) : DQuat := ⟨A.mul a.rot b.rot, A.add (A.mul a.rot b.dual) (A.mul a.dual b.rot)⟩

/-- DQ.py:175-179 `inverse`.  (The norm is compared with 1e-8 twice, in `norm` and in `inverse`; the dual norm
that `norm` also computes is not used.) -/
noncomputable def dqInverse (a : DQuat) : Py DQuat := do
  pyAssert (A.norm a.rot > 1e-8)
  let i ← A.inverse a.rot
  return ⟨i, A.mul (A.mul (-i) a.dual) i⟩

/-- DQ.py:204-209 `normalize`. -/
noncomputable def dqNormalize (a : DQuat) : Py DQuat := do
  let r ← A.divScalar a.rot (A.norm a.rot)
  let d ← A.divScalar a.dual (A.norm a.rot)
  return ⟨r, d⟩

/-- DQ.py:138-149 `from_pose`. -/
noncomputable def fromPose (p : Pose) : DQuat :=
  let qr := A.normalize p.q
  ⟨qr, A.smul 0.5 (A.mul ⟨p.pos.x, p.pos.y, p.pos.z, 0⟩ qr)⟩

/-- DQ.py:266-281 `to_pose`. -/
noncomputable def toPose (a : DQuat) : Py Pose := do
  let a ← A.dqNormalize a
  let q := if a.rot.w < 0 then -a.rot else a.rot
  let t := A.mul (A.smul 2 a.dual) a.rot.conj
  return ⟨t.vec, q⟩

/-- HE.py:89-102 `compute_dual_quaternions_with_offset`. -/
noncomputable def withOffset (dq_B_H_vec : List DQuat) (dq_H_E dq_B_W : DQuat) : Py (List DQuat) := do
  let dq_W_B ← A.dqInverse dq_B_W
  dq_B_H_vec.mapM fun dq_B_H => do
    let dq_W_E ← A.dqNormalize (A.dqMul (A.dqMul dq_W_B dq_B_H) dq_H_E)
    pyAssert (A.norm dq_W_E.rot > 1e-8)
    pyAssert (npIsclose (A.norm dq_W_E.rot) 1 1e-8)
    return dq_W_E

/-- HE.py:110-115: the pose relative to the alignment pose. -/
noncomputable def rebase (dq_align_inverse : DQuat) (enforce : Bool) (dq : DQuat) : DQuat :=
  let r := A.dqMul dq_align_inverse dq
  if enforce then (if r.rot.w < 0 then -r else r) else r

/-- HE.py:105-124 `align_paths_at_index`. -/
noncomputable def alignPaths (dq_vec : List DQuat) (align_index : ℤ) (enforce : Bool) : Py (List DQuat) := do
  let dq_align ← pyGet dq_vec align_index
  let dq_align_inverse ← A.dqInverse dq_align
  let starting_at_origin := dq_vec.map (A.rebase dq_align_inverse enforce)
  let rearanged := pyFrom starting_at_origin align_index ++ pyTo starting_at_origin align_index
  let first ← pyAt rearanged 0
  pyAssert (first.allclose DQuat.identity 1e-8)
  return rearanged

/-- HE.py:351-374 `compute_pose_error`: only the error of the orientation, in degrees. -/
noncomputable def orientationError (pose_A pose_B : Pose) : Py ℝ := do
  let qA := A.normalize pose_A.q
  let qA := if qA.w < 0 then -qA else qA
  let qB := A.normalize pose_B.q
  let qB := if qB.w < 0 then -qB else qB
  let rad ← A.angleBetween qA qB
  let deg := A.fl (rad * A.fl (180 / A.fl Real.pi))
  return if deg > 180 then |A.fl (360 - deg)| else deg

end Arith

/-- Rounding to the nearest number with 53 binary digits, ties to even, as IEEE 754 does for the type `float64`
(here without bounds on the exponent). -/
noncomputable def roundDouble (x : ℝ) : ℝ :=
  let unit : ℝ := 2 ^ (Int.log 2 |x| - 52)
  (if x < 0 then -1 else 1) * (roundHalfEven (|x| / unit) * unit)

/-- The arithmetic of `float64`, with `np.dot` adding from the left to the right and a given `np.arccos`. -/
noncomputable def doubleArith (acos : ℝ → ℝ) : Arith where
  fl := roundDouble
  dot p q := roundDouble (roundDouble (roundDouble (roundDouble (p.x * q.x) + roundDouble (p.y * q.y)) + roundDouble (p.z * q.z)) +
    roundDouble (p.w * q.w))
  acos := acos

end HandEye
