import Verif.Model.Py
import Mathlib.Data.Matrix.Basic

/-!
# Model of `hand_eye_calibration/quaternion.py`

`Q.py` below abbreviates
`/repo/hand_eye_calibration/python/hand_eye_calibration/quaternion.py`.
-/

namespace HandEye

/-- Q.py:8-26.  The array `q = [x y z w]` of a `Quaternion`. -/
@[ext]
structure Quat where
  x : ℝ
  y : ℝ
  z : ℝ
  w : ℝ

namespace Quat

/-- Q.py:34-37 `__add__`. -/
def add (p q : Quat) : Quat := ⟨p.x + q.x, p.y + q.y, p.z + q.z, p.w + q.w⟩

/-- Q.py:39-40 `__neg__`. -/
def neg (q : Quat) : Quat := ⟨-q.x, -q.y, -q.z, -q.w⟩

/-- Q.py:42-45 `__sub__`. -/
def sub (p q : Quat) : Quat := ⟨p.x - q.x, p.y - q.y, p.z - q.z, p.w - q.w⟩

/-- Q.py:47-63 `__mul__` with a quaternion. -/
def mul (p q : Quat) : Quat where
  x := p.w * q.x + p.x * q.w + p.y * q.z - p.z * q.y
  y := p.w * q.y - p.x * q.z + p.y * q.w + p.z * q.x
  z := p.w * q.z + p.x * q.y - p.y * q.x + p.z * q.w
  w := p.w * q.w - p.x * q.x - p.y * q.y - p.z * q.z

/-- Q.py:64-67 `__mul__` with a scalar, and Q.py:72-83 `__rmul__`
(multiplication of reals commutes, so both are the same function). -/
def smul (s : ℝ) (q : Quat) : Quat := ⟨s * q.x, s * q.y, s * q.z, s * q.w⟩

instance : Add Quat := ⟨add⟩
instance : Neg Quat := ⟨neg⟩
instance : Sub Quat := ⟨sub⟩
instance : Mul Quat := ⟨mul⟩
instance : SMul ℝ Quat := ⟨smul⟩

/-- `np.dot` of two quaternion arrays. -/
def dot (p q : Quat) : ℝ := p.x * q.x + p.y * q.y + p.z * q.z + p.w * q.w

/-- `q.q[0:3]` (also written `q.q[0:-1]`). -/
def vec (q : Quat) : Vec3 := ⟨q.x, q.y, q.z⟩

/-- Q.py:85-97 `__truediv__` by a scalar (no finite result for a zero scalar). -/
noncomputable def divScalar (q : Quat) (s : ℝ) : Py Quat :=
  if s = 0 then .error .nonFinite else .ok ⟨q.x / s, q.y / s, q.z / s, q.w / s⟩

/-- Q.py:154-156 `conjugate`. -/
def conj (q : Quat) : Quat := ⟨-q.x, -q.y, -q.z, q.w⟩

/-- Q.py:158-160 `squared_norm`. -/
def squaredNorm (q : Quat) : ℝ := q.dot q

/-- Q.py:162-164 `inverse`. -/
noncomputable def inverse (q : Quat) : Py Quat := q.conj.divScalar q.squaredNorm

/-- Q.py:85-93 `__truediv__` by a quaternion. -/
noncomputable def divQuat (p q : Quat) : Py Quat := do
  let i ← q.inverse
  return p * i

/-- Q.py:166-168 `norm`. -/
noncomputable def norm (q : Quat) : ℝ := Real.sqrt (q.dot q)

/-- Q.py:170-175 `normalize` (returns the mutated object; tiny quaternions are left alone). -/
noncomputable def normalize (q : Quat) : Quat :=
  if q.norm > 1e-8 then ⟨q.x / q.norm, q.y / q.norm, q.z / q.norm, q.w / q.norm⟩ else q

/-- Q.py:102-113 `from_rotation_matrix`. -/
noncomputable def fromRotationMatrix (R : Matrix (Fin 3) (Fin 3) ℝ) : Py Quat := do
  let r ← npSqrt (1 + R 0 0 + R 1 1 + R 2 2)
  let w := r / 2
  let w4 := 4 * w
  let x ← npDiv (R 2 1 - R 1 2) w4
  let y ← npDiv (R 0 2 - R 2 0) w4
  let z ← npDiv (R 1 0 - R 0 1) w4
  return ⟨x, y, z, w⟩

/-- Q.py:115-122 `from_angle_axis`. -/
noncomputable def fromAngleAxis (angle : ℝ) (axis : Vec3) : Quat :=
  let q : Quat := ⟨axis.x, axis.y, axis.z, 0⟩
  let n := q.norm
  let q := if n > 1e-16 then (Real.sin (angle / 2) / n) • q else q
  ⟨q.x, q.y, q.z, Real.cos (angle / 2)⟩

/-- Q.py:135-148 `angle_axis`: `(axis, angle)`.  `np.arccos` is not finite outside [-1,1], and the division by
`sqrt(1 - w^2)` has no finite result at `w = -1`. -/
noncomputable def angleAxis (q : Quat) : Py (Vec3 × ℝ) :=
  if npIsclose q.w 1 1e-12 then .ok (⟨1, 0, 0⟩, 0)
  else do
    let a ← npArccos q.w
    let s ← npSqrt (1 - q.w * q.w)
    let x ← npDiv q.x s
    let y ← npDiv q.y s
    let z ← npDiv q.z s
    return (⟨x, y, z⟩, 2 * a)

/-- Q.py:177-189 `rotate_vector`. -/
def rotateVector (q : Quat) (v : Vec3) : Vec3 where
  x := (1 - 2 * q.y ^ 2 - 2 * q.z ^ 2) * v.x + 2 * (q.x * q.y - q.z * q.w) * v.y +
    2 * (q.x * q.z + q.y * q.w) * v.z
  y := 2 * (q.x * q.y + q.z * q.w) * v.x + (1 - 2 * q.x ^ 2 - 2 * q.z ^ 2) * v.y +
    2 * (q.y * q.z - q.x * q.w) * v.z
  z := 2 * (q.x * q.z - q.y * q.w) * v.x + 2 * (q.y * q.z + q.x * q.w) * v.y +
    (1 - 2 * q.x ^ 2 - 2 * q.y ^ 2) * v.z

/-- Q.py:191-206 `to_rotation_matrix`. -/
def toRotationMatrix (q : Quat) : Matrix (Fin 3) (Fin 3) ℝ :=
  !![1 - 2 * q.y ^ 2 - 2 * q.z ^ 2, 2 * q.x * q.y - 2 * q.z * q.w, 2 * q.x * q.z + 2 * q.y * q.w;
     2 * q.x * q.y + 2 * q.z * q.w, 1 - 2 * q.x ^ 2 - 2 * q.z ^ 2, 2 * q.y * q.z - 2 * q.x * q.w;
     2 * q.x * q.z - 2 * q.y * q.w, 2 * q.y * q.z + 2 * q.x * q.w, 1 - 2 * q.x ^ 2 - 2 * q.y ^ 2]

/-- Q.py:208-212 `to_transformation_matrix`: the identity with the upper left block replaced. -/
def toTransformationMatrix (q : Quat) : Matrix (Fin 4) (Fin 4) ℝ :=
  let R := q.toRotationMatrix
  !![R 0 0, R 0 1, R 0 2, 0;
     R 1 0, R 1 1, R 1 2, 0;
     R 2 0, R 2 1, R 2 2, 0;
     0, 0, 0, 1]

/-- `np.allclose(p.q, q.q, atol=atol)`. -/
abbrev allclose (p q : Quat) (atol : ℝ) : Prop :=
  npIsclose p.x q.x atol ∧ npIsclose p.y q.y atol ∧ npIsclose p.z q.z atol ∧ npIsclose p.w q.w atol

end Quat

/-- Q.py:231-267 `quaternion_slerp` (`isinstance` assertions are typing). -/
noncomputable def quaternionSlerp (q_1 q_2 : Quat) (fraction : ℝ) : Py Quat := do
  pyAssert (fraction ≥ 0 ∧ fraction ≤ 1)
  pyAssert (npIsclose q_1.norm 1 1e-8)
  pyAssert (npIsclose q_2.norm 1 1e-8)
  if fraction = 0 then
    return q_1
  else if fraction = 1 then
    return q_2
  else
    let d := q_1.dot q_2
    let (dot_product, q1) := if d < 0 then (-d, -q_1) else (d, q_1)
    let dot_product := npClip dot_product (-1) 1
    let theta_prime ← npArccos dot_product
    let theta := theta_prime * fraction
    let q_3 := (q_2 - dot_product • q1).normalize
    return Real.cos theta • q1 + Real.sin theta • q_3

/-- Q.py:270-291 `quaternion_lerp`. -/
noncomputable def quaternionLerp (q_1 q_2 : Quat) (fraction : ℝ) : Py Quat := do
  pyAssert (fraction ≥ 0 ∧ fraction ≤ 1)
  pyAssert (npIsclose q_1.norm 1 1e-8)
  pyAssert (npIsclose q_2.norm 1 1e-8)
  if fraction = 0 then
    return q_1
  else if fraction = 1 then
    return q_2
  else
    return q_1 + fraction • (q_2 - q_1)

/-- Q.py:294-298 `quaternion_nlerp`. -/
noncomputable def quaternionNlerp (q_1 q_2 : Quat) (fraction : ℝ) : Py Quat := do
  let q ← quaternionLerp q_1 q_2 fraction
  return q.normalize

/-- Q.py:301-307 `quaternions_interpolate`.  The division of the array of times is element-wise; each
element fails alone (an empty list of times divides nothing). -/
noncomputable def quaternionsInterpolate (q_left : Quat) (t_left : ℝ) (q_right : Quat)
    (t_right : ℝ) (times : List ℝ) : Py (List Quat) := do
  let scaled ← times.mapM fun t => npDiv (t - t_left) (t_right - t_left)
  scaled.mapM fun f => quaternionSlerp q_left q_right f

/-- Q.py:310-314 `angle_between_quaternions`. -/
noncomputable def angleBetweenQuaternions (q1 q2 : Quat) : Py ℝ :=
  if q1.allclose q2 1e-12 then .ok 0
  else do
    let i ← q2.inverse
    let a ← npArccos (q1 * i).w
    return 2 * a

/-- Q.py:317-325 `angular_velocity_between_quaternions`. -/
noncomputable def angularVelocityBetweenQuaternions (q1 q2 : Quat) (t : ℝ) : Py Vec3 := do
  let i ← q2.inverse
  let d := q1 * i
  let d := if d.w < 0 then -d else d
  let (axis, angle) ← d.angleAxis
  let h ← npDiv 0.5 t
  return (h * angle) • axis

end HandEye
