import Verif.Model.DualQuat

/-!
# Model of quaternions with integer components

`Q.py` abbreviates `/repo/hand_eye_calibration/python/hand_eye_calibration/quaternion.py`, `DQ.py` `dual_quaternion.py` in the same directory.  In the other
files the components are real numbers.  But `Quaternion(1, 2, 3, 4)` has an array of type `int64` (Q.py:23), in which sums and products that are too large
wrap around; `numpy` warns at most.  Arrays of other types (integers that do not fit, complex numbers) are left out.
-/

namespace HandEye

/-- Arithmetic of `int64`: the number in `[-2^63, 2^63)` that is the same modulo `2^64`. -/
def wrap64 (n : ℤ) : ℤ := (n + 2 ^ 63) % 2 ^ 64 - 2 ^ 63

/-- An array of type `int64` with four components. -/
@[ext]
structure IQuat where
  x : ℤ
  y : ℤ
  z : ℤ
  w : ℤ
  deriving DecidableEq

/-- A `Quaternion` with its type of array. -/
inductive NumQuat where
  | int (q : IQuat)
  | float (q : Quat)

/-- A component as the constructor gets it; `other` is no `Number`. -/
inductive PyArg where
  | int (n : ℤ)
  | float (r : ℝ)
  | other

/-- The value of a component. -/
def PyArg.value : PyArg → ℝ
  | .int n => n
  | .float r => r
  | .other => 0

/-- It is a number. -/
def PyArg.isNumber : PyArg → Bool
  | .other => false
  | _ => true

/-- The argument `q` of the constructor: missing, an array, or something else, for instance a list. -/
inductive QArg where
  | missing
  | array (a : NumQuat)
  | list (l : List PyArg)

namespace NumQuat

/-- The type of `np.array([x, y, z, w])`. -/
def ofArgs : PyArg → PyArg → PyArg → PyArg → NumQuat
  | .int x, .int y, .int z, .int w => .int ⟨x, y, z, w⟩
  | x, y, z, w => .float ⟨x.value, y.value, z.value, w.value⟩

/-- Q.py:18-28 the constructor. -/
def construct (x y z w : PyArg) (q : QArg) : Py NumQuat :=
  match q with
  | .missing =>
    match x, y, z, w with
    | .other, _, _, _ => .error .assertion
    | _, .other, _, _ => .error .assertion
    | _, _, .other, _ => .error .assertion
    | _, _, _, .other => .error .assertion
    | x, y, z, w => .ok (ofArgs x y z w)
  | .array a => .ok a
  | .list _ => .error .assertion

/-- The numbers in the array. -/
def real : NumQuat → Quat
  | .int q => ⟨q.x, q.y, q.z, q.w⟩
  | .float q => q

/-- Q.py:34-37 `__add__`. -/
def add : NumQuat → NumQuat → NumQuat
  | .int p, .int q => .int ⟨wrap64 (p.x + q.x), wrap64 (p.y + q.y), wrap64 (p.z + q.z), wrap64 (p.w + q.w)⟩
  | p, q => .float (p.real + q.real)

/-- Q.py:39-40 `__neg__`. -/
def neg : NumQuat → NumQuat
  | .int q => .int ⟨wrap64 (-q.x), wrap64 (-q.y), wrap64 (-q.z), wrap64 (-q.w)⟩
  | .float q => .float (-q)

/-- Q.py:42-45 `__sub__`. -/
def sub : NumQuat → NumQuat → NumQuat
  | .int p, .int q => .int ⟨wrap64 (p.x - q.x), wrap64 (p.y - q.y), wrap64 (p.z - q.z), wrap64 (p.w - q.w)⟩
  | p, q => .float (p.real - q.real)

/-- A product of `int64`. -/
def mul64 (a b : ℤ) : ℤ := wrap64 (a * b)

/-- A sum of `int64`. -/
def add64 (a b : ℤ) : ℤ := wrap64 (a + b)

/-- A difference of `int64`. -/
def sub64 (a b : ℤ) : ℤ := wrap64 (a - b)

/-- Q.py:47-63 `__mul__` with a quaternion; every step wraps. -/
def mul : NumQuat → NumQuat → NumQuat
  | .int p, .int q => .int
    ⟨sub64 (add64 (add64 (mul64 p.w q.x) (mul64 p.x q.w)) (mul64 p.y q.z)) (mul64 p.z q.y),
     add64 (add64 (sub64 (mul64 p.w q.y) (mul64 p.x q.z)) (mul64 p.y q.w)) (mul64 p.z q.x),
     add64 (sub64 (add64 (mul64 p.w q.z) (mul64 p.x q.y)) (mul64 p.y q.x)) (mul64 p.z q.w),
     sub64 (sub64 (sub64 (mul64 p.w q.w) (mul64 p.x q.x)) (mul64 p.y q.y)) (mul64 p.z q.z)⟩
  | p, q => .float (p.real * q.real)

/-- Q.py:64-67, 72-83: with a scalar, which is made a float. -/
def smul (s : ℝ) (q : NumQuat) : NumQuat := .float (s • q.real)

/-- Q.py:154-156 `conjugate`. -/
def conj : NumQuat → NumQuat
  | .int q => .int ⟨wrap64 (-q.x), wrap64 (-q.y), wrap64 (-q.z), q.w⟩
  | .float q => .float q.conj

/-- Q.py:158-160 `squared_norm`, `np.dot` of an array with itself. -/
def squaredNorm : NumQuat → ℝ
  | .int q => (add64 (add64 (add64 (mul64 q.x q.x) (mul64 q.y q.y)) (mul64 q.z q.z)) (mul64 q.w q.w) : ℤ)
  | .float q => q.squaredNorm

/-- Q.py:162-164 `inverse`. -/
noncomputable def inverse (q : NumQuat) : Py Quat := q.conj.real.divScalar q.squaredNorm

/-- Q.py:166-168 `norm` (`nan` for a negative number). -/
noncomputable def norm (q : NumQuat) : Py ℝ := npSqrt q.squaredNorm

/-- Q.py:170-175 `normalize`: `nan > 1e-8` is false. -/
noncomputable def normalize (q : NumQuat) : NumQuat :=
  match q.norm with
  | .ok n => if n > 1e-8 then .float ⟨q.real.x / n, q.real.y / n, q.real.z / n, q.real.w / n⟩ else q
  | .error _ => q

/-- Q.py:191-206 `to_rotation_matrix` of an array of type `int64`, before it is made a matrix of floats. -/
def rotationEntries (q : IQuat) : Matrix (Fin 3) (Fin 3) ℤ :=
  let sq (a : ℤ) : ℤ := mul64 2 (mul64 a a)
  let pr (a b : ℤ) : ℤ := mul64 (mul64 2 a) b
  !![sub64 (sub64 1 (sq q.y)) (sq q.z), sub64 (pr q.x q.y) (pr q.z q.w), add64 (pr q.x q.z) (pr q.y q.w);
     add64 (pr q.x q.y) (pr q.z q.w), sub64 (sub64 1 (sq q.x)) (sq q.z), sub64 (pr q.y q.z) (pr q.x q.w);
     sub64 (pr q.x q.z) (pr q.y q.w), add64 (pr q.y q.z) (pr q.x q.w), sub64 (sub64 1 (sq q.x)) (sq q.y)]

/-- Q.py:191-206 `to_rotation_matrix`. -/
def toRotationMatrix : NumQuat → Matrix (Fin 3) (Fin 3) ℝ
  | .int q => (rotationEntries q).map (Int.cast : ℤ → ℝ)
  | .float q => q.toRotationMatrix

/-- Q.py:177-189 `rotate_vector`, for a vector of floats. -/
def rotateVector (q : NumQuat) (v : Vec3) : Vec3 :=
  match q with
  | .int q =>
    let sq (a : ℤ) : ℤ := mul64 2 (mul64 a a)
    ⟨(sub64 (sub64 1 (sq q.y)) (sq q.z) : ℤ) * v.x + (mul64 2 (sub64 (mul64 q.x q.y) (mul64 q.z q.w)) : ℤ) * v.y +
       (mul64 2 (add64 (mul64 q.x q.z) (mul64 q.y q.w)) : ℤ) * v.z,
     (mul64 2 (add64 (mul64 q.x q.y) (mul64 q.z q.w)) : ℤ) * v.x + (sub64 (sub64 1 (sq q.x)) (sq q.z) : ℤ) * v.y +
       (mul64 2 (sub64 (mul64 q.y q.z) (mul64 q.x q.w)) : ℤ) * v.z,
     (mul64 2 (sub64 (mul64 q.x q.z) (mul64 q.y q.w)) : ℤ) * v.x + (mul64 2 (add64 (mul64 q.y q.z) (mul64 q.x q.w)) : ℤ) * v.y +
       (sub64 (sub64 1 (sq q.x)) (sq q.y) : ℤ) * v.z⟩
  | .float q => q.rotateVector v

/-- DQ.py:138-144 `from_pose`; the array of the result has floats (DQ.py:28-34). -/
noncomputable def fromPose (x y z rx ry rz rw : PyArg) : Py DQuat := do
  let q ← construct rx ry rz rw .missing
  let qr := q.normalize
  let t ← construct x y z (.int 0) .missing
  let qt := smul 0.5 (t.mul qr)
  return ⟨qr.real, qt.real⟩

/-- DQ.py:128-136 `from_vector` of an array or list of eight numbers: the parts of the array are arrays.  (Other lengths are left out; what is no number
cannot be assigned to an array of floats in DQ.py:31-34.) -/
def fromVector (l : List PyArg) : Py DQuat :=
  match l with
  | [a, b, c, d, e, f, g, h] =>
    if l.all PyArg.isNumber then do
      let r ← construct (.float 0) (.float 0) (.float 0) (.float 1) (.array (ofArgs a b c d))
      let t ← construct (.float 0) (.float 0) (.float 0) (.float 1) (.array (ofArgs e f g h))
      return ⟨r.real, t.real⟩
    else .error .type
  | _ => .error .value

end NumQuat

end HandEye
