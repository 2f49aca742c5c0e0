import Verif.Model.Quat

/-!
# Model of `hand_eye_calibration/dual_quaternion.py`

`DQ.py` below abbreviates
`/repo/hand_eye_calibration/python/hand_eye_calibration/dual_quaternion.py`.
-/

namespace HandEye

/-- DQ.py:9-36.  The array `dq` of a `DualQuaternion`: real part `q_rot`, dual part `q_dual`. -/
@[ext]
structure DQuat where
  rot : Quat
  dual : Quat

/-- A pose vector `[x, y, z, qx, qy, qz, qw]`. -/
@[ext]
structure Pose where
  pos : Vec3
  q : Quat

namespace DQuat

/-- DQ.py:44-47 `__add__`. -/
def add (a b : DQuat) : DQuat := ⟨a.rot + b.rot, a.dual + b.dual⟩

/-- DQ.py:49-52 `__sub__`. -/
def sub (a b : DQuat) : DQuat := ⟨a.rot - b.rot, a.dual - b.dual⟩

/-- `-a.dq` (array negation, used all over the code). -/
def neg (a : DQuat) : DQuat := ⟨-a.rot, -a.dual⟩

/-- DQ.py:54-70 `__mul__` with a dual quaternion. -/
def mul (a b : DQuat) : DQuat := ⟨a.rot * b.rot, a.rot * b.dual + a.dual * b.rot⟩

/-- DQ.py:71-74 `__mul__` with a scalar and DQ.py:78-89 `__rmul__`. -/
def smul (s : ℝ) (a : DQuat) : DQuat := ⟨s • a.rot, s • a.dual⟩

instance : Add DQuat := ⟨add⟩
instance : Sub DQuat := ⟨sub⟩
instance : Neg DQuat := ⟨neg⟩
instance : Mul DQuat := ⟨mul⟩
instance : SMul ℝ DQuat := ⟨smul⟩

/-- DQ.py:121-126 `__eq__` between dual quaternions: `np.allclose(self.dq, other.dq)` (default
tolerances `rtol = 1e-5`, `atol = 1e-8`). -/
abbrev pyEq (a b : DQuat) : Prop := a.rot.allclose b.rot 1e-8 ∧ a.dual.allclose b.dual 1e-8

/-- `np.allclose(a.dq, b.dq, atol=atol)`. -/
abbrev allclose (a b : DQuat) (atol : ℝ) : Prop := a.rot.allclose b.rot atol ∧ a.dual.allclose b.dual atol

/-- DQ.py:161-165 `identity`. -/
def identity : DQuat := ⟨⟨0, 0, 0, 1⟩, ⟨0, 0, 0, 0⟩⟩

/-- DQ.py:171-173 `conjugate`. -/
def conj (a : DQuat) : DQuat := ⟨a.rot.conj, a.dual.conj⟩

/-- DQ.py:187-194 `norm`: `(real_norm, dual_norm)`. -/
noncomputable def norm (a : DQuat) : Py (ℝ × ℝ) := do
  pyAssert (a.rot.norm > 1e-8)
  return (a.rot.norm, a.rot.dot a.dual / a.rot.norm)

/-- DQ.py:196-199 `is_normalized`. -/
noncomputable def isNormalized (a : DQuat) : Py Bool := do
  let n ← a.norm
  return decide (|n.1 - 1| < 1e-8) && decide (|n.2| < 1e-8)

/-- What Python's `assert` sees: a value with a truth value. -/
inductive PyVal where
  /-- a bound method object, e.g. `self.is_normalized` without parentheses -/
  | boundMethod
  | bool (b : Bool)

/-- Python truthiness: every method object is true. -/
def PyVal.truthy : PyVal → Bool
  | .boundMethod => true
  | .bool b => b

/-- DQ.py:201-202 `assert_normalization`: `assert self.is_normalized` mentions the method without
calling it, so the asserted value is the bound method itself. -/
def assertNormalization (_a : DQuat) : Py Unit := pyAssert (PyVal.boundMethod.truthy = true)

/-- DQ.py:23-36 the constructor `DualQuaternion(q_rot, q_dual)`.  The other definitions of this
file build values directly with `⟨_, _⟩`; `construct_eq_ok` in `Lemmas/DualQuat` shows that this is
the same. -/
def construct (r d : Quat) : Py DQuat := do
  let a : DQuat := ⟨r, d⟩
  a.assertNormalization
  return a

/-- DQ.py:138-149 `from_pose` and `from_pose_vector`. -/
noncomputable def fromPose (p : Pose) : DQuat :=
  let qr := p.q.normalize
  let qt := (0.5 : ℝ) • ((⟨p.pos.x, p.pos.y, p.pos.z, 0⟩ : Quat) * qr)
  ⟨qr, qt⟩

/-- DQ.py:151-159 `from_transformation_matrix`. -/
noncomputable def fromTransformationMatrix (M : Matrix (Fin 4) (Fin 4) ℝ) : Py DQuat := do
  let q ← Quat.fromRotationMatrix !![M 0 0, M 0 1, M 0 2; M 1 0, M 1 1, M 1 2; M 2 0, M 2 1, M 2 2]
  return fromPose ⟨⟨M 0 3, M 1 3, M 2 3⟩, q⟩

/-- DQ.py:175-179 `inverse`. -/
noncomputable def inverse (a : DQuat) : Py DQuat := do
  let n ← a.norm
  pyAssert (n.1 > 1e-8)
  let i ← a.rot.inverse
  return ⟨i, (-i) * a.dual * i⟩

/-- DQ.py:181-185 `enforce_positive_q_rot_w` (returns the mutated object). -/
noncomputable def enforcePositiveQRotW (a : DQuat) : Py DQuat := do
  let n ← a.norm
  pyAssert (n.1 > 1e-8)
  return if a.rot.w < 0 then -a else a

/-- DQ.py:204-209 `normalize` (returns the mutated object). -/
noncomputable def normalize (a : DQuat) : Py DQuat := do
  let r ← a.rot.divScalar a.rot.norm
  let d ← a.dual.divScalar a.rot.norm
  let a' : DQuat := ⟨r, d⟩
  a'.assertNormalization
  return a'

/-- DQ.py:211-219 `scalar`. -/
noncomputable def scalar (a : DQuat) : Py DQuat := do
  let s := (0.5 : ℝ) • (a + a.conj)
  pyAssert (npIsclose s.rot.x 0 1e-6 ∧ npIsclose s.rot.y 0 1e-6 ∧ npIsclose s.rot.z 0 1e-6 ∧
    npIsclose s.dual.x 0 1e-6 ∧ npIsclose s.dual.y 0 1e-6 ∧ npIsclose s.dual.z 0 1e-6)
  return s

/-- DQ.py:221-238 `screw_axis`: `(screw_axis, rotation [deg], translation)`. -/
noncomputable def screwAxis (a : DQuat) : Py (Vec3 × ℝ × ℝ) := do
  let ac ← npArccos a.rot.w
  let rotation := npMod (2 * npDegrees ac) 360
  if rotation > 1e-12 then
    let s := Real.sin (rotation / 2 * Real.pi / 180)
    let translation ← npDiv (-2 * a.dual.w) s
    let x ← npDiv a.rot.x s
    let y ← npDiv a.rot.y s
    let z ← npDiv a.rot.z s
    return (⟨x, y, z⟩, rotation, translation)
  else
    let translation := 2 * Real.sqrt (a.dual.x ^ 2 + a.dual.y ^ 2 + a.dual.z ^ 2)
    if translation > 1e-12 then
      return (⟨2 * a.dual.x / translation, 2 * a.dual.y / translation, 2 * a.dual.z / translation⟩,
        rotation, translation)
    else
      return (⟨0, 0, 0⟩, rotation, translation)

/-- DQ.py:266-281 `to_pose`: the pose, and the object as mutated by `self.normalize()`. -/
noncomputable def toPose (a : DQuat) : Py (Pose × DQuat) := do
  let a ← a.normalize
  let q := if a.rot.w < 0 then -a.rot else a.rot
  let t := ((2 : ℝ) • a.dual) * a.rot.conj
  return (⟨t.vec, q⟩, a)

/-- DQ.py:258-264 `to_matrix`: the matrix, and the object as mutated by `self.normalize()` and
`self.to_pose()`. -/
noncomputable def toMatrix (a : DQuat) : Py (Matrix (Fin 4) (Fin 4) ℝ × DQuat) := do
  let a ← a.normalize
  let R := a.rot.toRotationMatrix
  let (p, a) ← a.toPose
  return (!![R 0 0, R 0 1, R 0 2, p.pos.x;
             R 1 0, R 1 1, R 1 2, p.pos.y;
             R 2 0, R 2 1, R 2 2, p.pos.z;
             0, 0, 0, 1], a)

/-- DQ.py:240-247 `passive_transform_point`. -/
noncomputable def passiveTransformPoint (a : DQuat) (p : Vec3) : Py Vec3 := do
  let pdq := fromPose ⟨p, ⟨0, 0, 0, 1⟩⟩
  let r ← (a * pdq).toPose
  return r.1.pos

/-- DQ.py:249-252 `active_transform_point`. -/
noncomputable def activeTransformPoint (a : DQuat) (p : Vec3) : Py Vec3 := do
  let i ← a.inverse
  i.passiveTransformPoint p

/-- DQ.py:91-107 `__truediv__` by a dual quaternion. -/
noncomputable def divDQuat (a b : DQuat) : Py DQuat := do
  let i ← b.inverse
  return a * i

/-- DQ.py:104-107 `__truediv__` by a scalar. -/
noncomputable def divScalar (a : DQuat) (s : ℝ) : Py DQuat := do
  let r ← a.rot.divScalar s
  let d ← a.dual.divScalar s
  return ⟨r, d⟩

end DQuat

end HandEye
