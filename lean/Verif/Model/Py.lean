import Mathlib.Data.Real.Basic
import Mathlib.Analysis.SpecialFunctions.Trigonometric.Inverse
import Mathlib.Analysis.SpecialFunctions.Log.Basic
import Mathlib.Analysis.Real.Sqrt

/-!
# Python and numpy vocabulary

Exceptions as values, numpy's tolerance comparisons, and guarded versions of the real functions
that numpy evaluates to `nan`/`inf` outside of their domain.
-/

namespace HandEye

/-- The ways a Python call can fail to return.  `nonFinite` stands for "numpy continues with
`nan`/`inf` here"; the model stops instead of continuing with a made-up number. -/
inductive PyErr where
  | assertion
  | index
  | value
  | zeroDivision
  | name
  | type
  | os
  | key
  | nonFinite
  deriving DecidableEq, Repr

/-- The result of a Python call: an exception or a value. -/
abbrev Py := Except PyErr

/-- Python's `assert p`. -/
def pyAssert (p : Prop) [Decidable p] : Py Unit :=
  if p then .ok () else .error .assertion

/-- `np.isclose(a, b, atol=atol)`: the default `rtol = 1e-5` stays active. -/
abbrev npIsclose (a b atol : ℝ) : Prop := |a - b| ≤ atol + 1e-5 * |b|

/-- Division as numpy performs it on finite floats: no finite result for a zero divisor. -/
noncomputable def npDiv (a b : ℝ) : Py ℝ :=
  if b = 0 then .error .nonFinite else .ok (a / b)

/-- `np.sqrt` on finite floats: no finite result for a negative radicand. -/
noncomputable def npSqrt (a : ℝ) : Py ℝ :=
  if a < 0 then .error .nonFinite else .ok (Real.sqrt a)

/-- `np.arccos` on finite floats: no finite result outside `[-1, 1]`. -/
noncomputable def npArccos (a : ℝ) : Py ℝ :=
  if -1 ≤ a ∧ a ≤ 1 then .ok (Real.arccos a) else .error .nonFinite

/-- `np.clip(x, lo, hi)`, which numpy defines as `minimum(hi, maximum(x, lo))`. -/
noncomputable def npClip (x lo hi : ℝ) : ℝ := min hi (max x lo)

/-- `np.degrees`. -/
noncomputable def npDegrees (x : ℝ) : ℝ := x * (180 / Real.pi)

/-- `np.mod(x, m)` for `m > 0`. -/
noncomputable def npMod (x m : ℝ) : ℝ := x - m * ⌊x / m⌋

/-- A 3-vector (`np.array` of shape `(3,)`). -/
@[ext]
structure Vec3 where
  x : ℝ
  y : ℝ
  z : ℝ

namespace Vec3

/-- `u + v` of arrays. -/
def add (u v : Vec3) : Vec3 := ⟨u.x + v.x, u.y + v.y, u.z + v.z⟩

/-- `u - v` of arrays. -/
def sub (u v : Vec3) : Vec3 := ⟨u.x - v.x, u.y - v.y, u.z - v.z⟩

/-- `s * u`. -/
def smul (s : ℝ) (u : Vec3) : Vec3 := ⟨s * u.x, s * u.y, s * u.z⟩

instance : Add Vec3 := ⟨add⟩
instance : Sub Vec3 := ⟨sub⟩
instance : SMul ℝ Vec3 := ⟨smul⟩
instance : Zero Vec3 := ⟨⟨0, 0, 0⟩⟩

/-- `np.dot` / `np.inner` of 3-vectors. -/
def dot (u v : Vec3) : ℝ := u.x * v.x + u.y * v.y + u.z * v.z

/-- `np.linalg.norm` of a 3-vector. -/
noncomputable def norm (u : Vec3) : ℝ := Real.sqrt (u.dot u)

end Vec3

end HandEye
