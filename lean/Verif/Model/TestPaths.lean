import Verif.Model.HandEye
import Verif.Model.Pipeline
import Mathlib.Analysis.SpecialFunctions.Trigonometric.Basic

/-!
# Model of `hand_eye_calibration/hand_eye_test_helpers.py`: the trajectories of the tests

`HELP.py` abbreviates `/repo/hand_eye_calibration/python/hand_eye_calibration/hand_eye_test_helpers.py`.  The random
numbers are parameters: one for each place of the code and each pass of the loop.  The number of samples is a natural
number (numpy refuses a negative one).  Lines 120-122 print and are left out.
-/

namespace HandEye

/-- `tf.transformations.quaternion_from_euler(ai, aj, ak, 'rxyz')`: not in /repo, as documented by tf: the turn about
x, then the one about the new y axis, then the one about the new z axis. -/
noncomputable def quaternionFromEulerRxyz (ai aj ak : ℝ) : Quat :=
  ⟨Real.sin (ai / 2), 0, 0, Real.cos (ai / 2)⟩ * ⟨0, Real.sin (aj / 2), 0, Real.cos (aj / 2)⟩ *
    ⟨0, 0, Real.sin (ak / 2), Real.cos (ak / 2)⟩

/-- `np.linspace(0, 1, num=n)`, HELP.py:80. -/
noncomputable def unitLinspace (n : ℕ) : List ℝ :=
  if n = 1 then [0] else (List.range n).map fun i : ℕ => (i : ℝ) * (1 / ((n : ℝ) - 1))

/-- `np.random.normal(0.0, sigma)`, where `u` is drawn from the standard normal distribution. -/
noncomputable def npNormal (sigma u : ℝ) : Py ℝ := do
  pyRequire (0 ≤ sigma) .value
  return sigma * u

/-- HELP.py:73-75: the optional arguments of `generate_test_path`. -/
structure PathOptions where
  include_outliers : Bool := false
  outlier_probability : ℝ := 0.1
  include_noise : Bool := false
  noise_sigma_trans : ℝ := 0.01
  noise_sigma_rot : ℝ := 0.1

/-- The random numbers of `generate_test_path`, for each pass of its loop. -/
structure PathDraws where
  /-- HELP.py:90. -/
  outlier : ℕ → ℝ
  /-- HELP.py:92. -/
  q : ℕ → Quat
  /-- HELP.py:93-95, the first number of each line. -/
  size : ℕ → Vec3
  /-- HELP.py:93-95, the second number of each line. -/
  coin : ℕ → Vec3
  /-- HELP.py:98-100. -/
  noise_pos : ℕ → Vec3
  /-- HELP.py:102-104. -/
  noise_axis : ℕ → Vec3
  /-- HELP.py:105. -/
  noise_angle : ℕ → ℝ

/-- The arrays `x`, `y` and `z`, which the loop changes. -/
structure PathState where
  x : List ℝ
  y : List ℝ
  z : List ℝ

/-- HELP.py:81-83. -/
noncomputable def initialPath (t : List ℝ) : PathState where
  x := t.map fun t => 10 + Real.cos (4 * Real.pi * t)
  y := t.map fun t => -5 + -Real.sin (4 * Real.pi * t) * 4
  z := t.map fun t => 0.5 + t * 5

/-- HELP.py:93-95, the right-hand side of each of the lines; `max` of the array as it is by then. -/
noncomputable def outlierValue (l : List ℝ) (size coin : ℝ) : Py ℝ := do
  let m ← pyMax l
  return size * m * (if coin < 0.5 then -1 else 0)

/-- HELP.py:87-95: the orientation and, for an outlier, the new position. -/
noncomputable def drawPose (o : PathOptions) (d : PathDraws) (theta : ℝ) (i : ℕ) (s : PathState) :
    Py (PathState × Quat) :=
  if o.include_outliers = true ∧ d.outlier i < o.outlier_probability then do
    let x ← outlierValue s.x (d.size i).x (d.coin i).x
    let y ← outlierValue s.y (d.size i).y (d.coin i).y
    let z ← outlierValue s.z (d.size i).z (d.coin i).z
    return (⟨s.x.set i x, s.y.set i y, s.z.set i z⟩, d.q i)
  else return (s, quaternionFromEulerRxyz 0 (-theta * 0.1) (-theta))

/-- HELP.py:96-113: the noise. -/
noncomputable def addNoise (o : PathOptions) (d : PathDraws) (i : ℕ) (s : PathState) (q_tmp : Quat) :
    Py (PathState × Quat) :=
  if o.include_noise = true then do
    let x ← pyAt s.x i
    let nx ← npNormal o.noise_sigma_trans (d.noise_pos i).x
    let y ← pyAt s.y i
    let ny ← npNormal o.noise_sigma_trans (d.noise_pos i).y
    let z ← pyAt s.z i
    let nz ← npNormal o.noise_sigma_trans (d.noise_pos i).z
    let axis_x ← npNormal o.noise_sigma_rot (d.noise_axis i).x
    let axis_y ← npNormal o.noise_sigma_rot (d.noise_axis i).y
    let axis_z ← npNormal o.noise_sigma_rot (d.noise_axis i).z
    let a ← npNormal o.noise_sigma_rot (d.noise_angle i)
    let q_noise := (Quat.fromAngleAxis (Real.pi * a) ⟨axis_x, axis_y, axis_z⟩).normalize
    let inverse ← q_noise.inverse
    return (⟨s.x.set i (x + nx), s.y.set i (y + ny), s.z.set i (z + nz)⟩, q_noise * q_tmp * inverse)
  else return (s, q_tmp)

/-- HELP.py:114-116. -/
noncomputable def normalizePositive (q : Quat) : Quat :=
  if q.normalize.w < 0 then -q.normalize else q.normalize

/-- HELP.py:86-119: one pass of the loop. -/
noncomputable def pathStep (o : PathOptions) (d : PathDraws) (t : List ℝ) (i : ℕ) (s : PathState) :
    Py (PathState × DQuat) := do
  let ti ← pyAt t i
  let (s, q_tmp) ← drawPose o d (4 * Real.pi * ti) i s
  let (s, q) ← addNoise o d i s q_tmp
  let x ← pyAt s.x i
  let y ← pyAt s.y i
  let z ← pyAt s.z i
  return (s, DQuat.fromPose ⟨⟨x, y, z⟩, normalizePositive q⟩)

/-- HELP.py:86: the loop, over the given indices. -/
noncomputable def pathLoop (o : PathOptions) (d : PathDraws) (t : List ℝ) : List ℕ → PathState → Py (List DQuat)
  | [], _ => .ok []
  | i :: l, s => do
    let r ← pathStep o d t i s
    let rest ← pathLoop o d t l r.1
    return r.2 :: rest

/-- HELP.py:73-124 `generate_test_path`. -/
noncomputable def generateTestPath (n_samples : ℕ) (o : PathOptions) (d : PathDraws) : Py (List DQuat) :=
  pathLoop o d (unitLinspace n_samples) (List.range n_samples) (initialPath (unitLinspace n_samples))

/-- HELP.py:46-70 `generate_test_paths`.  The options of the two paths are given together; their default values in
lines 49-52 are those of `PathOptions`, except `noise_sigma_trans_W_E=0.1` and `noise_sigma_rot_W_E=0.01`.  The lines
61-65 belong to the first `if`: without it, `dq_W_E_vec` is not defined in line 70, which is an UnboundLocalError, a
kind of NameError. -/
noncomputable def generateTestPaths (n_samples : ℕ) (dq_H_E dq_B_W : DQuat) (paths_start_at_origin : Bool)
    (o_B_H o_W_E : PathOptions) (d_B_H d_W_E : PathDraws) : Py (List DQuat × List DQuat) := do
  let dq_B_H_vec ← generateTestPath n_samples o_B_H d_B_H
  if paths_start_at_origin then
    let dq_B_H_vec ← alignPathsAtIndex dq_B_H_vec
    let dq_B_H_vec_for_W_E ← generateTestPath n_samples o_W_E d_W_E
    let dq_W_E_vec ← computeDualQuaternionsWithOffset dq_B_H_vec_for_W_E dq_H_E dq_B_W
    let dq_W_E_vec ← alignPathsAtIndex dq_W_E_vec
    return (dq_B_H_vec, dq_W_E_vec)
  else .error .name

end HandEye
