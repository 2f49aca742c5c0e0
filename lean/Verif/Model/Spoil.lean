import Verif.Model.DualQuat

/-!
# Model of the random perturbations of a calibration

`Q.py` is `/repo/hand_eye_calibration/python/hand_eye_calibration/quaternion.py`, `OPT.py` is
`/repo/hand_eye_calibration_experiments/bin/optimization_experiments.py`.  The random numbers are parameters.
-/

namespace HandEye

/-- `np.random.uniform(low, high)` and `random.uniform(low, high)` when the generator gives `u`, `0 ≤ u < 1`. -/
noncomputable def uniform (low high u : ℝ) : ℝ := low + (high - low) * u

/-- Q.py:126-128 and OPT.py:53-55: scale to length one.  For the zero vector the result is nan, and the
assertion fails because nan is not close to 1. -/
noncomputable def randomUnit (v : Vec3) : Py Vec3 :=
  if v.norm = 0 then .error .assertion
  else do
    let u : Vec3 := ⟨v.x / v.norm, v.y / v.norm, v.z / v.norm⟩
    pyAssert (npIsclose u.norm 1 1e-8)
    return u

/-- Q.py:124-133 `get_random`; `axis` is the vector drawn in line 126, `u` what line 130 draws. -/
noncomputable def getRandom (min_angle max_angle : ℝ) (axis : Vec3) (u : ℝ) : Py Quat := do
  let axis ← randomUnit axis
  return Quat.fromAngleAxis (uniform min_angle max_angle u) axis

/-- What the generators give during one call of `spoil_initial_guess`, in the order of use. -/
structure SpoilDraws where
  /-- OPT.py:48-49. -/
  time : ℝ
  negative : Bool
  /-- OPT.py:52. -/
  direction : Vec3
  /-- OPT.py:57-58. -/
  length : ℝ
  /-- Q.py:126 and 130. -/
  axis : Vec3
  angle : ℝ

/-- What OPT.py:98-99 returns. -/
structure Spoiled where
  time_offset : ℝ
  dq_H_E : DQuat
  translation_offset : Vec3
  angle_offset : ℝ
  time_offset_offset : ℝ

/-- OPT.py:44-99 `spoil_initial_guess`. -/
noncomputable def spoilInitialGuess (time_offset_initial_guess : ℝ) (dq_H_E_initial_guess : DQuat)
    (angular_offset_range translation_offset_range time_offset_range : ℝ × ℝ) (d : SpoilDraws) : Py Spoiled := do
  let random_time_offset_offset := uniform time_offset_range.1 time_offset_range.2 d.time *
    (if d.negative then -1 else 1)
  let random_translation_offset ← randomUnit d.direction
  let random_translation_length := uniform translation_offset_range.1 translation_offset_range.2 d.length
  let random_translation_offset := random_translation_length • random_translation_offset
  let random_quaternion_offset ← getRandom angular_offset_range.1 angular_offset_range.2 d.axis d.angle
  let (p, dq) ← dq_H_E_initial_guess.toPose
  let translation_initial_guess := p.pos
  let orientation_initial_guess := dq.rot
  let translation_spoiled := random_translation_offset + translation_initial_guess
  let orientation_spoiled := random_quaternion_offset * orientation_initial_guess
  let random_angle_offset ← angleBetweenQuaternions orientation_initial_guess orientation_spoiled
  pyAssert (random_angle_offset ≤ angular_offset_range.2)
  pyAssert (random_angle_offset ≥ angular_offset_range.1)
  pyAssert ((translation_spoiled - translation_initial_guess).norm ≤ translation_offset_range.2)
  pyAssert ((translation_spoiled - translation_initial_guess).norm ≥ translation_offset_range.1)
  return ⟨time_offset_initial_guess + random_time_offset_offset,
    DQuat.fromPose ⟨translation_spoiled, orientation_spoiled⟩,
    random_translation_offset, random_angle_offset, random_time_offset_offset⟩

end HandEye
