import Verif.Model.Rounded
import Verif.Model.TimeAlign

/-!
# The interpolation and the resampling in floating-point arithmetic

The lines of `quaternion.py` (`Q.py`) and `time_alignment.py` (`TA.py`) in `/repo/hand_eye_calibration/python/hand_eye_calibration/` that
interpolate orientations, compute angular velocities and choose the number of samples, with a rounding after every elementary operation (as in
`Model/Rounded.lean`, with the same simplifications: no overflow, no underflow, constants and `np.isclose` exact).

`cos` and `sin` are the functions of `numpy`, `sum` is its addition of all elements of an array (the order is up to the library).
-/

namespace HandEye

namespace Arith

variable (A : Arith)

/-- Q.py:39-42 `__sub__`, and the difference of two arrays with four elements. -/
def sub (p q : Quat) : Quat := ⟨A.fl (p.x - q.x), A.fl (p.y - q.y), A.fl (p.z - q.z), A.fl (p.w - q.w)⟩

/-- Q.py:248-253, 256: the quaternion from which the interpolation starts, and the cosine of the angle. -/
noncomputable def slerpFrom (q_1 q_2 : Quat) : ℝ × Quat :=
  if A.dot q_1 q_2 < 0 then (npClip (-A.dot q_1 q_2) (-1) 1, -q_1) else (npClip (A.dot q_1 q_2) (-1) 1, q_1)

/-- Q.py:258-267: the interpolated quaternion. -/
noncomputable def slerpBetween (cos sin : ℝ → ℝ) (dot_product : ℝ) (q1 q_2 : Quat) (fraction : ℝ) : Quat :=
  let theta := A.fl (A.acos dot_product * fraction)
  let q_3 := A.normalize (A.sub q_2 (A.smul dot_product q1))
  A.add (A.smul (cos theta) q1) (A.smul (sin theta) q_3)

/-- Q.py:231-267 `quaternion_slerp`. -/
noncomputable def slerp (cos sin : ℝ → ℝ) (q_1 q_2 : Quat) (fraction : ℝ) : Py Quat := do
  pyAssert (fraction ≥ 0 ∧ fraction ≤ 1)
  pyAssert (npIsclose (A.norm q_1) 1 1e-8)
  pyAssert (npIsclose (A.norm q_2) 1 1e-8)
  if fraction = 0 then return q_1
  else if fraction = 1 then return q_2
  else return A.slerpBetween cos sin (A.slerpFrom q_1 q_2).1 (A.slerpFrom q_1 q_2).2 q_2 fraction

/-- Q.py:306: one element of `times_scaled`. -/
noncomputable def scaledTime (t_left t_right t : ℝ) : Py ℝ :=
  if A.fl (t_right - t_left) = 0 then .error .nonFinite else .ok (A.fl (A.fl (t - t_left) / A.fl (t_right - t_left)))

/-- Q.py:301-307 `quaternions_interpolate`. -/
noncomputable def interpolate (cos sin : ℝ → ℝ) (q_left : Quat) (t_left : ℝ) (q_right : Quat) (t_right : ℝ) (times : List ℝ) : Py (List Quat) := do
  let scaled ← times.mapM (A.scaledTime t_left t_right)
  scaled.mapM fun f => A.slerp cos sin q_left q_right f

/-- TA.py:69-85: one pass of the loop of `resample_quaternions_from_samples`. -/
noncomputable def resampleOne (cos sin : ℝ → ℝ) (times : List ℝ) (quaternions : List Quat) (sample : ℝ) : Py (List Quat) := do
  let last ← pyGet times (-1)
  pyAssert (sample ≤ last)
  let first ← pyGet times 0
  pyAssert (sample ≥ first)
  let right_idx := bisectLeft times sample
  let t_right ← pyAt times right_idx
  if npIsclose sample t_right 1e-16 then do
    let q ← pyAt quaternions right_idx
    return [q]
  else do
    pyRequire (right_idx < times.length) .name
    pyAssert ((right_idx : ℤ) - 1 ≥ 0)
    let q_left ← pyGet quaternions ((right_idx : ℤ) - 1)
    let t_left ← pyGet times ((right_idx : ℤ) - 1)
    let q_right ← pyAt quaternions right_idx
    A.interpolate cos sin q_left t_left q_right t_right [sample]

/-- TA.py:63-88 `resample_quaternions_from_samples`. -/
noncomputable def resample (cos sin : ℝ → ℝ) (times : List ℝ) (quaternions : List Quat) (samples : List ℝ) : Py (List Quat) := do
  let parts ← samples.mapM (A.resampleOne cos sin times quaternions)
  pyAssert (parts.flatten.length = samples.length)
  return parts.flatten

/-- `np.interp(x, xp, fp)` for one `x`, increasing `xp` and non-empty data, as `npInterp`. -/
noncomputable def interp (xp fp : List ℝ) (x : ℝ) : ℝ :=
  let c := xp.countP fun t => decide (t ≤ x)
  if c = 0 then fp.getD 0 0
  else if c = xp.length then fp.getD (c - 1) 0
  else
    let slope := A.fl (A.fl (fp.getD c 0 - fp.getD (c - 1) 0) / A.fl (xp.getD c 0 - xp.getD (c - 1) 0))
    A.fl (A.fl (slope * A.fl (x - xp.getD (c - 1) 0)) + fp.getD (c - 1) 0)

/-- TA.py:183-216 `interpolate_poses_from_samples`. -/
noncomputable def interpolatePoses (cos sin : ℝ → ℝ) (poses : List StampedPose) (samples : List ℝ) : Py (List StampedPose) := do
  let times := poses.map StampedPose.t
  let qs ← A.resample cos sin times (poses.map fun p => p.pose.q) samples
  pyRequire (poses.length ≠ 0) .value
  return List.zipWith (fun s q => ⟨s, ⟨⟨A.interp times (poses.map fun p => p.pose.pos.x) s,
    A.interp times (poses.map fun p => p.pose.pos.y) s, A.interp times (poses.map fun p => p.pose.pos.z) s⟩, q⟩⟩)
    samples qs

/-- Q.py:135-148 `angle_axis`.  (`2. * x` is exact.) -/
noncomputable def angleAxis (q : Quat) : Py (Vec3 × ℝ) :=
  if npIsclose q.w 1 1e-12 then .ok (⟨1, 0, 0⟩, 0)
  else if ¬ (-1 ≤ q.w ∧ q.w ≤ 1) then .error .nonFinite
  else
    let s := A.fl (Real.sqrt (A.fl (1 - A.fl (q.w * q.w))))
    if A.fl (1 - A.fl (q.w * q.w)) < 0 ∨ s = 0 then .error .nonFinite
    else .ok (⟨A.fl (q.x / s), A.fl (q.y / s), A.fl (q.z / s)⟩, A.fl (2 * A.acos q.w))

/-- Q.py:317-325 `angular_velocity_between_quaternions`. -/
noncomputable def angularVelocity (q1 q2 : Quat) (t : ℝ) : Py Vec3 := do
  let i ← A.inverse q2
  let d := A.mul q1 i
  let d := if d.w < 0 then -d else d
  let (axis, angle) ← A.angleAxis d
  if t = 0 then .error .nonFinite
  else
    let h := A.fl (A.fl (0.5 / t) * angle)
    return ⟨A.fl (h * axis.x), A.fl (h * axis.y), A.fl (h * axis.z)⟩

/-- `np.mean(np.diff(times))` in TA.py:138-139. -/
noncomputable def meanStep (sum : List ℝ → ℝ) (times : List ℝ) : Py ℝ :=
  if times.length < 2 then .error .nonFinite
  else .ok (A.fl (sum ((npDiff times).map A.fl) / (times.length - 1 : ℕ)))

/-- TA.py:97-98: the number of samples, `int(interval / dt + 1)` (`np.linspace` before numpy 1.18 truncates). -/
noncomputable def sampleCount (times : List ℝ) (dt : ℝ) : Py ℤ := do
  let last ← pyGet times (-1)
  let first ← pyGet times 0
  if dt = 0 then .error .nonFinite
  else .ok (pyInt (A.fl (A.fl (A.fl (last - first) / dt) + 1)))

/-- TA.py:98 `np.linspace(a, b, num)` for at least two samples: the multiples of the step, and `b` at the end. -/
noncomputable def linspace (a b : ℝ) (num : ℕ) : List ℝ :=
  let step := A.fl (A.fl (b - a) / (num - 1 : ℕ))
  (List.range (num - 1)).map (fun (i : ℕ) => A.fl (A.fl (i * step) + a)) ++ [b]

/-- TA.py:47-60 `calculate_time_offset_from_signals`; `correlate` is `signal.correlate` (directly or by Fourier transforms, as the library decides). -/
noncomputable def timeOffset (correlate : List ℝ → List ℝ → List ℝ) (sum : List ℝ → ℝ) (times_A signal_A times_B signal_B : List ℝ) : Py ℝ := do
  pyRequire (signal_A.length ≠ 0 ∧ signal_B.length ≠ 0) .value
  let dt_A ← A.meanStep sum times_A
  let max_index ← npArgmax (correlate signal_B signal_A)
  let offset_index : ℤ := (max_index : ℤ) - signal_A.length + 1
  let b0 ← pyAt times_B 0
  let a0 ← pyAt times_A 0
  return A.fl (A.fl (A.fl (dt_A * offset_index) + b0) - a0)

/-- The direct way of `signal.correlate(b, a)` (mode 'full'), as `correlateFull`. -/
noncomputable def correlate (sum : List ℝ → ℝ) (b a : List ℝ) : List ℝ :=
  (List.range (b.length + a.length - 1)).map fun (k : ℕ) =>
    sum ((List.range b.length).map fun (l : ℕ) => A.fl (b.getD l 0 * zeroExt a ((l : ℤ) - k + a.length - 1)))

end Arith

/-- The addition of all elements from the left to the right in `float64`, as `numpy` does for fewer than eight elements. -/
noncomputable def sumDouble (l : List ℝ) : ℝ := l.foldl (fun s x => roundDouble (s + x)) 0

end HandEye
