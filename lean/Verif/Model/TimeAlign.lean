import Verif.Model.PyList
import Verif.Model.DualQuat
import Mathlib.Data.List.Sort

/-!
# Model of `time_alignment.py`

`TA.py` abbreviates `/repo/hand_eye_calibration/python/hand_eye_calibration/time_alignment.py`.
Left out: printing and plotting.  Times and signals are lists of reals.
-/

namespace HandEye

/-- A condition without which an exception is raised. -/
def pyRequire (p : Prop) [Decidable p] (e : PyErr) : Py Unit := if p then .ok () else .error e

/-! ## The numpy, scipy and bisect functions that are used -/

/-- `np.diff` of a vector. -/
def npDiff (l : List ℝ) : List ℝ := List.zipWith (fun b a => b - a) l.tail l

/-- `np.mean`; nan for the empty vector. -/
noncomputable def npMean (l : List ℝ) : Py ℝ := npDiv l.sum l.length

/-- `np.sort`. -/
noncomputable def npSort (l : List ℝ) : List ℝ := l.insertionSort (· ≤ ·)

/-- `np.median`; nan for the empty vector. -/
noncomputable def npMedian (l : List ℝ) : Py ℝ :=
  if l = [] then .error .nonFinite
  else .ok (((npSort l).getD ((l.length - 1) / 2) 0 + (npSort l).getD (l.length / 2) 0) / 2)

/-- `np.percentile` with its default, linear interpolation. -/
noncomputable def npPercentile (l : List ℝ) (p : ℝ) : Py ℝ :=
  if l = [] then .error .index
  else if p < 0 ∨ 100 < p then .error .value
  else
    let h : ℝ := p / 100 * (l.length - 1 : ℕ)
    let lo := (npSort l).getD ⌊h⌋₊ 0
    let hi := (npSort l).getD (min (⌊h⌋₊ + 1) (l.length - 1)) 0
    .ok (lo + (h - ⌊h⌋₊) * (hi - lo))

/-- `int(x)`: rounds towards zero. -/
noncomputable def pyInt (x : ℝ) : ℤ := if 0 ≤ x then ⌊x⌋ else ⌈x⌉

/-- `np.linspace(a, b, num)` for a float `num`, which numpy before 1.18 converts by `int` (from then on it
is a TypeError). -/
noncomputable def npLinspace (a b num : ℝ) : Py (List ℝ) :=
  if pyInt num < 0 then .error .value
  else if pyInt num = 1 then .ok [a]
  else .ok ((List.range (pyInt num).toNat).map fun (i : ℕ) => i * ((b - a) / ((pyInt num).toNat - 1 : ℕ)) + a)

/-- The main loop of `bisect.bisect_left` between `lo` and `hi`. -/
noncomputable def bisectGo (a : List ℝ) (x : ℝ) (lo hi : ℕ) : ℕ :=
  if _h : lo < hi then
    if a.getD ((lo + hi) / 2) 0 < x then bisectGo a x ((lo + hi) / 2 + 1) hi
    else bisectGo a x lo ((lo + hi) / 2)
  else lo
termination_by hi - lo
decreasing_by all_goals omega

/-- `bisect.bisect_left(a, x)`. -/
noncomputable def bisectLeft (a : List ℝ) (x : ℝ) : ℕ := bisectGo a x 0 a.length

/-- The elements of a vector, zero outside. -/
def zeroExt (l : List ℝ) (i : ℤ) : ℝ := if 0 ≤ i then l.getD i.toNat 0 else 0

/-- `signal.correlate(b, a)` (mode 'full') of two non-empty vectors: element `k` is the sum of
`b[l] * a[l - k + len(a) - 1]`. -/
def correlateFull (b a : List ℝ) : List ℝ :=
  (List.range (b.length + a.length - 1)).map fun (k : ℕ) =>
    ((List.range b.length).map fun (l : ℕ) =>
      b.getD l 0 * zeroExt a ((l : ℤ) - k + a.length - 1)).sum

/-- `np.argmax`: the first position of the largest element. -/
noncomputable def npArgmax (l : List ℝ) : Py ℕ :=
  match l.max? with
  | none => .error .value
  | some m => .ok (l.findIdx (fun x => decide (x = m)))

/-- `np.interp(x, xp, fp)` for one `x`, increasing `xp` and non-empty data. -/
noncomputable def npInterp (xp fp : List ℝ) (x : ℝ) : ℝ :=
  let c := xp.countP fun t => decide (t ≤ x)
  if c = 0 then fp.getD 0 0
  else if c = xp.length then fp.getD (c - 1) 0
  else (fp.getD c 0 - fp.getD (c - 1) 0) / (xp.getD c 0 - xp.getD (c - 1) 0) * (x - xp.getD (c - 1) 0)
    + fp.getD (c - 1) 0

/-! ## The module -/

/-- TA.py:14-20 `FilteringConfig`. -/
structure FilteringConfig where
  smoothing_kernel_size_A : ℕ := 25
  clipping_percentile_A : ℝ := 99.5
  smoothing_kernel_size_B : ℕ := 25
  clipping_percentile_B : ℝ := 99.0

/-- All components of an array with three columns. -/
def flat3 (v : List Vec3) : List ℝ := v.flatMap fun u => [u.x, u.y, u.z]

/-- `np.clip(array, -m, m)`, element-wise. -/
noncomputable def clipVec (m : ℝ) (u : Vec3) : Vec3 := ⟨npClip u.x (-m) m, npClip u.y (-m) m, npClip u.z (-m) m⟩

/-- Row `i` of `signal.correlate(v, np.ones((k, 1)) / k, 'same')` in one column: the output is centred with
respect to the full correlation.  (For an even kernel, versions of scipy differ in how they centre; the
sizes used are odd.) -/
noncomputable def smoothAt (v : List ℝ) (k i : ℕ) : ℝ :=
  ((List.range k).map fun (j : ℕ) => zeroExt v ((i : ℤ) + ((k - 1) / 2 : ℕ) - (k - 1 : ℕ) + j) * (1 / k)).sum

/-- TA.py:23-44 `filter_and_smooth_angular_velocity`.  An empty kernel is an error here. -/
noncomputable def filterAndSmooth (angular_velocity : List Vec3) (low_pass_kernel_size : ℕ)
    (clip_percentile : ℝ) : Py (List Vec3) := do
  let max_value ← npPercentile (flat3 angular_velocity) clip_percentile
  let clipped := angular_velocity.map (clipVec max_value)
  pyRequire (low_pass_kernel_size ≠ 0) .value
  return (List.range angular_velocity.length).map fun (i : ℕ) =>
    ⟨smoothAt (clipped.map Vec3.x) low_pass_kernel_size i, smoothAt (clipped.map Vec3.y) low_pass_kernel_size i,
      smoothAt (clipped.map Vec3.z) low_pass_kernel_size i⟩

/-- TA.py:47-60 `calculate_time_offset_from_signals`. -/
noncomputable def calculateTimeOffsetFromSignals (times_A signal_A times_B signal_B : List ℝ) : Py ℝ := do
  pyRequire (signal_A.length ≠ 0 ∧ signal_B.length ≠ 0) .value
  let dt_A ← npMean (npDiff times_A)
  let max_index ← npArgmax (correlateFull signal_B signal_A)
  let offset_index : ℤ := (max_index : ℤ) - signal_A.length + 1
  let b0 ← pyAt times_B 0
  let a0 ← pyAt times_A 0
  return dt_A * offset_index + b0 - a0

/-- TA.py:69-85: one pass of the loop of `resample_quaternions_from_samples`.  (The message of the assertion
in line 78 uses an undefined name.) -/
noncomputable def resampleOne (times : List ℝ) (quaternions : List Quat) (sample : ℝ) : Py (List Quat) := do
  let last ← pyGet times (-1)
  pyAssert (sample ≤ last)
  let first ← pyGet times 0
  pyAssert (sample ≥ first)
  let right_idx := bisectLeft times sample
  let t_right ← pyAt times right_idx
  if npIsclose sample t_right 1e-16 then do
    let q ← pyAt quaternions right_idx
    return [q]
  else do
    pyRequire (right_idx < times.length) .name
    pyAssert ((right_idx : ℤ) - 1 ≥ 0)
    let q_left ← pyGet quaternions ((right_idx : ℤ) - 1)
    let t_left ← pyGet times ((right_idx : ℤ) - 1)
    let q_right ← pyAt quaternions right_idx
    quaternionsInterpolate q_left t_left q_right t_right [sample]

/-- TA.py:63-88 `resample_quaternions_from_samples`. -/
noncomputable def resampleQuaternionsFromSamples (times : List ℝ) (quaternions : List Quat)
    (samples : List ℝ) : Py (List Quat) := do
  let parts ← samples.mapM (resampleOne times quaternions)
  pyAssert (parts.flatten.length = samples.length)
  return parts.flatten

/-- TA.py:91-100 `resample_quaternions`. -/
noncomputable def resampleQuaternions (times : List ℝ) (quaternions : List Quat) (dt : ℝ) :
    Py (List Quat × List ℝ) := do
  let last ← pyGet times (-1)
  let first ← pyGet times 0
  let steps ← npDiv (last - first) dt
  let samples ← npLinspace first last (steps + 1)
  let qs ← resampleQuaternionsFromSamples times quaternions samples
  return (qs, samples)

/-- TA.py:107-111: one row of the angular velocities. -/
noncomputable def angularVelocityAt (quaternions : List Quat) (samples : List ℝ) (i : ℕ) : Py Vec3 := do
  let s1 ← pyAt samples (i + 1)
  let s0 ← pyAt samples i
  pyAssert (s1 - s0 > 0)
  let q0 ← pyAt quaternions i
  let q1 ← pyAt quaternions (i + 1)
  angularVelocityBetweenQuaternions q0 q1 (s1 - s0)

/-- TA.py:103-121 `compute_angular_velocity_norms`.  (No quaternions: `np.zeros((-1, 3))` is a
ValueError.) -/
noncomputable def computeAngularVelocityNorms (quaternions : List Quat) (samples : List ℝ)
    (smoothing_kernel_size : ℕ) (clipping_percentile : ℝ) : Py (List ℝ) := do
  pyRequire (quaternions.length ≠ 0) .value
  let angular_velocity ← (List.range (quaternions.length - 1)).mapM (angularVelocityAt quaternions samples)
  let filtered ← filterAndSmooth angular_velocity smoothing_kernel_size clipping_percentile
  return filtered.map Vec3.norm

/-- TA.py:124-180 `calculate_time_offset`. -/
noncomputable def calculateTimeOffset (times_A : List ℝ) (quaternions_A : List Quat) (times_B : List ℝ)
    (quaternions_B : List Quat) (cfg : FilteringConfig) : Py ℝ := do
  let dt_A ← npMean (npDiff times_A)
  let dt_B ← npMean (npDiff times_B)
  let dt := if dt_A ≥ dt_B then dt_A else dt_B
  let (interp_A, samples_A) ← resampleQuaternions times_A quaternions_A dt
  let (interp_B, samples_B) ← resampleQuaternions times_B quaternions_B dt
  let norms_A ← computeAngularVelocityNorms interp_A samples_A cfg.smoothing_kernel_size_A
    cfg.clipping_percentile_A
  let norms_B ← computeAngularVelocityNorms interp_B samples_B cfg.smoothing_kernel_size_B
    cfg.clipping_percentile_B
  pyAssert ((samples_A.take norms_A.length).length = samples_A.length - 1)
  calculateTimeOffsetFromSignals (samples_A.take norms_A.length) norms_A
    (samples_B.take norms_B.length) norms_B

/-- A row of a pose table: `[timestamp, x, y, z, qx, qy, qz, qw]`. -/
@[ext] structure StampedPose where
  t : ℝ
  pose : Pose

/-- TA.py:183-216 `interpolate_poses_from_samples`.  (`np.interp` raises ValueError on an empty table.) -/
noncomputable def interpolatePosesFromSamples (poses : List StampedPose) (samples : List ℝ) :
    Py (List StampedPose) := do
  let times := poses.map StampedPose.t
  let qs ← resampleQuaternionsFromSamples times (poses.map fun p => p.pose.q) samples
  pyRequire (poses.length ≠ 0) .value
  return List.zipWith (fun s q => ⟨s, ⟨⟨npInterp times (poses.map fun p => p.pose.pos.x) s,
    npInterp times (poses.map fun p => p.pose.pos.y) s, npInterp times (poses.map fun p => p.pose.pos.z) s⟩, q⟩⟩)
    samples qs

/-- TA.py:258-282: the selection of the sample times. -/
noncomputable def selectSamples (high : List ℝ) (start_time : ℝ) : List ℝ → Py (List ℝ)
  | [] => .ok []
  | timestamp :: rest =>
    if timestamp < start_time then selectSamples high start_time rest
    else if (bisectLeft high timestamp : ℤ) ≥ (high.length : ℤ) - 1 then .ok []
    else do
      let right ← pyAt high (bisectLeft high timestamp)
      if timestamp = right then do
        let r ← selectSamples high start_time rest
        return timestamp :: r
      else do
        let left ← pyGet high ((bisectLeft high timestamp : ℤ) - 1)
        if timestamp < left then selectSamples high start_time rest
        else if timestamp - left < 0.1 ∧ right - timestamp ≤ 0.1 then do
          let r ← selectSamples high start_time rest
          return timestamp :: r
        else selectSamples high start_time rest

/-- TA.py:245-252, 258-282: the table with the larger median time step gives the samples. -/
noncomputable def selectFrom (dt_A dt_B : ℝ) (times_A times_B : List ℝ) (start_time : ℝ) : Py (List ℝ) :=
  if dt_A ≥ dt_B then selectSamples times_B start_time times_A
  else selectSamples times_A start_time times_B

/-- TA.py:228-231: the table with all times shifted. -/
def shiftTimes (c : ℝ) (poses : List StampedPose) : List StampedPose := poses.map fun p => ⟨p.t + c, p.pose⟩

/-- TA.py:219-301 `compute_aligned_poses`.  With a single row in a table the median is nan, and then the
comparison is false; here this case is an error. -/
noncomputable def computeAlignedPoses (poses_A poses_B : List StampedPose) (time_offset : ℝ) :
    Py (List StampedPose × List StampedPose) := do
  let shifted := shiftTimes time_offset poses_A
  let times_A := shifted.map StampedPose.t
  let times_B := poses_B.map StampedPose.t
  let a0 ← pyAt times_A 0
  let b0 ← pyAt times_B 0
  let dt_A ← npMedian (npDiff times_A)
  let dt_B ← npMedian (npDiff times_B)
  let samples ← selectFrom dt_A dt_B times_A times_B (max a0 b0)
  let aligned_A ← interpolatePosesFromSamples shifted samples
  let aligned_B ← interpolatePosesFromSamples poses_B samples
  pyAssert (aligned_A.length = aligned_B.length)
  pyAssert (∀ p ∈ aligned_A.zip aligned_B, npIsclose p.1.t p.2.t 1e-8)
  return (aligned_A, aligned_B)

end HandEye
