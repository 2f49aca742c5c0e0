import Verif.Model.RoundedInterp

/-!
# The speeds for the time alignment in floating-point arithmetic

The lines of `/repo/hand_eye_calibration/python/hand_eye_calibration/time_alignment.py` (`TA.py`) that filter angular velocities and compute speeds, and
`calculate_time_offset`, with a rounding after every elementary operation (as in `Model/RoundedInterp.lean`, with the same simplifications).

`percentile` and `smooth` are what `np.percentile` and `signal.correlate` compute: how they do it depends on the versions of the libraries, and on the
size of the arrays.  `Arith.percentile` and `Arith.smoothAt` are the direct ways.
-/

namespace HandEye

namespace Arith

variable (A : Arith)

/-- `np.percentile(l, p)` for numbers, as in numpy 1.9 to 1.19, for a nonempty `l` and `p` between 0 and 100: the weighted mean of two elements. -/
noncomputable def percentile (l : List ℝ) (p : ℝ) : ℝ :=
  let index := A.fl (A.fl (p / 100) * (l.length - 1 : ℕ))
  let below := (npSort l).getD ⌊index⌋₊ 0
  let above := (npSort l).getD (min (⌊index⌋₊ + 1) (l.length - 1)) 0
  let weight_above := A.fl (index - ⌊index⌋₊)
  let weight_below := A.fl (1 - weight_above)
  A.fl (A.fl (below * weight_below) + A.fl (above * weight_above))

/-- `signal.correlate(v, np.ones((k, 1)) / k, 'same')` in one column, directly, as `HandEye.smoothAt`. -/
noncomputable def smoothAt (sum : List ℝ → ℝ) (v : List ℝ) (k i : ℕ) : ℝ :=
  sum ((List.range k).map fun (j : ℕ) => A.fl (zeroExt v ((i : ℤ) + ((k - 1) / 2 : ℕ) - (k - 1 : ℕ) + j) * A.fl (1 / k)))

/-- TA.py:23-44 `filter_and_smooth_angular_velocity`.  (`np.clip` and the sign of `-max_value` are exact.) -/
noncomputable def filterWith (percentile : List ℝ → ℝ → ℝ) (smooth : List ℝ → ℕ → ℕ → ℝ) (angular_velocity : List Vec3) (low_pass_kernel_size : ℕ)
    (clip_percentile : ℝ) : Py (List Vec3) := do
  pyRequire (angular_velocity ≠ []) .index
  pyRequire (0 ≤ clip_percentile ∧ clip_percentile ≤ 100) .value
  pyRequire (low_pass_kernel_size ≠ 0) .value
  let clipped := angular_velocity.map (clipVec (percentile (flat3 angular_velocity) clip_percentile))
  return (List.range angular_velocity.length).map fun (i : ℕ) =>
    ⟨smooth (clipped.map Vec3.x) low_pass_kernel_size i, smooth (clipped.map Vec3.y) low_pass_kernel_size i,
      smooth (clipped.map Vec3.z) low_pass_kernel_size i⟩

/-- `np.linalg.norm(v)` in TA.py:117-118. -/
noncomputable def speed (sum : List ℝ → ℝ) (v : Vec3) : ℝ := A.fl (Real.sqrt (sum [A.fl (v.x * v.x), A.fl (v.y * v.y), A.fl (v.z * v.z)]))

/-- TA.py:107-111: one row of the angular velocities. -/
noncomputable def velocityAt (quaternions : List Quat) (samples : List ℝ) (i : ℕ) : Py Vec3 := do
  let s1 ← pyAt samples (i + 1)
  let s0 ← pyAt samples i
  pyAssert (A.fl (s1 - s0) > 0)
  let q0 ← pyAt quaternions i
  let q1 ← pyAt quaternions (i + 1)
  A.angularVelocity q0 q1 (A.fl (s1 - s0))

/-- TA.py:103-121 `compute_angular_velocity_norms`. -/
noncomputable def velocityNorms (percentile : List ℝ → ℝ → ℝ) (smooth : List ℝ → ℕ → ℕ → ℝ) (sum : List ℝ → ℝ) (quaternions : List Quat) (samples : List ℝ)
    (smoothing_kernel_size : ℕ) (clipping_percentile : ℝ) : Py (List ℝ) := do
  pyRequire (quaternions.length ≠ 0) .value
  let angular_velocity ← (List.range (quaternions.length - 1)).mapM (A.velocityAt quaternions samples)
  let filtered ← filterWith percentile smooth angular_velocity smoothing_kernel_size clipping_percentile
  return filtered.map (A.speed sum)

/-- TA.py:91-100 `resample_quaternions`, for at least two samples. -/
noncomputable def resampleQuaternions (cos sin : ℝ → ℝ) (times : List ℝ) (quaternions : List Quat) (dt : ℝ) : Py (List Quat × List ℝ) := do
  let num ← A.sampleCount times dt
  pyRequire (2 ≤ num) .value
  let last ← pyGet times (-1)
  let first ← pyGet times 0
  let samples := A.linspace first last num.toNat
  let qs ← A.resample cos sin times quaternions samples
  return (qs, samples)

/-- TA.py:124-180 `calculate_time_offset`. -/
noncomputable def offsetOf (cos sin : ℝ → ℝ) (percentile : List ℝ → ℝ → ℝ) (smooth : List ℝ → ℕ → ℕ → ℝ) (correlate : List ℝ → List ℝ → List ℝ)
    (sum : List ℝ → ℝ) (times_A : List ℝ) (quaternions_A : List Quat) (times_B : List ℝ) (quaternions_B : List Quat) (cfg : FilteringConfig) : Py ℝ := do
  let dt_A ← A.meanStep sum times_A
  let dt_B ← A.meanStep sum times_B
  let dt := if dt_A ≥ dt_B then dt_A else dt_B
  let (interp_A, samples_A) ← A.resampleQuaternions cos sin times_A quaternions_A dt
  let (interp_B, samples_B) ← A.resampleQuaternions cos sin times_B quaternions_B dt
  let norms_A ← A.velocityNorms percentile smooth sum interp_A samples_A cfg.smoothing_kernel_size_A cfg.clipping_percentile_A
  let norms_B ← A.velocityNorms percentile smooth sum interp_B samples_B cfg.smoothing_kernel_size_B cfg.clipping_percentile_B
  pyAssert ((samples_A.take norms_A.length).length = samples_A.length - 1)
  A.timeOffset correlate sum (samples_A.take norms_A.length) norms_A (samples_B.take norms_B.length) norms_B

end Arith

end HandEye
