import Verif.Model.TimeAlign

/-!
# Model of the figures of the time alignment

`TP.py` abbreviates `/repo/hand_eye_calibration/python/hand_eye_calibration/time_alignment_plotting_tools.py`, `TA.py`
`/repo/hand_eye_calibration/python/hand_eye_calibration/time_alignment.py`.  A figure is the list of what is drawn in it.
Left out: labels, fonts, colours, the placement of the panels, and the window.
-/

namespace HandEye

/-- A curve drawn by `plt.plot`. -/
@[ext] structure Curve where
  xs : List ℝ
  ys : List ℝ

/-- `plt.plot(xs, ys)`: ValueError for vectors of different lengths. -/
def plotXY (xs ys : List ℝ) : Py Curve := do
  pyRequire (xs.length = ys.length) .value
  return ⟨xs, ys⟩

/-- `plt.plot(ys)`: drawn over the indices. -/
def plotY (ys : List ℝ) : Curve := ⟨(List.range ys.length).map fun (i : ℕ) => (i : ℝ), ys⟩

/-- `np.amin`: ValueError for the empty vector. -/
noncomputable def npAmin (l : List ℝ) : Py ℝ :=
  match l.min? with
  | none => .error .value
  | some m => .ok m

/-- `np.amax`: ValueError for the empty vector. -/
noncomputable def npAmax (l : List ℝ) : Py ℝ :=
  match l.max? with
  | none => .error .value
  | some m => .ok m

/-- `np.arange(a, b)` for integers. -/
def npArangeInt (a b : ℤ) : List ℝ := (List.range (b - a).toNat).map fun (i : ℕ) => ((a + i : ℤ) : ℝ)

/-- The three panels of TP.py:15-74. -/
structure ResultFigure where
  before_A : Curve
  before_B : Curve
  correlation : Curve
  after_A : Curve
  after_B : Curve

/-- TP.py:15-74 `plot_results`. -/
noncomputable def plotResults (times_A times_B signal_A signal_B convoluted_signals : List ℝ) (time_offset : ℝ) :
    Py ResultFigure := do
  let min_A ← npAmin times_A
  let min_B ← npAmin times_B
  let before_A ← plotXY (times_A.map (· - min min_A min_B)) signal_A
  let before_B ← plotXY (times_B.map (· - min min_A min_B)) signal_B
  let times_A_shifted := times_A.map (· + time_offset)
  let correlation ← plotXY (npArangeInt (-(signal_A.length : ℤ) + 1) signal_B.length) convoluted_signals
  let min_A ← npAmin times_A_shifted
  let after_A ← plotXY (times_A_shifted.map (· - min min_A min_B)) signal_A
  let after_B ← plotXY (times_B.map (· - min min_A min_B)) signal_B
  return ⟨before_A, before_B, correlation, after_A, after_B⟩

/-- TA.py:47-60 `calculate_time_offset_from_signals` with `plot=True`: the offset and the figure. -/
noncomputable def offsetWithFigure (times_A signal_A times_B signal_B : List ℝ) : Py (ℝ × ResultFigure) := do
  let time_offset ← calculateTimeOffsetFromSignals times_A signal_A times_B signal_B
  let figure ← plotResults times_A times_B signal_A signal_B (correlateFull signal_B signal_A) time_offset
  return (time_offset, figure)

/-- The four curves of the components of quaternions. -/
structure QuatCurves where
  x : Curve
  y : Curve
  z : Curve
  w : Curve

/-- TP.py:168-171, 182-185: `quat[:, 0]` of an array without rows is an IndexError. -/
def plotQuats (qs : List Quat) : Py QuatCurves := do
  pyRequire (qs.length ≠ 0) .index
  return ⟨plotY (qs.map Quat.x), plotY (qs.map Quat.y), plotY (qs.map Quat.z), plotY (qs.map Quat.w)⟩

/-- The panels of TP.py:159-224 for one of the two signals: "Input quaternions", "Interpolated quaternions", "Norm of
angular velocity", "Norm of angular velocity [median filter]". -/
structure InputPanels where
  input : QuatCurves
  interpolated : QuatCurves
  norms : Curve
  norms_filtered : Curve

/-- TP.py:173-215: the four panels of one signal. -/
def plotInputPanels (quaternions quaternions_interp : List Quat) (norms norms_filtered : List ℝ) : Py InputPanels := do
  let input ← plotQuats quaternions
  let interpolated ← plotQuats quaternions_interp
  return ⟨input, interpolated, plotY norms, plotY norms_filtered⟩

/-- TA.py:124-172: the figure of the input data that `calculate_time_offset` draws with `plot=True`, the panels of A and of B.
(The figures of the filter, TA.py:40-42, are `plotVelocities`.) -/
noncomputable def inputFigure (times_A : List ℝ) (quaternions_A : List Quat) (times_B : List ℝ)
    (quaternions_B : List Quat) (cfg : FilteringConfig) : Py (InputPanels × InputPanels) := do
  let dt_A ← npMean (npDiff times_A)
  let dt_B ← npMean (npDiff times_B)
  let dt := if dt_A ≥ dt_B then dt_A else dt_B
  let (interp_A, samples_A) ← resampleQuaternions times_A quaternions_A dt
  let (interp_B, samples_B) ← resampleQuaternions times_B quaternions_B dt
  let norms_A ← computeAngularVelocityNorms interp_A samples_A cfg.smoothing_kernel_size_A cfg.clipping_percentile_A
  let norms_B ← computeAngularVelocityNorms interp_B samples_B cfg.smoothing_kernel_size_B cfg.clipping_percentile_B
  pyAssert ((samples_A.take norms_A.length).length = samples_A.length - 1)
  let panels_A ← plotInputPanels quaternions_A interp_A norms_A norms_A
  let panels_B ← plotInputPanels quaternions_B interp_B norms_B norms_B
  return (panels_A, panels_B)

/-- Three curves, of the components of vectors. -/
structure Vec3Curves where
  x : Curve
  y : Curve
  z : Curve

/-- TP.py:138-140. -/
def plotVec3 (v : List Vec3) : Vec3Curves := ⟨plotY (v.map Vec3.x), plotY (v.map Vec3.y), plotY (v.map Vec3.z)⟩

/-- TP.py:124-156 and TA.py:23-44: the figure "Angular Velocities" that the filter draws with `plot=True`, before and after
filtering. -/
noncomputable def plotVelocities (angular_velocity : List Vec3) (low_pass_kernel_size : ℕ) (clip_percentile : ℝ) :
    Py (Vec3Curves × Vec3Curves) := do
  let smoothed ← filterAndSmooth angular_velocity low_pass_kernel_size clip_percentile
  return (plotVec3 angular_velocity, plotVec3 smoothed)

/-- The panels of TP.py:77-121 for one table: orientation and position. -/
structure PosePanels where
  orientation : QuatCurves
  position : Vec3Curves

/-- TP.py:86-112: the panels of one table, over the row numbers.  (The columns of a table without rows, an array of shape
`(0, 8)`, are empty vectors.) -/
def plotStampedPoses (poses : List StampedPose) : PosePanels :=
  ⟨⟨plotY (poses.map fun p => p.pose.q.x), plotY (poses.map fun p => p.pose.q.y), plotY (poses.map fun p => p.pose.q.z),
    plotY (poses.map fun p => p.pose.q.w)⟩, plotVec3 (poses.map fun p => p.pose.pos)⟩

/-- TA.py:219-301 `compute_aligned_poses` with `plot=True`: the figure, A on top of B. -/
noncomputable def alignedFigure (poses_A poses_B : List StampedPose) (time_offset : ℝ) : Py (PosePanels × PosePanels) := do
  let (aligned_A, aligned_B) ← computeAlignedPoses poses_A poses_B time_offset
  return (plotStampedPoses aligned_A, plotStampedPoses aligned_B)

end HandEye
