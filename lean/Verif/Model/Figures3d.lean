import Verif.Model.Evaluate
import Verif.Model.Figures

/-!
# Model of the figures of trajectories and of alignment errors

`HP.py` abbreviates `/repo/hand_eye_calibration/python/hand_eye_calibration/hand_eye_calibration_plotting_tools.py`, `CV.py`
`/repo/hand_eye_calibration/python/hand_eye_calibration/calibration_verification.py`, `HE.py`
`/repo/hand_eye_calibration/python/hand_eye_calibration/dual_quaternion_hand_eye_calibration.py`.  Left out: titles, widths of
lines, the projection to the screen and the window.
-/

namespace HandEye

/-- `l[::n]`: ValueError for `n = 0`; the fuel `k` is the length of the list. -/
def everyNthGo {α : Type} (n : ℕ) : ℕ → List α → List α
  | 0, _ => []
  | _ + 1, [] => []
  | k + 1, a :: l => a :: everyNthGo n k (l.drop (n - 1))

/-- `l[::n]` for a natural number `n`: ValueError for `n = 0`. -/
def everyNth {α : Type} (l : List α) (n : ℕ) : Py (List α) := do
  pyRequire (n ≠ 0) .value
  return everyNthGo n l.length l

/-- `np.amin(poses[:, 0:3], axis=0)`. -/
noncomputable def aminVec (l : List Vec3) : Py Vec3 := do
  let x ← npAmin (l.map Vec3.x)
  let y ← npAmin (l.map Vec3.y)
  let z ← npAmin (l.map Vec3.z)
  return ⟨x, y, z⟩

/-- `np.amax(poses[:, 0:3], axis=0)`. -/
noncomputable def amaxVec (l : List Vec3) : Py Vec3 := do
  let x ← npAmax (l.map Vec3.x)
  let y ← npAmax (l.map Vec3.y)
  let z ← npAmax (l.map Vec3.z)
  return ⟨x, y, z⟩

/-- HP.py:27-34 `compute_bbox_3D`: `(bbox_max, bbox_min)`. -/
noncomputable def computeBbox3D (poses_list : List (List Pose)) : Py (Vec3 × Vec3) := do
  let bbox_min ← poses_list.mapM fun poses => aminVec (poses.map Pose.pos)
  let bbox_max ← poses_list.mapM fun poses => amaxVec (poses.map Pose.pos)
  let upper ← amaxVec bbox_max
  let lower ← aminVec bbox_min
  return (upper, lower)

/-- The colours of HP.py:46, in their order. -/
inductive PlotColor where
  | r | g | b | c | m | k
  deriving DecidableEq

/-- HP.py:46. -/
def pathColors : List PlotColor := [.r, .g, .b, .c, .m, .k]

/-- HP.py:81-89 an arrow. -/
structure Arrow where
  tail : Vec3
  head : Vec3
  color : PlotColor

/-- What HP.py:63-113 draws for one list of poses: the line through the positions (with a marker at each of them), and the
arrows of each pose. -/
structure PathDrawing where
  color : PlotColor
  line : List Vec3
  arrows : List (List Arrow)

/-- HP.py:79-89, 91-101, 103-113 the arrow along one axis. -/
noncomputable def axisArrow (arrow_size : ℝ) (pose : Pose) (axis : Vec3) (color : PlotColor) : Arrow :=
  ⟨pose.pos, pose.pos + arrow_size • pose.q.rotateVector axis, color⟩

/-- HP.py:70-113 the arrows of one pose. -/
noncomputable def poseArrows (plot_arrows : Bool) (arrow_size : ℝ) (pose : Pose) : List Arrow :=
  if plot_arrows then
    [axisArrow arrow_size pose ⟨1, 0, 0⟩ .r, axisArrow arrow_size pose ⟨0, 1, 0⟩ .g, axisArrow arrow_size pose ⟨0, 0, 1⟩ .b]
  else []

/-- HP.py:37-117: the limits of all three axes, the size of the arrows, and the drawings. -/
structure PosesFigure where
  axis_min : ℝ
  axis_max : ℝ
  arrow_size : ℝ
  paths : List PathDrawing

/-- HP.py:37-117 `plot_poses`. -/
noncomputable def plotPoses (poses_list : List (List Pose)) (plot_arrows : Bool) : Py PosesFigure := do
  pyAssert (poses_list.length < pathColors.length)
  let (bbox_max, bbox_min) ← computeBbox3D poses_list
  let arrow_size := (bbox_max - bbox_min).norm * 0.05
  let axis_min ← npAmin [bbox_min.x, bbox_min.y, bbox_min.z]
  let axis_max ← npAmax [bbox_max.x, bbox_max.y, bbox_max.z]
  return ⟨axis_min, axis_max, arrow_size, List.zipWith (fun poses color =>
    ⟨color, poses.map Pose.pos, poses.map (poseArrows plot_arrows arrow_size)⟩) poses_list pathColors⟩

/-- The two panels of HP.py:120-145: the curve of the errors and the line of the root mean square. -/
structure ErrorsFigure where
  position : Curve
  position_rmse : Curve
  orientation : Curve
  orientation_rmse : Curve

/-- HP.py:120-145 `plot_alignment_errors`. -/
def plotAlignmentErrors (errors_position : List ℝ) (rmse_pose : ℝ) (errors_orientation : List ℝ) (rmse_orientation : ℝ) :
    Py ErrorsFigure := do
  pyAssert (errors_position.length = errors_orientation.length)
  return ⟨plotY errors_position, plotY (List.replicate errors_position.length rmse_pose),
    plotY errors_orientation, plotY (List.replicate errors_position.length rmse_orientation)⟩

/-- HE.py:377-423 `evaluate_alignment` with `visualize=True`: the figure of the errors.  The errors are computed as in
`evaluateAlignment`. -/
noncomputable def alignmentErrorsFigure (orientation_threshold_deg position_threshold_m : ℝ) (poses_A poses_B : List Pose) :
    Py ErrorsFigure := do
  let (rmse_pose, rmse_orientation, _) ← evaluateAlignment orientation_threshold_deg position_threshold_m poses_A poses_B
  let errors ← (poses_A.zip poses_B).mapM fun p => computePoseError p.1 p.2
  plotAlignmentErrors (errors.map Prod.fst) rmse_pose (errors.map Prod.snd) rmse_orientation

/-- CV.py:36-53: the figures that `evaluate_calibration` draws of aligned poses, with `config.visualize`. -/
noncomputable def evaluationFigures (orientation_threshold_deg position_threshold_m : ℝ) (every_nth_element : ℕ)
    (poses_B_H poses_W_H : List Pose) : Py (ErrorsFigure × PosesFigure) := do
  let errors ← alignmentErrorsFigure orientation_threshold_deg position_threshold_m poses_B_H poses_W_H
  let a ← everyNth poses_B_H every_nth_element
  let b ← everyNth poses_W_H every_nth_element
  let poses ← plotPoses [a, b] true
  return (errors, poses)

end HandEye
