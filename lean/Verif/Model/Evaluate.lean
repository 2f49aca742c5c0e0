import Verif.Model.TimeAlign
import Verif.Model.HandEye

/-!
# Model of the evaluation of a calibration

`CV.py` is `/repo/hand_eye_calibration/python/hand_eye_calibration/calibration_verification.py`.
-/

namespace HandEye

/-- CV.py:29-33 `DualQuaternion.from_pose_vector` of all rows, without their stamps. -/
noncomputable def dualQuats (rows : List StampedPose) : List DQuat := rows.map fun r => DQuat.fromPose r.pose

/-- CV.py:38-49: the evaluation of rows that correspond. -/
noncomputable def evaluateRows (orientation_threshold_deg position_threshold_m : ℝ)
    (aligned_B_H aligned_W_E : List StampedPose) (dq_H_E : DQuat) : Py (ℝ × ℝ × List Bool) := do
  let aligned_dq_B_H ← alignPathsAtIndex (dualQuats aligned_B_H) 0
  let aligned_dq_W_E ← alignPathsAtIndex (dualQuats aligned_W_E) 0
  let (poses_B_H, poses_W_H) ← getAlignedPoses aligned_dq_B_H aligned_dq_W_E dq_H_E
  evaluateAlignment orientation_threshold_deg position_threshold_m poses_B_H poses_W_H

/-- CV.py:16-55 `evaluate_calibration`: the errors, `none` for `(inf, inf)`, and the number of inliers.  The
assertion of equal lengths (CV.py:23) is among those of `computeAlignedPoses`; plots are left out. -/
noncomputable def evaluateCalibration (orientation_threshold_deg position_threshold_m : ℝ)
    (poses_B_H poses_W_E : List StampedPose) (dq_H_E : DQuat) (time_offset : ℝ) : Py (Option (ℝ × ℝ) × ℕ) := do
  pyAssert (poses_B_H.length > 0)
  pyAssert (poses_W_E.length > 0)
  let (aligned_B_H, aligned_W_E) ← computeAlignedPoses poses_B_H poses_W_E time_offset
  pyAssert (aligned_B_H.length = aligned_W_E.length)
  if aligned_B_H.length = 0 then return (none, 0)
  else do
    let r ← evaluateRows orientation_threshold_deg position_threshold_m aligned_B_H aligned_W_E dq_H_E
    return (some (r.1, r.2.1), r.2.2.count true)

end HandEye
