import Verif.Model.Experiments
import Verif.Model.Extrinsic

/-!
# Model of the script `compute_hand_eye_calibration.py`

`CHC.py` abbreviates `/repo/hand_eye_calibration/bin/compute_hand_eye_calibration.py`.  Files are given by the numbers
they hold (reading and writing their text is in `Model/Csv.lean`); printing, `--visualize` and the plots are left out.
-/

namespace HandEye

/-- CHC.py:76-90, 92-106: the poses of one sensor, from the file with the poses or else from the file with the inverse
poses. -/
noncomputable def inputPoses (direct inverted : Option (List StampedPose)) : Py (List DQuat) :=
  match direct, inverted with
  | some rows, _ => .ok (rows.map fun p => DQuat.fromPose p.pose)
  | none, some rows => rows.mapM fun p => (DQuat.fromPose p.pose).inverse
  | none, none => .error .assertion

/-- The options of the script (CHC.py:27-58).  `none` stands for an option that is not given; a table for the content
of the file; the two outputs are only asked for or not. -/
structure ScriptArgs where
  aligned_poses_B_H : Option (List StampedPose) := none
  aligned_poses_H_B : Option (List StampedPose) := none
  aligned_poses_W_E : Option (List StampedPose) := none
  aligned_poses_E_W : Option (List StampedPose) := none
  extrinsics_output : Bool := false
  time_offset_input : Option ℝ := none
  calibration_output : Bool := false

/-- The files that are written. -/
structure ScriptOutput where
  extrinsics : Option Pose
  calibration : Option CalibrationFile

/-- The attribute access `dq_H_E.to_pose`: `AttributeError` if there is no result. -/
def resultOf (dq_H_E : Option DQuat) : Py DQuat :=
  match dq_H_E with
  | some dq => .ok dq
  | none => .error .type

/-- CHC.py:145-150. -/
noncomputable def writeExtrinsics (wanted : Bool) (dq_H_E : Option DQuat) : Py (Option Pose) :=
  if wanted then do
    let dq ← resultOf dq_H_E
    let (pose, _) ← dq.toPose
    return some pose
  else return none

/-- CHC.py:152-159. -/
noncomputable def writeCalibration (wanted : Bool) (time_offset : Option ℝ) (dq_H_E : Option DQuat) :
    Py (Option CalibrationFile) :=
  match wanted, time_offset with
  | true, some t => do
    let dq ← resultOf dq_H_E
    let (pose, _) ← dq.toPose
    let (file, _) ← (Extrinsic.mk t (DQuat.fromPose pose)).writeJson false
    return some file
  | _, _ => return none

/-- CHC.py:145-159: the output of a run of RANSAC (`none`: it has not ended). -/
noncomputable def writeOutputs (args : ScriptArgs) (r : Option CalibrationResult) : Py (Option ScriptOutput) :=
  match r with
  | none => return none
  | some r => do
    let extrinsics ← writeExtrinsics args.extrinsics_output r.dq_H_E
    let calibration ← writeCalibration args.calibration_output args.time_offset_input r.dq_H_E
    return some ⟨extrinsics, calibration⟩

/-- CHC.py:61-159: the script, with at most `fuel` passes of the loop of RANSAC (`none` if that did not suffice). -/
noncomputable def calibrationScript (svd : Svd) (rng : ℕ → List ℕ) (fuel : ℕ) (args : ScriptArgs) :
    Py (Option ScriptOutput) := do
  pyAssert (args.aligned_poses_B_H.isSome ≠ args.aligned_poses_H_B.isSome)
  pyAssert (args.aligned_poses_W_E.isSome ≠ args.aligned_poses_E_W.isSome)
  pyAssert (args.calibration_output = true → args.time_offset_input.isSome)
  let dual_quat_B_H_vec ← inputPoses args.aligned_poses_B_H args.aligned_poses_H_B
  let dual_quat_W_E_vec ← inputPoses args.aligned_poses_W_E args.aligned_poses_E_W
  pyAssert (dual_quat_B_H_vec.length = dual_quat_W_E_vec.length)
  let dual_quat_B_H_vec ← alignPathsAtIndex dual_quat_B_H_vec
  let dual_quat_W_E_vec ← alignPathsAtIndex dual_quat_W_E_vec
  let r ← ransac svd rng getExhaustiveSearchScalarPartInliersConfig.config dual_quat_B_H_vec dual_quat_W_E_vec fuel
  writeOutputs args r

end HandEye
