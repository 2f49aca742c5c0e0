import Verif.Model.Csv

/-!
# Model of the script `compute_aligned_poses.py`

`CAP.py` abbreviates `/repo/hand_eye_calibration/bin/compute_aligned_poses.py`.  Files are given by the numbers they
hold (reading and writing their text is in `Model/Csv.lean`); printing, `--visualize` and the plots are left out.
-/

namespace HandEye

/-- The options of the script (CAP.py:24-54).  A table stands for the content of the file; the output of the time offset
is only asked for or not. -/
structure AlignArgs where
  poses_B_H : List StampedPose
  poses_W_E : List StampedPose
  time_offset_output : Bool := false
  quaternion_format : String := "Hamilton"

/-- The files that are written. -/
structure AlignOutput where
  aligned_poses_B_H : List StampedPose
  aligned_poses_W_E : List StampedPose
  time_offset : Option ℝ

/-- CAP.py:57-66: `use_JPL_quaternion`. -/
def useJPLQuaternion (quaternion_format : String) : Py Bool :=
  if quaternion_format = "JPL" then .ok true
  else if quaternion_format = "Hamilton" then .ok false
  else .error .assertion

/-- CAP.py:57-106: the script.  The filter settings are always the default ones (line 82). -/
noncomputable def alignScript (args : AlignArgs) : Py AlignOutput := do
  let use_JPL_quaternion ← useJPLQuaternion args.quaternion_format
  let (time_stamped_poses_B_H, times_B_H, quaternions_B_H) ← posesFromTable use_JPL_quaternion args.poses_B_H
  let (time_stamped_poses_W_E, times_W_E, quaternions_W_E) ← posesFromTable use_JPL_quaternion args.poses_W_E
  let time_offset ← calculateTimeOffset times_B_H quaternions_B_H times_W_E quaternions_W_E {}
  let (aligned_poses_B_H, aligned_poses_W_E) ←
    computeAlignedPoses time_stamped_poses_B_H time_stamped_poses_W_E time_offset
  return ⟨aligned_poses_B_H, aligned_poses_W_E, if args.time_offset_output then some time_offset else none⟩

end HandEye
