import Verif.Model.Rounded

/-!
# The preparation of the tables of poses in floating-point arithmetic

`CHC.py` abbreviates `/repo/hand_eye_calibration/bin/compute_hand_eye_calibration.py`.  The tables are given by the numbers they hold, as in `Model/Script.lean`,
which has the same code in exact arithmetic.
-/

namespace HandEye.Arith

variable (A : Arith)

/-- CHC.py:76-82 or 83-89 (and 91-97 or 98-104): the dual quaternions of the poses of a table, or the inverse ones if the table holds the inverse poses.  (The
time stamps are not used.) -/
noncomputable def tablePoses (inverted : Bool) (table : List Pose) : Py (List DQuat) :=
  if inverted then table.mapM fun p => A.dqInverse (A.fromPose p) else .ok (table.map A.fromPose)

/-- CHC.py:76-110: both tables are read, and both paths are aligned at their first pose. -/
noncomputable def preparedPaths (inverted_1 inverted_2 : Bool) (poses1 poses2 : List Pose) : Py (List DQuat × List DQuat) := do
  let dual_quat_B_H_vec ← A.tablePoses inverted_1 poses1
  let dual_quat_W_E_vec ← A.tablePoses inverted_2 poses2
  pyAssert (dual_quat_B_H_vec.length = dual_quat_W_E_vec.length)
  let dual_quat_B_H_vec ← A.alignPaths dual_quat_B_H_vec 0 true
  let dual_quat_W_E_vec ← A.alignPaths dual_quat_W_E_vec 0 true
  return (dual_quat_B_H_vec, dual_quat_W_E_vec)

end HandEye.Arith
