import Verif.Model.Rounded

/-!
# The evaluation of a calibration in floating-point arithmetic, with `nan`

`Model/HandEye.lean` and `Model/Ransac.lean` stop where numpy goes on with `nan`.  Here the evaluation of calibrations is read with the rounding of
`Model/Rounded.lean`, and with `nan` for the angle between two poses: numpy's `arccos` gives `nan` outside of [-1, 1], with which Python goes on
without an exception, and every comparison with `nan` is false.  `HE.py` abbreviates
`/repo/hand_eye_calibration/python/hand_eye_calibration/dual_quaternion_hand_eye_calibration.py`.
-/

namespace HandEye

/-- A float that may be `nan`, which is `none`. -/
abbrev Num := Option ℝ

/-- `a < b`. -/
noncomputable def numLt : Num → Num → Bool
  | some a, some b => decide (a < b)
  | _, _ => false

/-- `a < b` where `none` for `b` stands for `np.inf`. -/
noncomputable def numLtOrInf (a : Num) : Option Num → Bool
  | none => a.isSome
  | some b => numLt a b

namespace Arith

variable (A : Arith)

/-- HE.py:355: the distance of two positions.  (`np.linalg.norm` takes the dot product of three elements, here a zero is added as a fourth.) -/
noncomputable def distance (p q : Vec3) : ℝ :=
  let d : Quat := ⟨A.fl (p.x - q.x), A.fl (p.y - q.y), A.fl (p.z - q.z), 0⟩
  A.fl (Real.sqrt (A.dot d d))

/-- HE.py:351-374 `compute_pose_error`.  `math.degrees` of `nan` is `nan`, and `nan > 180.0` is false. -/
noncomputable def poseError (pose_A pose_B : Pose) : ℝ × Num :=
  (A.distance pose_A.pos pose_B.pos, (A.orientationError pose_A pose_B).toOption)

/-- HE.py:408-413: the root of the mean of the squares (the terms are added from the left to the right; numpy adds in another order). -/
noncomputable def rmse (errors : List ℝ) : ℝ :=
  A.fl (Real.sqrt (A.fl ((errors.foldl (fun s e => A.fl (s + A.fl (e * e))) 0) / errors.length)))

/-- The same with `nan`: sums and roots with a `nan` are `nan`. -/
noncomputable def rmseNan (errors : List Num) : Num := if none ∈ errors then none else some (A.rmse (errors.filterMap fun e => e))

/-- HE.py:377-423 `evaluate_alignment`. -/
noncomputable def evaluate (orientation_threshold_deg position_threshold_m : ℝ) (poses_A poses_B : List Pose) : Py (ℝ × Num × List Bool) := do
  pyAssert (poses_A.length = poses_B.length)
  pyRequireSome poses_A
  let errors := (poses_A.zip poses_B).map fun p => A.poseError p.1 p.2
  let inlier_list := errors.map fun e => numLt e.2 (some orientation_threshold_deg) && decide (e.1 < position_threshold_m)
  return (A.rmse (errors.map Prod.fst), A.rmseNan (errors.map Prod.snd), inlier_list)
where
  /-- For no poses, zero is divided by zero (not modelled further). -/
  pyRequireSome (l : List Pose) : Py Unit := if l = [] then .error .nonFinite else .ok ()

/-- HE.py:434-436: the inverse of the calibration, with a non-negative scalar part. -/
noncomputable def inverseCalibration (dq_H_E_estimated : DQuat) : Py DQuat := do
  let e ← A.dqInverse dq_H_E_estimated
  let e ← A.dqNormalize e
  pyAssert (A.norm e.rot > 1e-8)
  return if e.rot.w < 0 then -e else e

/-- HE.py:440-447: the loop body of `get_aligned_poses`. -/
noncomputable def alignedHandPose (dq_E_H dq_B_H dq_W_E : DQuat) : Py DQuat := do
  let dq_W_H ← A.dqNormalize (A.dqMul dq_W_E dq_E_H)
  return if (dq_W_H.rot.w < 0 ∧ dq_B_H.rot.w > 0) ∨ (dq_W_H.rot.w > 0 ∧ dq_B_H.rot.w < 0) then -dq_W_H else dq_W_H

/-- HE.py:426-461 `get_aligned_poses`. -/
noncomputable def getAlignedPoses (dq_B_H_vec dq_W_E_vec : List DQuat) (dq_H_E_estimated : DQuat) : Py (List Pose × List Pose) := do
  pyAssert (dq_W_E_vec.length = dq_B_H_vec.length)
  let e ← A.inverseCalibration dq_H_E_estimated
  let dq_W_H_vec ← (dq_B_H_vec.zip dq_W_E_vec).mapM fun p => A.alignedHandPose e p.1 p.2
  let dq_W_H_vec ← A.alignPaths dq_W_H_vec 0 true
  let poses_W_H ← dq_W_H_vec.mapM A.toPose
  let poses_B_H ← dq_B_H_vec.mapM A.toPose
  return (poses_B_H, poses_W_H)

end Arith

/-- What HE.py:869-877 compares and stores. -/
structure NanCandidate where
  dq_H_E : DQuat
  rmse_position : ℝ
  rmse_orientation : Num

/-- HE.py:855-867: the evaluation of a refined calibration on all poses. -/
noncomputable def nanCandidate (A : Arith) (orientation_threshold_deg position_threshold_m : ℝ) (aligned_B_H aligned_W_E : List DQuat)
    (dq_H_E_refined : DQuat) : Py NanCandidate := do
  let (poses_B_H, poses_W_H) ← A.getAlignedPoses aligned_B_H aligned_W_E dq_H_E_refined
  let (rp, ro, _) ← A.evaluate orientation_threshold_deg position_threshold_m poses_B_H poses_W_H
  return ⟨dq_H_E_refined, rp, ro⟩

/-- HE.py:869-877: a candidate replaces the best one if it is better in both respects; initially both errors are `np.inf`. -/
noncomputable def updateBestNan (best : Option NanCandidate) (c : NanCandidate) : Option NanCandidate :=
  if numLtOrInf (some c.rmse_position) (best.map fun b => some b.rmse_position) &&
    numLtOrInf c.rmse_orientation (best.map NanCandidate.rmse_orientation) then some c else best

/-- HE.py:683-690, 869-877: the best of the candidates in the order in which they were found. -/
noncomputable def bestNan (candidates : List NanCandidate) : Option NanCandidate := candidates.foldl updateBestNan none

end HandEye
