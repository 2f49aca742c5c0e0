import Verif.Model.HandEye

/-!
# Model of `extrinsic_calibration.py`, `compute_loop_error` and `computeCircle`

`EC.py` abbreviates `/repo/hand_eye_calibration/python/hand_eye_calibration/extrinsic_calibration.py`, `CV.py`
`calibration_verification.py` in the same directory, `CC.py`
`/repo/hand_eye_calibration/scripts/close_the_circle_test.py`.
-/

namespace HandEye

/-- EC.py:6-9 `ExtrinsicCalibration`. -/
@[ext] structure Extrinsic where
  time_offset : ℝ
  pose_dq : DQuat

/-- EC.py:15-19, 26-30: the numbers of the file, under the keys `delay`, `rotation` (`i`, `j`, `k`, `w`) and
`translation` (`x`, `y`, `z`).  The JSON text is not modelled: `json.dump` prints a float so that `json.load`
returns the same float. -/
structure CalibrationFile where
  delay : ℝ
  i : ℝ
  j : ℝ
  k : ℝ
  w : ℝ
  x : ℝ
  y : ℝ
  z : ℝ

/-- EC.py:11-21 `writeJson`: the file, and the object as mutated by `to_pose`. -/
noncomputable def Extrinsic.writeJson (c : Extrinsic) (switchConvention : Bool) : Py (CalibrationFile × Extrinsic) := do
  let (pose, dq) ← c.pose_dq.toPose
  let q : Quat := if switchConvention then ⟨pose.q.x * -1, pose.q.y * -1, pose.q.z * -1, pose.q.w⟩ else pose.q
  return (⟨c.time_offset, q.x, q.y, q.z, q.w, pose.pos.x, pose.pos.y, pose.pos.z⟩, ⟨c.time_offset, dq⟩)

/-- EC.py:23-35 `fromJson`. -/
noncomputable def Extrinsic.fromJson (data : CalibrationFile) (switchConvention : Bool) : Extrinsic :=
  let q : Quat := ⟨data.i, data.j, data.k, data.w⟩
  let q : Quat := if switchConvention then ⟨q.x * -1, q.y * -1, q.z * -1, q.w⟩ else q
  ⟨data.delay, DQuat.fromPose ⟨⟨data.x, data.y, data.z⟩, q⟩⟩

/-- EC.py:40-43 `__mul__` with another calibration. -/
noncomputable def Extrinsic.mul (a b : Extrinsic) : Extrinsic := ⟨a.time_offset + b.time_offset, a.pose_dq * b.pose_dq⟩

noncomputable instance : Mul Extrinsic := ⟨Extrinsic.mul⟩

/-- CC.py:28-32 `computeCircle`: the product that is printed. -/
noncomputable def computeCircle (calibs : List Extrinsic) : Py Extrinsic := do
  let c ← pyAt calibs 0
  return calibs.tail.foldl (fun c cc => c * cc) c

/-- CV.py:70-77: the while loop, started with `i` and `idx`, with `steps = num_poses_sets - 2 - i` rounds to
go. -/
def loopEdges {α : Type} (results_dq_H_E : List α) (num_poses_sets : ℕ) : (steps i idx : ℕ) → Py (List α)
  | 0, _, _ => .ok []
  | steps + 1, i, idx => do
    let idx := idx + (num_poses_sets - i - 1)
    let d ← pyAt results_dq_H_E idx
    let l ← loopEdges results_dq_H_E num_poses_sets steps (i + 1) idx
    return d :: l

/-- CV.py:59-85: the list `calibration_transformation_chain`. -/
noncomputable def loopChain (results_dq_H_E : List DQuat) (num_poses_sets : ℕ) : Py (List DQuat) := do
  let first ← pyAt results_dq_H_E 0
  let edges ← loopEdges results_dq_H_E num_poses_sets (num_poses_sets - 2) 0 0
  let last ← pyGet results_dq_H_E ((num_poses_sets : ℤ) - 2)
  let inv ← last.inverse
  let chain := DQuat.identity :: first :: edges ++ [inv]
  pyAssert (chain.length = num_poses_sets + 1)
  return chain

/-- CV.py:87-92: the poses along the chain; `to_pose` normalises the running product. -/
noncomputable def chainPoses : DQuat → List DQuat → Py (List Pose)
  | _, [] => .ok []
  | dq_tmp, d :: l => do
    let (p, dq_tmp) ← (dq_tmp * d).toPose
    let ps ← chainPoses dq_tmp l
    return p :: ps

/-- CV.py:58-105 `compute_loop_error`, without plots. -/
noncomputable def computeLoopError (results_dq_H_E : List DQuat) (num_poses_sets : ℕ) : Py (ℝ × ℝ) := do
  let chain ← loopChain results_dq_H_E num_poses_sets
  let poses ← chainPoses DQuat.identity chain
  let a ← pyAt poses 0
  let b ← pyGet poses (-1)
  computePoseError a b

end HandEye
