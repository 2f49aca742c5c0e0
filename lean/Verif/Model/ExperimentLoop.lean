import Verif.Model.Extrinsic
import Verif.Model.Experiments

/-!
# Model of one iteration of an experiment

`SET.py` is `/repo/hand_eye_calibration_experiments/bin/compute_set_of_hand_eye_calibrations.py`, `CV.py` is
`/repo/hand_eye_calibration/python/hand_eye_calibration/calibration_verification.py`.  A calibration that fails gives
`None`, which is where this differs from `computeLoopError`.
-/

namespace HandEye

/-- CV.py:78-79 `results_dq_H_E[...].inverse()`: AttributeError for `None`. -/
noncomputable def inverseOpt : Option DQuat → Py (Option DQuat)
  | none => .error .type
  | some d => do
    let i ← d.inverse
    return some i

/-- CV.py:59-85 for results that may be `None`. -/
noncomputable def loopChainOpt (results_dq_H_E : List (Option DQuat)) (num_poses_sets : ℕ) :
    Py (List (Option DQuat)) := do
  let first ← pyAt results_dq_H_E 0
  let edges ← loopEdges results_dq_H_E num_poses_sets (num_poses_sets - 2) 0 0
  let last ← pyGet results_dq_H_E ((num_poses_sets : ℤ) - 2)
  let inv ← inverseOpt last
  let chain := some DQuat.identity :: first :: edges ++ [inv]
  pyAssert (chain.length = num_poses_sets + 1)
  return chain

/-- CV.py:87-90: multiplication with `None` is an assertion error (`DualQuaternion.__mul__`, last branch). -/
noncomputable def chainPosesOpt : DQuat → List (Option DQuat) → Py (List Pose)
  | _, [] => .ok []
  | _, none :: _ => .error .assertion
  | dq_tmp, some d :: l => do
    let (p, dq_tmp) ← (dq_tmp * d).toPose
    let ps ← chainPosesOpt dq_tmp l
    return p :: ps

/-- CV.py:58-105 `compute_loop_error` for results that may be `None`. -/
noncomputable def computeLoopErrorOpt (results_dq_H_E : List (Option DQuat)) (num_poses_sets : ℕ) : Py (ℝ × ℝ) := do
  let chain ← loopChainOpt results_dq_H_E num_poses_sets
  let poses ← chainPosesOpt DQuat.identity chain
  let a ← pyAt poses 0
  let b ← pyGet poses (-1)
  computePoseError a b

/-- What the optimizer does: SET.py:228-271, `none` for an exception in `run`, else the optimized transformation
and the number of inliers that `evaluate_calibration` finds. -/
abbrev Optimizer := ℕ → DQuat → Option (DQuat × ℕ)

/-- SET.py:205-308: what is stored for one pair, `results_dq_H_E[i]` and `optimization_success[i]`.  `dq` is what the
calibration returns; writing the initial guess of a failed one is an AttributeError. -/
noncomputable def storePair (optimizer : Optimizer) (enable_optimization : Bool) (i : ℕ) (dq : Option DQuat) :
    Py (Option DQuat × Bool) :=
  if enable_optimization then
    match dq with
    | none => .error .type
    | some d => do
      let _ ← (⟨0, d⟩ : Extrinsic).writeJson false
      match optimizer i d with
      | none => return (none, false)
      | some (d', inliers) => do
        let (_, d') ← d'.toPose
        return (some d', decide (inliers ≠ 0))
  else
    match dq with
    | none => return (none, true)
    | some d => do
      let (_, d) ← d.toPose
      return (some d, true)

/-- SET.py:118-310: the loop over the pairs. -/
noncomputable def storePairs (optimizer : Optimizer) (enable_optimization : Bool) :
    ℕ → List (Option DQuat) → Py (List (Option DQuat × Bool))
  | _, [] => .ok []
  | i, dq :: dqs => do
    let r ← storePair optimizer enable_optimization i dq
    let rs ← storePairs optimizer enable_optimization (i + 1) dqs
    return r :: rs

/-- SET.py:317-325: the loop error, if the optimization of all pairs succeeded. -/
noncomputable def loopErrorIfAll (stored : List (Option DQuat × Bool)) (num_poses_sets : ℕ) :
    Py (Option (ℝ × ℝ)) :=
  if (stored.map fun r => if r.2 then 1 else 0).sum = stored.length then do
    let e ← computeLoopErrorOpt (stored.map Prod.fst) num_poses_sets
    return some e
  else return none

/-- SET.py:108-355: one iteration over all pairs.  It returns what is written for each pair (the transformation to
`dq_H_E`, and a line to the result file) with the loop error; nothing is written before all of it is
computed.  The conversion of the values to text is not part of this (see `csvLine`). -/
noncomputable def runIteration (optimizer : Optimizer) (enable_optimization : Bool) (dqs : List (Option DQuat))
    (num_poses_sets : ℕ) : Py (List (Option DQuat) × Option (ℝ × ℝ)) := do
  let stored ← storePairs optimizer enable_optimization 0 dqs
  let loopError ← loopErrorIfAll stored num_poses_sets
  return (stored.map Prod.fst, loopError)

end HandEye
