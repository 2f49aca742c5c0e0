import Verif.Model.RoundedBaseline
import Verif.Model.RoundedEval

/-!
# `compute_hand_eye_calibration_RANSAC` in floating-point arithmetic

`HE.py` abbreviates `/repo/hand_eye_calibration/python/hand_eye_calibration/dual_quaternion_hand_eye_calibration.py`.  The same lines as in
`Model/Ransac.lean`, with a rounding after every elementary operation and with `nan` for angles as in `Model/RoundedEval.lean`.

Simplified: the prefilter (HE.py:659-673), the random samples (HE.py:713) and the test for the early end (HE.py:898-908) are parameters.  As in
`Model/Ransac.lean`, printing, plots and the runtime are left out, and `compute_hand_eye_calibration` flips no signs of the aligned poses that are used later
(both lists have been aligned with non-negative scalar parts).
-/

namespace HandEye

/-- What HE.py:869-877 compares and stores. -/
structure FloatCandidate where
  sample_indices : List ℕ
  calibration : Calibration
  rmse_position : ℝ
  rmse_orientation : Num
  num_inliers : ℕ

/-- HE.py:869-877: a candidate replaces the best one if it is better in both respects; initially both errors are `np.inf`. -/
noncomputable def updateBestFloat (best : Option FloatCandidate) (c : FloatCandidate) : Option FloatCandidate :=
  if numLtOrInf (some c.rmse_position) (best.map fun b => some b.rmse_position) &&
    numLtOrInf c.rmse_orientation (best.map FloatCandidate.rmse_orientation) then some c else best

/-- What becomes of a sample: rejected before the classification, rejected later (both `continue`), or evaluated. -/
inductive FloatOutcome where
  | prerejected
  | rejected
  | candidate (c : FloatCandidate)

/-- The variables that the loop changes (HE.py:683-690, 698-700). -/
structure FloatState where
  sample_number : ℕ := 0
  full_iterations : ℕ := 0
  prerejected_samples : ℕ := 0
  best : Option FloatCandidate := none

namespace Arith

variable (A : Arith)

/-- HE.py:733-742, 791-802: whether all pairs have matching scalar parts (the loop stops at the first that has not). -/
noncomputable def allMatch (tol : ℝ) : (dq_W_E dq_B_H : List DQuat) → Py Bool
  | w :: ws, b :: bs => do
    if ← A.scalarMatch tol w b then allMatch tol ws bs else return false
  | _, _ => return true

/-- HE.py:759-809, the branch "rmse_threshold"; `none` for `continue`. -/
noncomputable def classifyByRmse (svd : Svd) (cfg : HandEyeConfig) (samples_B_H samples_W_E aligned_B_H aligned_W_E : List DQuat) :
    Py (Option Classified) := do
  pyAssert (2 ≤ cfg.ransac_sample_size)
  match A.tryCalibrate svd cfg.hand_eye_calibration_scalar_part_equality_tolerance samples_B_H samples_W_E with
  | none => return none
  | some c =>
    let (poses_B_H, poses_W_H) ← A.getAlignedPoses aligned_B_H aligned_W_E c.dq_H_E
    let aligned_B_H ← aligned_B_H.mapM A.dqNormalize
    let (_, _, flags) ← A.evaluate cfg.ransac_orientation_error_threshold_deg cfg.ransac_position_error_threshold_m poses_B_H poses_W_H
    let f0 ← pyAt flags 0
    pyAssert (f0 = true)
    let ok ← A.allMatch cfg.ransac_sample_rejection_scalar_part_equality_tolerance (compress aligned_W_E flags) (compress aligned_B_H flags)
    return if ok then some ⟨some c, aligned_B_H, flags⟩ else none

/-- HE.py:811-820, the branch "scalar_part_equality". -/
noncomputable def classifyByScalar (cfg : HandEyeConfig) (aligned_B_H aligned_W_E : List DQuat) : Py (Option Classified) := do
  let flags ← (aligned_W_E.zip aligned_B_H).mapM fun p => A.scalarMatch cfg.ransac_sample_rejection_scalar_part_equality_tolerance p.1 p.2
  return some ⟨none, aligned_B_H, flags⟩

/-- HE.py:759-823: the inlier classification. -/
noncomputable def classify (svd : Svd) (cfg : HandEyeConfig) (samples_B_H samples_W_E aligned_B_H aligned_W_E : List DQuat) : Py (Option Classified) :=
  match cfg.ransac_inlier_classification with
  | .rmseThreshold => A.classifyByRmse svd cfg samples_B_H samples_W_E aligned_B_H aligned_W_E
  | .scalarPartEquality => A.classifyByScalar cfg aligned_B_H aligned_W_E
  | .other => .error .assertion

/-- HE.py:836-852: refinement on all inliers, or the initial model; `none` for `continue`. -/
noncomputable def refine (svd : Svd) (cfg : HandEyeConfig) (initial : Option Calibration) (inlier_B_H inlier_W_E : List DQuat) : Option Calibration :=
  match cfg.ransac_model_refinement, initial with
  | false, some c => some c
  | _, _ => A.tryCalibrate svd cfg.hand_eye_calibration_scalar_part_equality_tolerance inlier_B_H inlier_W_E

/-- HE.py:855-861: the poses on which the refined calibration is evaluated. -/
noncomputable def posesToEvaluate (cfg : HandEyeConfig) (inlier_B_H inlier_W_E aligned_B_H aligned_W_E : List DQuat) (dq_H_E : DQuat) :
    Py (List Pose × List Pose) :=
  if cfg.ransac_evaluate_refined_model_on_inliers_only then A.getAlignedPoses inlier_B_H inlier_W_E dq_H_E
  else A.getAlignedPoses aligned_B_H aligned_W_E dq_H_E

/-- HE.py:825-867: from the classified poses to a candidate; `none` for `continue`. -/
noncomputable def buildCandidate (svd : Svd) (cfg : HandEyeConfig) (sample_indices : List ℕ) (k : Classified) (aligned_W_E : List DQuat) :
    Py (Option FloatCandidate) := do
  let inlier_B_H := compress k.aligned_dq_B_H k.inlier_flags
  let inlier_W_E := compress aligned_W_E k.inlier_flags
  pyAssert (inlier_B_H.length = inlier_W_E.length)
  if inlier_B_H.length < cfg.min_num_inliers then return none
  else
    match A.refine svd cfg k.initial inlier_B_H inlier_W_E with
    | none => return none
    | some c =>
      let (poses_B_H, poses_W_H) ← A.posesToEvaluate cfg inlier_B_H inlier_W_E k.aligned_dq_B_H aligned_W_E c.dq_H_E
      let (rp, ro, _) ← A.evaluate cfg.ransac_orientation_error_threshold_deg cfg.ransac_position_error_threshold_m poses_B_H poses_W_H
      return some ⟨sample_indices, c, rp, ro, inlier_B_H.length⟩

/-- HE.py:716-742: the sampled poses, aligned at the first of them, and whether they pass the early test.  For a sample size of one there is neither
alignment nor test. -/
noncomputable def sampleTest (cfg : HandEyeConfig) (filtered_B_H filtered_W_E : List DQuat) (sample_indices : List ℕ) :
    Py (Bool × List DQuat × List DQuat) := do
  let samples_W_E ← sample_indices.mapM (pyAt filtered_W_E)
  let samples_B_H ← sample_indices.mapM (pyAt filtered_B_H)
  pyAssert (samples_W_E.length = cfg.ransac_sample_size)
  if 1 < cfg.ransac_sample_size then do
    let aligned_B_H ← A.alignPaths samples_B_H 0 true
    let aligned_W_E ← A.alignPaths samples_W_E 0 true
    let good ← A.allMatch cfg.ransac_sample_rejection_scalar_part_equality_tolerance aligned_W_E aligned_B_H
    return (good, aligned_B_H, aligned_W_E)
  else return (true, samples_B_H, samples_W_E)

/-- HE.py:716-867: one pass of the loop body for a given sample. -/
noncomputable def evaluateSample (svd : Svd) (cfg : HandEyeConfig) (dq_B_H_vec dq_W_E_vec filtered_B_H filtered_W_E : List DQuat)
    (sample_indices : List ℕ) : Py FloatOutcome := do
  let (good, samples_B_H, samples_W_E) ← A.sampleTest cfg filtered_B_H filtered_W_E sample_indices
  if good then do
    let i0 ← pyAt sample_indices 0
    let aligned_B_H ← A.alignPaths dq_B_H_vec i0 true
    let aligned_W_E ← A.alignPaths dq_W_E_vec i0 true
    match ← A.classify svd cfg samples_B_H samples_W_E aligned_B_H aligned_W_E with
    | none => return .rejected
    | some k =>
      match ← A.buildCandidate svd cfg sample_indices k aligned_W_E with
      | none => return .rejected
      | some c => return .candidate c
  else return .prerejected

/-- HE.py:706-908: the loop body; the flag tells whether the loop was left by `break`. -/
noncomputable def ransacStep (svd : Svd) (cfg : HandEyeConfig) (rng : ℕ → List ℕ) (abort : ℕ → Py Bool)
    (dq_B_H_vec dq_W_E_vec filtered_B_H filtered_W_E : List DQuat) (st : FloatState) : Py (FloatState × Bool) := do
  let sample ← drawSample cfg rng filtered_W_E.length st.sample_number
  let st := { st with sample_number := st.sample_number + 1 }
  match ← A.evaluateSample svd cfg dq_B_H_vec dq_W_E_vec filtered_B_H filtered_W_E sample with
  | .prerejected => return ({ st with prerejected_samples := st.prerejected_samples + 1 }, false)
  | .rejected => return (st, false)
  | .candidate c =>
    let full := st.full_iterations + 1
    let stop ← abort full
    return ({ st with full_iterations := full, best := updateBestFloat st.best c }, stop)

/-- HE.py:701-908: the loop, with at most `fuel` passes; `none` if that did not suffice. -/
noncomputable def ransacLoop (svd : Svd) (cfg : HandEyeConfig) (rng : ℕ → List ℕ) (abort : ℕ → Py Bool)
    (dq_B_H_vec dq_W_E_vec filtered_B_H filtered_W_E : List DQuat) : (fuel : ℕ) → FloatState → Py (Option FloatState)
  | fuel, st =>
    if loopCondition cfg filtered_W_E.length { sample_number := st.sample_number, full_iterations := st.full_iterations } then
      match fuel with
      | 0 => .ok none
      | fuel + 1 => do
        let (st, stop) ← A.ransacStep svd cfg rng abort dq_B_H_vec dq_W_E_vec filtered_B_H filtered_W_E st
        if stop then return some st
        else ransacLoop svd cfg rng abort dq_B_H_vec dq_W_E_vec filtered_B_H filtered_W_E fuel st
    else .ok (some st)

/-- HE.py:916-963: the returned calibration, if there is one.  `to_pose` normalises it in place. -/
noncomputable def ransacResult (best : Option FloatCandidate) : Py (Option FloatCandidate) :=
  match best with
  | none => .ok none
  | some b => do
    let _ ← A.toPose b.calibration.dq_H_E
    let dq ← A.dqNormalize b.calibration.dq_H_E
    return some { b with calibration := { b.calibration with dq_H_E := dq } }

/-- HE.py:628-963 `compute_hand_eye_calibration_RANSAC`, with at most `fuel` passes of the loop (the outer `none` if that did not suffice; the inner `none` if
no calibration was found). -/
noncomputable def ransac (svd : Svd) (rng : ℕ → List ℕ) (abort : ℕ → Py Bool) (cfg : HandEyeConfig)
    (filter : List DQuat → List DQuat → Py (List DQuat × List DQuat)) (dq_B_H_vec dq_W_E_vec : List DQuat) (fuel : ℕ) :
    Py (Option (Option FloatCandidate)) := do
  pyAssert (dq_W_E_vec.length = dq_B_H_vec.length)
  pyAssert (cfg.ransac_sample_size < dq_W_E_vec.length)
  let (filtered_B_H, filtered_W_E) ← filter dq_B_H_vec dq_W_E_vec
  match ← A.ransacLoop svd cfg rng abort dq_B_H_vec dq_W_E_vec filtered_B_H filtered_W_E fuel {} with
  | none => return none
  | some st => do
    let r ← A.ransacResult st.best
    return some r

end Arith

end HandEye
