import Verif.Model.HandEye
import Mathlib.Analysis.SpecialFunctions.Log.Basic

/-!
# Model of `hand_eye_calibration/dual_quaternion_hand_eye_calibration.py`, part 2

The configuration and `compute_hand_eye_calibration_RANSAC`.  `HE.py` abbreviates
`/repo/hand_eye_calibration/python/hand_eye_calibration/dual_quaternion_hand_eye_calibration.py`.

Left out: printing, `config.visualize` (taken to be False) and the measured runtime.  Python objects
are values here, so in-place changes have to be modelled explicitly:

* `compute_hand_eye_calibration` flips signs of the elements of its second argument, which in
  HE.py:840 are shared with `aligned_dq_W_E`.  It never does so here, as both lists have been aligned
  with enforced non-negative scalar parts: `Lemmas/Ransac.lean: enforceSameSign_nonneg`.
* `get_aligned_poses` normalises the elements of its first argument (`to_pose`); HE.py:779 is followed
  by further uses of that list and returns the modified list below.
-/

namespace HandEye

/-- The values of `ransac_inlier_classification` that the code distinguishes. -/
inductive InlierClassification where
  | rmseThreshold
  | scalarPartEquality
  | other
  deriving DecidableEq

/-- HE.py:50-86 `HandEyeConfig`, with its default values.  `algorithm_name` and the visualisation
options are left out. -/
structure HandEyeConfig where
  use_baseline_approach : Bool := false
  min_num_inliers : ℕ := 10
  enable_exhaustive_search : Bool := false
  prefilter_poses_enabled : Bool := true
  prefilter_dot_product_threshold : ℝ := 0.975
  ransac_sample_size : ℕ := 3
  ransac_sample_rejection_scalar_part_equality_tolerance : ℝ := 1e-2
  ransac_max_number_iterations : ℕ := 20
  ransac_enable_early_abort : Bool := true
  ransac_outlier_probability : ℝ := 0.5
  ransac_success_probability_threshold : ℝ := 0.99
  ransac_inlier_classification : InlierClassification := .scalarPartEquality
  ransac_position_error_threshold_m : ℝ := 0.02
  ransac_orientation_error_threshold_deg : ℝ := 1
  ransac_model_refinement : Bool := true
  ransac_evaluate_refined_model_on_inliers_only : Bool := false
  hand_eye_calibration_scalar_part_equality_tolerance : ℝ := 4e-2

/-- `itertools.combinations(l, k)`, in its order. -/
def combinations {α : Type} : List α → ℕ → List (List α)
  | _, 0 => [[]]
  | [], _ + 1 => []
  | a :: l, k + 1 => (combinations l k).map (a :: ·) ++ combinations l (k + 1)

/-- `list(itertools.compress(l, flags))`. -/
def compress {α : Type} : List α → List Bool → List α
  | a :: l, f :: fs => if f then a :: compress l fs else compress l fs
  | _, _ => []

/-- `math.log`. -/
noncomputable def mathLog (x : ℝ) : Py ℝ := if 0 < x then .ok (Real.log x) else .error .value

/-- Division of Python floats. -/
noncomputable def floatDiv (a b : ℝ) : Py ℝ := if b = 0 then .error .zeroDivision else .ok (a / b)

/-- `np.allclose(scalar_parts_W_E.dq, scalar_parts_B_H.dq, atol=tol)` (HE.py:533-535, 735-739,
791-796, 815-819). -/
noncomputable def scalarPartsMatch (tol : ℝ) (dq_W_E dq_B_H : DQuat) : Py Bool := do
  let sw ← dq_W_E.scalar
  let sb ← dq_B_H.scalar
  return decide (sw.allclose sb tol)

/-- HE.py:733-742: whether all sample pairs have matching scalar parts (the loop stops at the first
that has not). -/
noncomputable def samplesMatch (tol : ℝ) : (dq_W_E dq_B_H : List DQuat) → Py Bool
  | w :: ws, b :: bs => do
    if ← scalarPartsMatch tol w b then samplesMatch tol ws bs else return false
  | _, _ => return true

/-- HE.py:765-776 and 837-852: the solver inside `try ... except`, `none` if it raised. -/
noncomputable def tryCalibration (svd : Svd) (tol : ℝ) (dq_B_H dq_W_E : List DQuat) :
    Option Calibration :=
  match (do
    let c ← computeHandEyeCalibration svd dq_B_H dq_W_E tol
    let dq ← c.dq_H_E.normalize
    return { c with dq_H_E := dq } : Py Calibration) with
  | .ok c => some c
  | .error _ => none

/-- What the classification of the poses (HE.py:753-823) yields: the model computed on the samples, if
any; the aligned hand poses, which the evaluation may have normalised; and the flags. -/
structure Classified where
  initial : Option Calibration
  aligned_dq_B_H : List DQuat
  inlier_flags : List Bool

/-- HE.py:759-809, the branch "rmse_threshold"; `none` for `continue`. -/
noncomputable def classifyByRmse (svd : Svd) (cfg : HandEyeConfig)
    (samples_B_H samples_W_E aligned_B_H aligned_W_E : List DQuat) : Py (Option Classified) := do
  pyAssert (2 ≤ cfg.ransac_sample_size)
  match tryCalibration svd cfg.hand_eye_calibration_scalar_part_equality_tolerance
      samples_B_H samples_W_E with
  | none => return none
  | some c =>
    let (poses_B_H, poses_W_H) ← getAlignedPoses aligned_B_H aligned_W_E c.dq_H_E
    let aligned_B_H ← aligned_B_H.mapM DQuat.normalize
    let (_, _, flags) ← evaluateAlignment cfg.ransac_orientation_error_threshold_deg
      cfg.ransac_position_error_threshold_m poses_B_H poses_W_H
    let f0 ← pyAt flags 0
    pyAssert (f0 = true)
    let ok ← samplesMatch cfg.ransac_sample_rejection_scalar_part_equality_tolerance
      (compress aligned_W_E flags) (compress aligned_B_H flags)
    return if ok then some ⟨some c, aligned_B_H, flags⟩ else none

/-- HE.py:811-820, the branch "scalar_part_equality". -/
noncomputable def classifyByScalar (cfg : HandEyeConfig) (aligned_B_H aligned_W_E : List DQuat) :
    Py (Option Classified) := do
  let flags ← (aligned_W_E.zip aligned_B_H).mapM fun p =>
    scalarPartsMatch cfg.ransac_sample_rejection_scalar_part_equality_tolerance p.1 p.2
  return some ⟨none, aligned_B_H, flags⟩

/-- HE.py:759-823: the inlier classification. -/
noncomputable def classify (svd : Svd) (cfg : HandEyeConfig)
    (samples_B_H samples_W_E aligned_B_H aligned_W_E : List DQuat) : Py (Option Classified) :=
  match cfg.ransac_inlier_classification with
  | .rmseThreshold => classifyByRmse svd cfg samples_B_H samples_W_E aligned_B_H aligned_W_E
  | .scalarPartEquality => classifyByScalar cfg aligned_B_H aligned_W_E
  | .other => .error .assertion

/-- A sample's refined calibration and its evaluation: what HE.py:869-877 compares and stores. -/
structure Candidate where
  sample_indices : List ℕ
  dq_H_E : DQuat
  rmse_position : ℝ
  rmse_orientation : ℝ
  num_inliers : ℕ
  singular_values : List ℝ
  bad_singular_values : Bool

/-- HE.py:836-852: refinement on all inliers, or the initial model; `none` for `continue`. -/
noncomputable def refine (svd : Svd) (cfg : HandEyeConfig) (initial : Option Calibration)
    (inlier_B_H inlier_W_E : List DQuat) : Option Calibration :=
  match cfg.ransac_model_refinement, initial with
  | false, some c => some c
  | _, _ => tryCalibration svd cfg.hand_eye_calibration_scalar_part_equality_tolerance
      inlier_B_H inlier_W_E

/-- HE.py:825-867: from the classified poses to a candidate; `none` for `continue`. -/
noncomputable def buildCandidate (svd : Svd) (cfg : HandEyeConfig) (sample_indices : List ℕ)
    (k : Classified) (aligned_W_E : List DQuat) : Py (Option Candidate) := do
  let inlier_B_H := compress k.aligned_dq_B_H k.inlier_flags
  let inlier_W_E := compress aligned_W_E k.inlier_flags
  pyAssert (inlier_B_H.length = inlier_W_E.length)
  if inlier_B_H.length < cfg.min_num_inliers then return none
  else
    match refine svd cfg k.initial inlier_B_H inlier_W_E with
    | none => return none
    | some c =>
      let (poses_B_H, poses_W_H) ←
        if cfg.ransac_evaluate_refined_model_on_inliers_only then
          getAlignedPoses inlier_B_H inlier_W_E c.dq_H_E
        else getAlignedPoses k.aligned_dq_B_H aligned_W_E c.dq_H_E
      let (rp, ro, _) ← evaluateAlignment cfg.ransac_orientation_error_threshold_deg
        cfg.ransac_position_error_threshold_m poses_B_H poses_W_H
      return some ⟨sample_indices, c.dq_H_E, rp, ro, inlier_B_H.length, c.singular_values,
        c.bad_singular_values⟩

/-- What becomes of a sample: rejected before the classification, rejected later (both `continue`), or
evaluated. -/
inductive SampleOutcome where
  | prerejected
  | rejected
  | candidate (c : Candidate)

/-- HE.py:716-742: the sampled poses, aligned at the first of them, and whether they pass the early
test.  For a sample size of one there is neither alignment nor test. -/
noncomputable def sampleTest (cfg : HandEyeConfig) (filtered_B_H filtered_W_E : List DQuat)
    (sample_indices : List ℕ) : Py (Bool × List DQuat × List DQuat) := do
  let samples_W_E ← sample_indices.mapM (pyAt filtered_W_E)
  let samples_B_H ← sample_indices.mapM (pyAt filtered_B_H)
  pyAssert (samples_W_E.length = cfg.ransac_sample_size)
  if 1 < cfg.ransac_sample_size then do
    let aligned_B_H ← alignPathsAtIndex samples_B_H
    let aligned_W_E ← alignPathsAtIndex samples_W_E
    let good ← samplesMatch cfg.ransac_sample_rejection_scalar_part_equality_tolerance
      aligned_W_E aligned_B_H
    return (good, aligned_B_H, aligned_W_E)
  else return (true, samples_B_H, samples_W_E)

/-- HE.py:716-867: one pass of the loop body for a given sample. -/
noncomputable def evaluateSample (svd : Svd) (cfg : HandEyeConfig)
    (dq_B_H_vec dq_W_E_vec filtered_B_H filtered_W_E : List DQuat) (sample_indices : List ℕ) :
    Py SampleOutcome := do
  let (good, samples_B_H, samples_W_E) ← sampleTest cfg filtered_B_H filtered_W_E sample_indices
  if good then do
    let i0 ← pyAt sample_indices 0
    let aligned_B_H ← alignPathsAtIndex dq_B_H_vec i0
    let aligned_W_E ← alignPathsAtIndex dq_W_E_vec i0
    match ← classify svd cfg samples_B_H samples_W_E aligned_B_H aligned_W_E with
    | none => return .rejected
    | some k =>
      match ← buildCandidate svd cfg sample_indices k aligned_W_E with
      | none => return .rejected
      | some c => return .candidate c
  else return .prerejected

/-- The variables that the loop changes (HE.py:683-690, 698-700). -/
structure LoopState where
  sample_number : ℕ := 0
  full_iterations : ℕ := 0
  prerejected_samples : ℕ := 0
  best : Option Candidate := none

/-- HE.py:869-877: a candidate replaces the best one if it is better in both respects (initially both
errors are `inf`). -/
noncomputable def updateBest (best : Option Candidate) (c : Candidate) : Option Candidate :=
  match best with
  | none => some c
  | some b => if c.rmse_position < b.rmse_position ∧ c.rmse_orientation < b.rmse_orientation
    then some c else some b

/-- HE.py:898-908: whether to stop after `full_iterations` full iterations. -/
noncomputable def earlyAbort (cfg : HandEyeConfig) (full_iterations : ℕ) : Py Bool :=
  if cfg.enable_exhaustive_search = false ∧ cfg.ransac_enable_early_abort = true then do
    let w := 1 - cfg.ransac_outlier_probability
    let w_pow_s := w ^ cfg.ransac_sample_size
    let a ← mathLog (1 - cfg.ransac_success_probability_threshold)
    let b ← mathLog (1 - w_pow_s)
    let required_iterations ← floatDiv a b
    return decide ((full_iterations : ℝ) > required_iterations)
  else return false

/-- HE.py:709-714: the sample of an iteration.  `rng k` is what the `k`-th call of `random.sample`
returns, which raises ValueError if the sample is to be larger than the population. -/
def drawSample (cfg : HandEyeConfig) (rng : ℕ → List ℕ) (num_filtered : ℕ) (sample_number : ℕ) :
    Py (List ℕ) :=
  if cfg.enable_exhaustive_search then
    pyAt (combinations (List.range num_filtered) cfg.ransac_sample_size) sample_number
  else if num_filtered < cfg.ransac_sample_size then .error .value
  else .ok (rng sample_number)

/-- HE.py:701-704: the loop condition.  `max_number_samples` is the number of combinations; it is only
used for the exhaustive search. -/
def loopCondition (cfg : HandEyeConfig) (num_filtered : ℕ) (st : LoopState) : Bool :=
  (!cfg.enable_exhaustive_search && decide (st.full_iterations < cfg.ransac_max_number_iterations)) ||
  (cfg.enable_exhaustive_search && decide (st.sample_number <
    (combinations (List.range num_filtered) cfg.ransac_sample_size).length))

/-- HE.py:706-908: the loop body; the flag tells whether the loop was left by `break`. -/
noncomputable def ransacStep (svd : Svd) (cfg : HandEyeConfig) (rng : ℕ → List ℕ)
    (dq_B_H_vec dq_W_E_vec filtered_B_H filtered_W_E : List DQuat) (st : LoopState) :
    Py (LoopState × Bool) := do
  let sample ← drawSample cfg rng filtered_W_E.length st.sample_number
  let st := { st with sample_number := st.sample_number + 1 }
  match ← evaluateSample svd cfg dq_B_H_vec dq_W_E_vec filtered_B_H filtered_W_E sample with
  | .prerejected => return ({ st with prerejected_samples := st.prerejected_samples + 1 }, false)
  | .rejected => return (st, false)
  | .candidate c =>
    let full := st.full_iterations + 1
    let abort ← earlyAbort cfg full
    return ({ st with full_iterations := full, best := updateBest st.best c }, abort)

/-- HE.py:701-908: the loop, with at most `fuel` passes; `none` if that did not suffice. -/
noncomputable def ransacLoop (svd : Svd) (cfg : HandEyeConfig) (rng : ℕ → List ℕ)
    (dq_B_H_vec dq_W_E_vec filtered_B_H filtered_W_E : List DQuat) :
    (fuel : ℕ) → LoopState → Py (Option LoopState)
  | fuel, st =>
    if loopCondition cfg filtered_W_E.length st then
      match fuel with
      | 0 => .ok none
      | fuel + 1 => do
        let (st, stop) ← ransacStep svd cfg rng dq_B_H_vec dq_W_E_vec filtered_B_H filtered_W_E st
        if stop then return some st
        else ransacLoop svd cfg rng dq_B_H_vec dq_W_E_vec filtered_B_H filtered_W_E fuel st
    else .ok (some st)

/-- The tuple that RANSAC and BASELINE return, without the runtime.  `rmse = none` stands for
`(np.inf, np.inf)` or `(None, None)`. -/
structure CalibrationResult where
  success : Bool
  dq_H_E : Option DQuat
  rmse : Option (ℝ × ℝ)
  num_inliers : ℕ
  num_poses_after_filtering : ℕ
  singular_values : Option (List ℝ)
  bad_singular_values : Bool

/-- HE.py:659-673: the poses that samples are drawn from.  The two arguments of the prefilter are
swapped in the call, and so are its results. -/
noncomputable def filteredPoses (cfg : HandEyeConfig) (dq_B_H_vec dq_W_E_vec : List DQuat) :
    Py (List DQuat × List DQuat) :=
  if cfg.prefilter_poses_enabled then do
    let r ← prefilterUsingScrewAxis dq_B_H_vec dq_W_E_vec cfg.prefilter_dot_product_threshold
    pyAssert (r.2.length = r.1.length)
    return r
  else .ok (dq_B_H_vec, dq_W_E_vec)

/-- HE.py:916-963: the returned tuple.  `to_pose` normalises the calibration in place. -/
noncomputable def ransacResult (num_filtered : ℕ) (best : Option Candidate) : Py CalibrationResult :=
  match best with
  | none => .ok ⟨false, none, none, 0, num_filtered, none, true⟩
  | some b => do
    let (_, dq) ← b.dq_H_E.toPose
    return ⟨true, some dq, some (b.rmse_position, b.rmse_orientation), b.num_inliers, num_filtered,
      some b.singular_values, b.bad_singular_values⟩

/-- HE.py:628-963 `compute_hand_eye_calibration_RANSAC`, with at most `fuel` passes of the loop. -/
noncomputable def ransac (svd : Svd) (rng : ℕ → List ℕ) (cfg : HandEyeConfig)
    (dq_B_H_vec dq_W_E_vec : List DQuat) (fuel : ℕ) : Py (Option CalibrationResult) := do
  pyAssert (dq_W_E_vec.length = dq_B_H_vec.length)
  pyAssert (cfg.ransac_sample_size < dq_W_E_vec.length)
  let (filtered_B_H, filtered_W_E) ← filteredPoses cfg dq_B_H_vec dq_W_E_vec
  match ← ransacLoop svd cfg rng dq_B_H_vec dq_W_E_vec filtered_B_H filtered_W_E fuel {} with
  | none => return none
  | some st => do
    let r ← ransacResult filtered_W_E.length st.best
    return some r

end HandEye
