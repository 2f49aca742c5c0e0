import Verif.Model.Ransac

/-!
# Model of `compute_hand_eye_calibration_BASELINE`

`HE.py` abbreviates
`/repo/hand_eye_calibration/python/hand_eye_calibration/dual_quaternion_hand_eye_calibration.py`.
Left out: printing, `config.visualize` and the measured runtime.
-/

namespace HandEye

/-- The variables of the search (HE.py:501-504 and the lists of the current iteration, which are unbound
before the first one: `none`). -/
structure BaselineSearch where
  best_idx : ℤ := -1
  best_num_inliers : ℤ
  best_dq_W_E_vec_inlier : List DQuat := []
  best_dq_B_H_vec_inlier : List DQuat := []
  /-- `(dq_B_H_vec_inlier, dq_W_E_vec_inlier)` -/
  cur_inlier : Option (List DQuat × List DQuat) := none

/-- HE.py:516-534: the pairs whose scalar parts agree after aligning at pair `j`, as
`(dq_B_H_vec_inlier, dq_W_E_vec_inlier)`. -/
noncomputable def baselineInliers (filtered_B_H filtered_W_E : List DQuat) (j : ℕ) :
    Py (List DQuat × List DQuat) := do
  let aligned_W_E ← alignPathsAtIndex filtered_W_E j
  let aligned_B_H ← alignPathsAtIndex filtered_B_H j
  let flags ← (aligned_W_E.zip aligned_B_H).mapM fun p => scalarPartsMatch 1e-2 p.1 p.2
  return (compress aligned_B_H flags, compress aligned_W_E flags)

/-- HE.py:514-557: the search loop over the remaining indices. -/
noncomputable def baselineLoop (cfg : HandEyeConfig) (filtered_B_H filtered_W_E : List DQuat) :
    List ℕ → BaselineSearch → Py BaselineSearch
  | [], st => .ok st
  | j :: js, st => do
    let (inlier_B_H, inlier_W_E) ← baselineInliers filtered_B_H filtered_W_E j
    pyAssert (inlier_W_E.length = inlier_B_H.length)
    if cfg.enable_exhaustive_search then
      if (inlier_W_E.length : ℤ) > st.best_num_inliers then
        baselineLoop cfg filtered_B_H filtered_W_E js
          ⟨j, inlier_W_E.length, inlier_W_E, inlier_B_H, some (inlier_B_H, inlier_W_E)⟩
      else
        baselineLoop cfg filtered_B_H filtered_W_E js { st with cur_inlier := some (inlier_B_H, inlier_W_E) }
    else if inlier_W_E.length > cfg.min_num_inliers then
      return ⟨j, inlier_W_E.length, st.best_dq_W_E_vec_inlier, st.best_dq_B_H_vec_inlier,
        some (inlier_B_H, inlier_W_E)⟩
    else do
      pyAssert (j + 1 < filtered_W_E.length)
      baselineLoop cfg filtered_B_H filtered_W_E js { st with cur_inlier := some (inlier_B_H, inlier_W_E) }

/-- HE.py:559-562: the inliers to go on with.  `best_dq_W_E_vec_filtered` (HE.py:561) is not defined
anywhere. -/
def baselineSelect (cfg : HandEyeConfig) (st : BaselineSearch) : Py (List DQuat × List DQuat) :=
  if cfg.enable_exhaustive_search then do
    pyAssert (st.best_idx ≠ -1)
    .error .name
  else
    match st.cur_inlier with
    | none => .error .name
    | some p => .ok p

/-- The returned tuple, without the runtime: `num_poses_after_filtering`, and the rest unless the solver
raised (then all of it is None). -/
structure BaselineResult where
  num_poses_after_filtering : ℕ
  found : Option Candidate

/-- HE.py:493-499: the poses that are searched.  As in RANSAC, the two arguments of the prefilter are
swapped, and so are its results. -/
noncomputable def baselineFilter (cfg : HandEyeConfig) (dq_B_H_vec dq_W_E_vec : List DQuat) :
    Py (List DQuat × List DQuat) :=
  if cfg.prefilter_poses_enabled then
    prefilterUsingScrewAxis dq_B_H_vec dq_W_E_vec cfg.prefilter_dot_product_threshold
  else .ok (dq_B_H_vec, dq_W_E_vec)

/-- HE.py:592-602: the poses for the evaluation, on the inliers or on all poses. -/
noncomputable def baselinePoses (cfg : HandEyeConfig)
    (dq_B_H_vec dq_W_E_vec inlier_B_H inlier_W_E : List DQuat) (best_idx : ℤ) (dq_H_E : DQuat) :
    Py (List Pose × List Pose) :=
  if cfg.ransac_evaluate_refined_model_on_inliers_only then getAlignedPoses inlier_B_H inlier_W_E dq_H_E
  else do
    let aligned_B_H ← alignPathsAtIndex dq_B_H_vec best_idx
    let aligned_W_E ← alignPathsAtIndex dq_W_E_vec best_idx
    getAlignedPoses aligned_B_H aligned_W_E dq_H_E

/-- HE.py:573-625: calibration on the inliers and its evaluation. -/
noncomputable def baselineSolve (svd : Svd) (cfg : HandEyeConfig) (dq_B_H_vec dq_W_E_vec : List DQuat)
    (num_filtered : ℕ) (st : BaselineSearch) (inlier_B_H inlier_W_E : List DQuat) : Py BaselineResult :=
  match tryCalibration svd cfg.hand_eye_calibration_scalar_part_equality_tolerance inlier_B_H inlier_W_E with
  | none => .ok ⟨num_filtered, none⟩
  | some c => do
    let (poses_B_H, poses_W_H) ←
      baselinePoses cfg dq_B_H_vec dq_W_E_vec inlier_B_H inlier_W_E st.best_idx c.dq_H_E
    let (rp, ro, _) ← evaluateAlignment cfg.ransac_orientation_error_threshold_deg
      cfg.ransac_position_error_threshold_m poses_B_H poses_W_H
    let (_, dq) ← c.dq_H_E.toPose
    return ⟨num_filtered, some ⟨[st.best_idx.toNat], dq, rp, ro, st.best_num_inliers.toNat,
      c.singular_values, c.bad_singular_values⟩⟩

/-- HE.py:464-625 `compute_hand_eye_calibration_BASELINE`.  The in-place sign changes of `dq_W_E_vec`
(HE.py:483-489) are visible below; `sample_indices` of the candidate holds `best_idx`. -/
noncomputable def baseline (svd : Svd) (cfg : HandEyeConfig) (dq_B_H_vec dq_W_E_vec : List DQuat) :
    Py BaselineResult := do
  pyAssert (dq_W_E_vec.length = dq_B_H_vec.length)
  let dq_W_E_vec ← enforceSameSign dq_B_H_vec dq_W_E_vec
  let (filtered_B_H, filtered_W_E) ← baselineFilter cfg dq_B_H_vec dq_W_E_vec
  let st ← baselineLoop cfg filtered_B_H filtered_W_E (List.range filtered_W_E.length)
    { best_num_inliers := (cfg.min_num_inliers : ℤ) - 1 }
  let (inlier_B_H, inlier_W_E) ← baselineSelect cfg st
  let _ ← alignPathsAtIndex inlier_B_H st.best_idx
  let _ ← alignPathsAtIndex inlier_W_E st.best_idx
  baselineSolve svd cfg dq_B_H_vec dq_W_E_vec filtered_W_E.length st inlier_B_H inlier_W_E

end HandEye
