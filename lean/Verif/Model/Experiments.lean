import Verif.Model.Csv
import Verif.Model.Ransac

/-!
# Model of the experiment configurations and results

`RES.py`, `PLT.py` and `ALL.py` abbreviate `experiment_results.py`, `experiment_plotting_tools.py` and
`all_algorithm_configs.py` in
`/repo/hand_eye_calibration_experiments/python/hand_eye_calibration_experiments/`; `AC.py` abbreviates
`/repo/hand_eye_calibration/python/hand_eye_calibration/algorithm_config.py`.
-/

namespace HandEye

/-! ## Configurations -/

/-- A hand-eye configuration with its name (`hand_eye_config.algorithm_name`). -/
structure NamedConfig where
  algorithm_name : String
  config : HandEyeConfig

/-- AC.py:5-54 `get_basic_config`; the time alignment part is `getBasicFilteringConfig` in `AlgorithmFilter.lean`. -/
noncomputable def getBasicConfig : NamedConfig :=
  ⟨"", { use_baseline_approach := false
         enable_exhaustive_search := false
         min_num_inliers := 10
         prefilter_poses_enabled := false
         prefilter_dot_product_threshold := 0.95
         ransac_sample_size := 3
         ransac_sample_rejection_scalar_part_equality_tolerance := 1e-2
         ransac_max_number_iterations := 20
         ransac_enable_early_abort := true
         ransac_outlier_probability := 0.5
         ransac_success_probability_threshold := 0.99
         ransac_inlier_classification := .scalarPartEquality
         ransac_position_error_threshold_m := 0.02
         ransac_orientation_error_threshold_deg := 1
         ransac_model_refinement := true
         ransac_evaluate_refined_model_on_inliers_only := false
         hand_eye_calibration_scalar_part_equality_tolerance := 4e-2 }⟩

/-- AC.py:57-79 `get_RANSAC_classic_config`. -/
noncomputable def getRansacClassicConfig (prefilter_poses : Bool) : NamedConfig :=
  ⟨if prefilter_poses then "RC_filter" else "RC_no_filter",
   { getBasicConfig.config with
     prefilter_poses_enabled := prefilter_poses
     ransac_sample_size := 3
     enable_exhaustive_search := false
     ransac_inlier_classification := .rmseThreshold }⟩

/-- AC.py:82-103 `get_RANSAC_scalar_part_inliers_config`. -/
noncomputable def getRansacScalarPartInliersConfig (prefilter_poses : Bool) : NamedConfig :=
  ⟨if prefilter_poses then "RS_filter" else "RS_no_filter",
   { getBasicConfig.config with
     prefilter_poses_enabled := prefilter_poses
     ransac_sample_size := 1
     enable_exhaustive_search := false
     ransac_inlier_classification := .scalarPartEquality }⟩

/-- AC.py:106-125 `get_exhaustive_search_pose_inliers_config`. -/
noncomputable def getExhaustiveSearchPoseInliersConfig : NamedConfig :=
  ⟨"EC",
   { getBasicConfig.config with
     prefilter_poses_enabled := true
     ransac_sample_size := 3
     enable_exhaustive_search := true
     ransac_inlier_classification := .rmseThreshold }⟩

/-- AC.py:128-147 `get_exhaustive_search_scalar_part_inliers_config`. -/
noncomputable def getExhaustiveSearchScalarPartInliersConfig : NamedConfig :=
  ⟨"ES",
   { getBasicConfig.config with
     prefilter_poses_enabled := true
     ransac_sample_size := 1
     enable_exhaustive_search := true
     ransac_inlier_classification := .scalarPartEquality }⟩

/-- AC.py:150-169 `get_baseline_config`. -/
noncomputable def getBaselineConfig (prefilter_poses : Bool) : NamedConfig :=
  ⟨if prefilter_poses then "baseline_filter" else "baseline_no_filter",
   { getBasicConfig.config with
     use_baseline_approach := true
     prefilter_poses_enabled := prefilter_poses
     enable_exhaustive_search := false }⟩

/-- A configuration for an experiment: name, hand-eye configuration, `enable_optimization`,
`optimization_only`. -/
structure ExperimentConfig where
  algorithm_name : String
  config : HandEyeConfig
  enable_optimization : Bool
  optimization_only : Bool

/-- ALL.py:45-139: the five `get_*_and_optimization_config` differ in the configuration they start from only. -/
def withOptimization (c : NamedConfig) (enable_optimization : Bool) : ExperimentConfig :=
  ⟨c.algorithm_name ++ (if enable_optimization then "_opt" else "_no_opt"), c.config, enable_optimization, false⟩

/-- ALL.py:142-157 `get_optimization_with_spoiled_initial_calibration_config`. -/
noncomputable def spoiledConfig : ExperimentConfig :=
  ⟨"optimization_w_spoiled_init_calibration", getExhaustiveSearchScalarPartInliersConfig.config, true, true⟩

/-- ALL.py:20-42 `get_all_configs`. -/
noncomputable def getAllConfigs : List ExperimentConfig :=
  [withOptimization (getBaselineConfig true) true,
   withOptimization (getBaselineConfig false) true,
   withOptimization (getBaselineConfig true) false,
   withOptimization (getBaselineConfig false) false,
   withOptimization (getRansacClassicConfig true) false,
   withOptimization (getRansacClassicConfig false) false,
   withOptimization (getRansacClassicConfig true) true,
   withOptimization (getRansacClassicConfig false) true,
   withOptimization (getRansacScalarPartInliersConfig true) false,
   withOptimization (getRansacScalarPartInliersConfig false) false,
   withOptimization (getRansacScalarPartInliersConfig true) true,
   withOptimization (getRansacScalarPartInliersConfig false) true,
   withOptimization getExhaustiveSearchPoseInliersConfig false,
   withOptimization getExhaustiveSearchPoseInliersConfig true,
   withOptimization getExhaustiveSearchScalarPartInliersConfig false,
   withOptimization getExhaustiveSearchScalarPartInliersConfig true]

/-! ## Results -/

/-- RES.py:9-29 `ResultEntry`.  Values that are only passed on are kept as the text that `str.format` makes of
them.  `prefiltering` is the attribute that `init_from_configs` adds. -/
structure ResultEntry where
  algorithm_name : List Char := []
  iteration_num : List Char := ['-', '1']
  prefiltering_enabled : Bool := false
  prefiltering : Option Bool := none
  dataset_names : List (List Char × List Char) := []
  success : List Bool := []
  rmse : List (List Char × List Char) := []
  num_inliers : List (List Char) := []
  num_initial_poses : List (List Char) := []
  num_poses_kept : List (List Char) := []
  runtimes : List (List Char) := []
  loop_error_position : List Char := ['-', '1']
  loop_error_orientation : List Char := ['-', '1']
  singular_values : List (Option (List Char)) := []
  bad_singular_value : List Bool := []
  optimization_enabled : Bool := false
  optimization_success : List Bool := []
  optimization_runtime : List (List Char) := []
  spoiled_initial_guess_angle_offset : List (List Char) := []
  spoiled_initial_guess_translation_offset : List (Option (List Char)) := []
  spoiled_initial_guess_time_offset : List (List Char) := []

/-- RES.py:31-35 `init_from_configs`. -/
def ResultEntry.initFromConfigs (r : ResultEntry) (iteration : ℕ) (c : ExperimentConfig) : ResultEntry :=
  { r with
    algorithm_name := c.algorithm_name.toList
    prefiltering := some c.config.prefilter_poses_enabled
    optimization_enabled := c.enable_optimization
    iteration_num := natText iteration }

/-- RES.py:37-65 `check_length`. -/
def ResultEntry.checkLength (r : ResultEntry) (num_pose_pairs : ℕ) : Py Unit := do
  pyAssert (r.dataset_names.length = num_pose_pairs)
  pyAssert (r.success.length = num_pose_pairs)
  pyAssert (r.rmse.length = num_pose_pairs)
  pyAssert (r.num_inliers.length = num_pose_pairs)
  pyAssert (r.num_initial_poses.length = num_pose_pairs)
  pyAssert (r.num_poses_kept.length = num_pose_pairs)
  pyAssert (r.runtimes.length = num_pose_pairs)
  pyAssert (r.singular_values.length = num_pose_pairs)
  pyAssert (r.bad_singular_value.length = num_pose_pairs)
  pyAssert (r.optimization_success.length = num_pose_pairs)
  pyAssert (r.optimization_runtime.length = num_pose_pairs)
  pyAssert (r.spoiled_initial_guess_angle_offset.length = num_pose_pairs)
  pyAssert (r.spoiled_initial_guess_translation_offset.length = num_pose_pairs)
  pyAssert (r.spoiled_initial_guess_time_offset.length = num_pose_pairs)

/-- RES.py:67-92 `get_header`.  (Two of the string literals lack the comma between them.) -/
def resultHeader : List Char :=
  ["algorithm_name,", "num_pose_pairs,", "iteration_num,", "prefiltering,", "poses_B_H_csv_file,",
   "poses_W_E_csv_file,", "success,", "position_rmse,", "orientation_rmse,", "num_inliers,", "num_input_poses,",
   "num_poses", "after_filtering,", "runtime_s,", "loop_error_position_m,", "loop_error_orientation_deg,",
   "singular_values,", "bad_singular_values,", "optimization_enabled,", "optimization_success,",
   "optimization_runtime_s,", "spoiled_initial_guess_angle_offset,", "spoiled_initial_guess_translation_offset,",
   "spoiled_initial_guess_time_offset", "\n"].flatMap String.toList

/-- `str` of a truth value. -/
def boolText (b : Bool) : List Char := if b then "True".toList else "False".toList

/-- `str` of a text or `None`. -/
def optionText : Option (List Char) → List Char
  | none => "None".toList
  | some t => t

/-- `"{},{},...".format(...)`. -/
def joinFields : List (List Char) → List Char
  | [] => []
  | [f] => f
  | f :: g :: l => f ++ ',' :: joinFields (g :: l)

/-- RES.py:98-123: the arguments of `format`. -/
def ResultEntry.fields (r : ResultEntry) (pose_pair_idx : ℕ) : Py (List (List Char)) := do
  let singular_values ← pyAt r.singular_values pose_pair_idx
  let names ← pyAt r.dataset_names pose_pair_idx
  let success ← pyAt r.success pose_pair_idx
  let rmse ← pyAt r.rmse pose_pair_idx
  let num_inliers ← pyAt r.num_inliers pose_pair_idx
  let num_initial_poses ← pyAt r.num_initial_poses pose_pair_idx
  let num_poses_kept ← pyAt r.num_poses_kept pose_pair_idx
  let runtime ← pyAt r.runtimes pose_pair_idx
  let bad_singular_value ← pyAt r.bad_singular_value pose_pair_idx
  let optimization_success ← pyAt r.optimization_success pose_pair_idx
  let optimization_runtime ← pyAt r.optimization_runtime pose_pair_idx
  let angle_offset ← pyAt r.spoiled_initial_guess_angle_offset pose_pair_idx
  let translation_offset ← pyAt r.spoiled_initial_guess_translation_offset pose_pair_idx
  let time_offset ← pyAt r.spoiled_initial_guess_time_offset pose_pair_idx
  return [r.algorithm_name, natText pose_pair_idx, r.iteration_num, boolText r.prefiltering_enabled, names.1, names.2,
    boolText success, rmse.1, rmse.2, num_inliers, num_initial_poses, num_poses_kept, runtime,
    r.loop_error_position, r.loop_error_orientation, singular_values.getD [], boolText bad_singular_value,
    boolText r.optimization_enabled, boolText optimization_success, optimization_runtime, angle_offset,
    optionText translation_offset, time_offset]

/-- RES.py:94-123 `write_pose_pair_to_csv_line`. -/
def ResultEntry.csvLine (r : ResultEntry) (pose_pair_idx : ℕ) : Py (List Char) := do
  let fields ← r.fields pose_pair_idx
  return joinFields fields ++ ['\n']

/-! ## Collecting results -/

/-- PLT.py:6-30: the columns that are expected of a result file. -/
def expectedColumns : List String :=
  ["algorithm_name", "num_pose_pairs", "iteration_num", "prefiltering", "poses_B_H_csv_file", "poses_W_E_csv_file",
   "success", "position_rmse", "orientation_rmse", "num_inliers", "num_input_poses", "num_posesafter_filtering",
   "runtime_s", "loop_error_position_m", "loop_error_orientation_deg", "singular_values", "bad_singular_values",
   "optimization_enabled", "optimization_success", "optimization_runtime_s", "spoiled_initial_guess_angle_offset",
   "spoiled_initial_guess_translation_offset", "spoiled_initial_guess_time_offset", "dataset"]

/-- PLT.py:38-45 `np.genfromtxt(…, dtype=dt, skip_header=1, delimiter=',')` of the lines after the header:
ValueError unless each line has as many cells as there are columns.  The conversion of the cells is not modelled, nor
are comments. -/
def genfromtxtRows (columns : ℕ) (lines : List (List Char)) : Py (List (List (List Char))) :=
  if ∀ line ∈ lines, (splitChar ',' line).length = columns then .ok (lines.map (splitChar ',')) else .error .value

/-- PLT.py:33-45, 82: the rows of all files, in the order of iteration.  One single row of a single file is an
array without dimension, and iterating over it is a TypeError; without files there is no variable `data`. -/
def readResultFiles (files : List (List (List Char))) : Py (List (List (List Char))) :=
  match files with
  | [] => .error .name
  | [lines] => do
    let rows ← genfromtxtRows expectedColumns.length lines
    if rows.length = 1 then .error .type else .ok rows
  | files => do
    let rows ← files.mapM (genfromtxtRows expectedColumns.length)
    return rows.flatten

/-- PLT.py:46-64 `method_name_dict`. -/
def methodNames : List (String × String) :=
  [("baseline_filter_opt", "PF_B_O"), ("baseline_no_filter_opt", "B_O"), ("baseline_filter_no_opt", "PF_B"),
   ("baseline_no_filter_no_opt", "B"), ("EC_no_opt", "PF_EC"), ("EC_opt", "PF_EC_O"), ("ES_no_opt", "PF_ES"),
   ("ES_opt", "PF_ES_O"), ("RC_filter_no_opt", "PF_RC"), ("RC_no_filter_no_opt", "RC"), ("RC_filter_opt", "PF_RC_O"),
   ("RC_no_filter_opt", "RC_O"), ("RS_filter_no_opt", "PF_RS"), ("RS_no_filter_no_opt", "RS"),
   ("RS_filter_opt", "PF_RS_O"), ("RS_no_filter_opt", "RS_O"),
   ("optimization_w_spoiled_init_calibration", "S_PF_ES_O")]

/-- PLT.py:107 `method_name_dict[method]`. -/
def methodName (method : String) : Py String :=
  match methodNames.lookup method with
  | some m => .ok m
  | none => .error .key

/-- The columns of a row that are used (PLT.py:83-106).  The offset of the translation is its norm already; the
parsing of its text (lines 95-102) is not modelled. -/
structure ResultRow where
  method : String
  success : Bool
  position_rmse : ℝ
  orientation_rmse : ℝ
  runtime : ℝ
  loop_error_position_m : ℝ
  loop_error_orientation_deg : ℝ
  bad_singular_values : Bool
  runtime_optimization : ℝ
  initial_guess_angle : ℝ
  initial_guess_translation_norm : ℝ
  initial_guess_time : ℝ
  dataset : String

/-- A dictionary of dictionaries of lists. -/
abbrev NestedDict := List (String × List (String × List ℝ))

/-- `d[key]`, `none` if the key is missing. -/
def dictGet {β : Type} (d : List (String × β)) (key : String) : Option β := d.lookup key

/-- `d[key] = value`: an existing entry is replaced, a new one comes last. -/
def dictSet {β : Type} : List (String × β) → String → β → List (String × β)
  | [], k, v => [(k, v)]
  | (k', v') :: d, k, v => if k' = k then (k, v) :: d else (k', v') :: dictSet d k v

/-- PLT.py:129-133 (and 135-139, 141-145): make what is missing, append the value. -/
def NestedDict.append (d : NestedDict) (dataset method : String) (value : ℝ) : NestedDict :=
  let d := if dictGet d dataset = none then dictSet d dataset [] else d
  let inner := (dictGet d dataset).getD []
  let inner := if dictGet inner method = none then dictSet inner method [] else inner
  dictSet d dataset (dictSet inner method ((dictGet inner method).getD [] ++ [value]))

/-- `l[i].append(v)`, with IndexError. -/
def appendAt (l : List (List ℝ)) (i : ℕ) (v : ℝ) : Py (List (List ℝ)) := do
  let old ← pyAt l i
  return l.set i (old ++ [v])

/-- PLT.py:66-81, 157-164: the variables of the loop, which are also what is returned. -/
structure Collected where
  methods : List String := []
  datasets : List String := []
  position_rmses_per_method : NestedDict := []
  orientation_rmses_per_method : NestedDict := []
  position_rmses : List (List ℝ) := []
  orientation_rmses : List (List ℝ) := []
  runtimes : List (List ℝ) := []
  runtimes_per_method : NestedDict := []
  loop_errors_position_m : List ℝ := []
  loop_errors_orientation_deg : List ℝ := []
  spoiled_initial_guess_angle_offsets : List ℝ := []
  spoiled_initial_guess_translation_norm_offsets : List ℝ := []
  spoiled_initial_guess_time_offsets : List ℝ := []
  max_index : ℕ := 0
  max_index_ds : ℕ := 0

/-- PLT.py:114-119: `datasets` and its counter. -/
def Collected.noteDataset (s : Collected) (dataset : String) : Collected :=
  if dataset ∈ s.datasets then s
  else { s with datasets := s.datasets ++ [dataset], max_index_ds := s.max_index_ds + 1 }

/-- PLT.py:120-128: the index of the method; a new method gets empty lists. -/
def Collected.noteMethod (s : Collected) (method : String) : Collected × ℕ :=
  if method ∈ s.methods then (s, s.methods.idxOf method)
  else ({ s with
    methods := s.methods ++ [method]
    position_rmses := s.position_rmses ++ [[]]
    orientation_rmses := s.orientation_rmses ++ [[]]
    runtimes := s.runtimes ++ [[]]
    max_index := s.max_index + 1 }, s.max_index)

/-- PLT.py:114-156: a row that counts. -/
noncomputable def Collected.add (s : Collected) (method : String) (runtime : ℝ) (row : ResultRow) : Py Collected := do
  let s := s.noteDataset row.dataset
  let (s, index) := s.noteMethod method
  let position_rmses ← appendAt s.position_rmses index row.position_rmse
  let orientation_rmses ← appendAt s.orientation_rmses index row.orientation_rmse
  let runtimes ← appendAt s.runtimes index runtime
  return { s with
    position_rmses_per_method := s.position_rmses_per_method.append row.dataset method row.position_rmse
    orientation_rmses_per_method := s.orientation_rmses_per_method.append row.dataset method row.orientation_rmse
    runtimes_per_method := s.runtimes_per_method.append row.dataset method runtime
    position_rmses := position_rmses
    orientation_rmses := orientation_rmses
    runtimes := runtimes
    loop_errors_position_m := s.loop_errors_position_m ++ [row.loop_error_position_m]
    loop_errors_orientation_deg := s.loop_errors_orientation_deg ++ [row.loop_error_orientation_deg]
    spoiled_initial_guess_angle_offsets := s.spoiled_initial_guess_angle_offsets ++ [row.initial_guess_angle]
    spoiled_initial_guess_translation_norm_offsets :=
      s.spoiled_initial_guess_translation_norm_offsets ++ [row.initial_guess_translation_norm]
    spoiled_initial_guess_time_offsets := s.spoiled_initial_guess_time_offsets ++ [row.initial_guess_time] }

/-- PLT.py:82-156: the loop over the rows. -/
noncomputable def collectRows : List ResultRow → Collected → Py Collected
  | [], s => .ok s
  | row :: rows, s => do
    let method ← methodName row.method
    if !row.success || row.bad_singular_values then collectRows rows s
    else do
      let s ← s.add method (row.runtime + row.runtime_optimization) row
      collectRows rows s

/-- PLT.py:5-164 `collect_data_from_csv`, of files with the given rows.  (That the files have the expected columns
is a separate matter, see `expectedColumns`.) -/
noncomputable def collectData (rows : List ResultRow) : Py Collected := collectRows rows {}

end HandEye
