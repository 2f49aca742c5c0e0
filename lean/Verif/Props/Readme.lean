import Verif.Lemmas.Readme

/-!
# Property C99: the commands of the documentation

The programs accept the commands of the documentation, with names of one's own in them, and read the names as they are meant.
-/

namespace HandEye

open Spec

instance (t : Text) : Decidable (t ≠ [] ∧ Plain t) := inferInstance

/-- The commands below are those of the documentation, for the names that it has. -/
theorem C99_texts :
    readmeTf = layout "  rosrun".toList (tfLaid documentedNames) ∧
    readmeExtract = layout "  rosrun".toList (extractLaid documentedNames) ∧
    readmeAlign = layout "  rosrun".toList (alignLaid documentedThird documentedNames) ∧
    readmeCalibrate = layout "  rosrun".toList (calibrateLaid documentedNames) ∧
    readmeEstimate = layout "  rosrun".toList (estimateLaid documentedNames) ∧
    readmeComplete = layout "rosrun".toList (completeLaid "poses_B_H.csv".toList "poses_W_E.csv".toList) ∧
    readmeExperiment = layout "rosrun".toList (experimentLaid "compute_set_of_hand_eye_calibrations.py".toList documentedFiles 10
      "TANGO_exCALIBur_2/results".toList [false, false, false]) ∧
    readmeOptimization ++ [[]] = (fun l => l.dropLast ++ [l.getLast?.getD [] ++ " \\".toList, []]) (layout "rosrun".toList
      (experimentLaid "optimization_experiments.py".toList documentedFiles 10 "TANGO_exCALIBur_2/optimization_results".toList [false, false, false])) := by
  refine ⟨?_, ?_, ?_, ?_, ?_, ?_, ?_, ?_⟩ <;> decide +kernel

/-- The first step. -/
theorem C99_tf (n : StepNames) (h : ∀ t ∈ n.all, Name t) :
    ∃ argv, shellCommands (layout "  rosrun".toList (tfLaid n)) =
        .ok ["rosrun".toList :: "hand_eye_calibration".toList :: "tf_to_csv.py".toList :: argv] ∧
      parseArgs tfToCsvSpecs argv = some [("--bag".toList, .str n.bag), ("--tf_source_frame".toList, .str n.source),
        ("--tf_target_frame".toList, .str n.target), ("--csv_output_file".toList, .str n.tf_poses)] := by
  have hp : ∀ t ∈ n.all, t ≠ [] ∧ Plain t := fun t ht => plain_name (h t ht)
  have hd : ∀ t ∈ n.all, NoDash t := fun t ht => (h t ht).2.2
  simp only [StepNames.all, List.forall_mem_cons, List.not_mem_nil, false_imp_iff, implies_true, and_true] at hp hd
  obtain ⟨p1, p2, p3, -, -, -, p7, -⟩ := hp
  obtain ⟨d1, d2, d3, -, -, -, d7, -⟩ := hd
  refine ⟨_, ?_, parse_tf n.bag n.source n.target n.tf_poses (by
    simp only [List.forall_mem_cons, List.not_mem_nil, false_imp_iff, implies_true, and_true]; exact ⟨d1, d2, d3, d7⟩)⟩
  refine (command_layout (lead := "  ".toList) (w := "rosrun".toList) (by decide) (by decide) (l := tfLaid n) ?_).trans ?_
  · simp only [tfLaid, List.forall_mem_cons, List.not_mem_nil, false_imp_iff, implies_true, and_true]
    exact ⟨here_ok (by decide), here_ok (by decide), here_ok (by decide), here_ok p1, here_ok (by decide), here_ok p2, here_ok (by decide),
      here_ok p3, here_ok (by decide), here_ok p7⟩
  · simp only [tfLaid, List.map_cons, List.map_nil, here_meaning]

/-- The second step. -/
theorem C99_extract (n : StepNames) (h : ∀ t ∈ n.all, Name t) :
    ∃ argv, shellCommands (layout "  rosrun".toList (extractLaid n)) =
        .ok ["rosrun".toList :: "hand_eye_calibration".toList :: "target_extractor_interface.py".toList :: argv] ∧
      parseArgs interfaceSpecs argv = some [("--bag".toList, .str n.bag), ("--calib_file_camera".toList, .str n.camera_yaml),
        ("--calib_file_target".toList, .str n.target_yaml), ("--image_topic".toList, .str n.topic), ("--output_file".toList, .str n.camera_poses)] := by
  have hp : ∀ t ∈ n.all, t ≠ [] ∧ Plain t := fun t ht => plain_name (h t ht)
  have hd : ∀ t ∈ n.all, NoDash t := fun t ht => (h t ht).2.2
  simp only [StepNames.all, List.forall_mem_cons, List.not_mem_nil, false_imp_iff, implies_true, and_true] at hp hd
  obtain ⟨p1, -, -, p4, p5, p6, -, p8, -⟩ := hp
  obtain ⟨d1, -, -, d4, d5, d6, -, d8, -⟩ := hd
  refine ⟨_, ?_, parse_words interfaceSpecs interfaceSpecs_ok.1.1 interfaceSpecs_ok.1.2
    ["--bag".toList, "--calib_file_camera".toList, "--calib_file_target".toList, "--image_topic".toList, "--output_file".toList]
    (by decide) (by decide) (by decide) [n.bag, n.camera_yaml, n.target_yaml, n.topic, n.camera_poses] rfl (by
    simp only [List.forall_mem_cons, List.not_mem_nil, false_imp_iff, implies_true, and_true]; exact ⟨d1, d4, d5, d6, d8⟩)⟩
  refine (command_layout (lead := "  ".toList) (w := "rosrun".toList) (by decide) (by decide) (l := extractLaid n) ?_).trans ?_
  · simp only [extractLaid, List.forall_mem_cons, List.not_mem_nil, false_imp_iff, implies_true, and_true]
    exact ⟨here_ok (by decide), here_ok (by decide), below_ok (by decide), here_ok p1, below_ok (by decide), here_ok p4, below_ok (by decide),
      here_ok p5, below_ok (by decide), here_ok p6, below_ok (by decide), here_ok p8⟩
  · simp only [extractLaid, List.map_cons, List.map_nil, here_meaning, below_meaning]
    rfl

theorem align_words (third : Laid) (ht : LaidOk third) (n : StepNames) (h : ∀ t ∈ n.all, Name t) :
    shellCommands (layout "  rosrun".toList (alignLaid third n)) =
      .ok [["rosrun".toList, "hand_eye_calibration".toList, "compute_aligned_poses.py".toList, "--poses_B_H_csv_file".toList, n.tf_poses,
        "--poses_W_E_csv_file".toList, n.camera_poses, third.meaning, n.tf_aligned, "--aligned_poses_W_E_csv_file".toList, n.camera_aligned,
        "--time_offset_output_csv_file".toList, n.offset]] := by
  have hp : ∀ t ∈ n.all, t ≠ [] ∧ Plain t := fun t ht => plain_name (h t ht)
  simp only [StepNames.all, List.forall_mem_cons, List.not_mem_nil, false_imp_iff, implies_true, and_true] at hp
  obtain ⟨-, -, -, -, -, -, p7, p8, p9, p10, p11, -⟩ := hp
  refine (command_layout (lead := "  ".toList) (w := "rosrun".toList) (by decide) (by decide) (l := alignLaid third n) ?_).trans ?_
  · simp only [alignLaid, List.forall_mem_cons, List.not_mem_nil, false_imp_iff, implies_true, and_true]
    exact ⟨here_ok (by decide), here_ok (by decide), below_ok (by decide), here_ok p7, below_ok (by decide), here_ok p8, ht, here_ok p9,
      below_ok (by decide), here_ok p10, below_ok (by decide), here_ok p11⟩
  · simp only [alignLaid, List.map_cons, List.map_nil, here_meaning, below_meaning]

/-- The third step is accepted if the third option is written as it is meant. -/
theorem C99_align_partial (n : StepNames) (h : ∀ t ∈ n.all, Name t) :
    ∃ argv, shellCommands (layout "  rosrun".toList (alignLaid meantThird n)) =
        .ok ["rosrun".toList :: "hand_eye_calibration".toList :: "compute_aligned_poses.py".toList :: argv] ∧
      parseArgs alignSpecs argv = some [("--poses_B_H_csv_file".toList, .str n.tf_poses), ("--poses_W_E_csv_file".toList, .str n.camera_poses),
        ("--aligned_poses_B_H_csv_file".toList, .str n.tf_aligned), ("--aligned_poses_W_E_csv_file".toList, .str n.camera_aligned),
        ("--time_offset_output_csv_file".toList, .str n.offset), ("--quaternion_format".toList, .str "Hamilton".toList),
        ("--visualize".toList, .bool false)] := by
  have hd : ∀ t ∈ n.all, NoDash t := fun t ht => (h t ht).2.2
  simp only [StepNames.all, List.forall_mem_cons, List.not_mem_nil, false_imp_iff, implies_true, and_true] at hd
  obtain ⟨-, -, -, -, -, -, d7, d8, d9, d10, d11, -⟩ := hd
  refine ⟨_, ?_, parse_align n.tf_poses n.camera_poses n.tf_aligned n.camera_aligned n.offset (by
    simp only [List.forall_mem_cons, List.not_mem_nil, false_imp_iff, implies_true, and_true]; exact ⟨d7, d8, d9, d10, d11⟩)⟩
  rw [align_words meantThird (below_ok (by decide)) n h, meantThird, below_meaning]

/-- The third step as it is documented is rejected, whatever the names are: the backslash before the blank (README:125) makes the blank a part of the
option, which is taken for a second value of the option before it. -/
theorem C99_align_refuted (n : StepNames) (h : ∀ t ∈ n.all, Name t) :
    ∃ argv, shellCommands (layout "  rosrun".toList (alignLaid documentedThird n)) =
        .ok ["rosrun".toList :: "hand_eye_calibration".toList :: "compute_aligned_poses.py".toList :: argv] ∧
      parseArgs alignSpecs argv = none := by
  have hd : ∀ t ∈ n.all, NoDash t := fun t ht => (h t ht).2.2
  simp only [StepNames.all, List.forall_mem_cons, List.not_mem_nil, false_imp_iff, implies_true, and_true] at hd
  obtain ⟨-, -, -, -, -, -, d7, d8, d9, d10, d11, -⟩ := hd
  have ok : LaidOk documentedThird := by
    refine ⟨⟨by decide, by decide, by decide, ?_⟩, by decide⟩
    intro q hq
    rcases List.mem_cons.mp hq with rfl | hq
    · trivial
    · obtain ⟨c, hc, rfl⟩ := List.mem_map.mp hq
      have : Plain "--aligned_poses_B_H_csv_file".toList := by decide
      exact this c hc
  refine ⟨_, align_words documentedThird ok n h, ?_⟩
  have e : documentedThird.meaning = " --aligned_poses_B_H_csv_file".toList := by
    rw [Laid.meaning, documentedThird, List.flatMap_cons, asIs_meaning]
    rfl
  have hsp : NoDash " --aligned_poses_B_H_csv_file".toList := by
    intro c hc
    have : ' ' = c := Option.some.inj hc
    subst this
    decide
  rw [e, parseArgs]
  simp only [List.map_cons (f := classifyArg _), List.map_nil, classify_value d7, classify_value d8, classify_value d9, classify_value d10,
    classify_value d11, classify_value hsp]
  rfl

end HandEye
