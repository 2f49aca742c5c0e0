import Verif.Props.Readme
import Verif.Model.ModelConfig

/-! # Property C99: the other commands of the documentation -/

namespace HandEye

open Spec

/-- The fourth step. -/
theorem C99_calibrate (n : StepNames) (h : ∀ t ∈ n.all, Name t) :
    ∃ argv, shellCommands (layout "  rosrun".toList (calibrateLaid n)) =
        .ok ["rosrun".toList :: "hand_eye_calibration".toList :: "compute_hand_eye_calibration.py".toList :: argv] ∧
      parseArgs calibrateSpecs argv =
        some [("--aligned_poses_B_H_csv_file".toList, .str n.tf_aligned), ("--aligned_poses_H_B_csv_file".toList, .none),
        ("--aligned_poses_W_E_csv_file".toList, .str n.camera_aligned), ("--aligned_poses_E_W_csv_file".toList, .none),
        ("--extrinsics_output_csv_file".toList, .none), ("--time_offset_input_csv_file".toList, .str n.offset),
        ("--calibration_output_json_file".toList, .str n.calibration), ("--visualize".toList, .bool true),
        ("--plot_every_nth_pose".toList, .int 10)] := by
  have hp : ∀ t ∈ n.all, t ≠ [] ∧ Plain t := fun t ht => plain_name (h t ht)
  have hd : ∀ t ∈ n.all, NoDash t := fun t ht => (h t ht).2.2
  simp only [StepNames.all, List.forall_mem_cons, List.not_mem_nil, false_imp_iff, implies_true, and_true] at hp hd
  obtain ⟨-, -, -, -, -, -, -, -, p9, p10, p11, p12, -⟩ := hp
  obtain ⟨-, -, -, -, -, -, -, -, d9, d10, d11, d12, -⟩ := hd
  have hc := C93_options_partial calibrateSpecs (specs_ok _ (by simp)).1 (specs_ok _ (by simp)).2
    [.words "--aligned_poses_B_H_csv_file".toList [n.tf_aligned], .words "--aligned_poses_W_E_csv_file".toList [n.camera_aligned],
      .words "--time_offset_input_csv_file".toList [n.offset], .words "--calibration_output_json_file".toList [n.calibration],
      .words "--visualize".toList ["True".toList]]
    (fun m => (([("--aligned_poses_B_H_csv_file".toList, .str n.tf_aligned), ("--aligned_poses_W_E_csv_file".toList, .str n.camera_aligned),
      ("--time_offset_input_csv_file".toList, .str n.offset), ("--calibration_output_json_file".toList, .str n.calibration),
      ("--visualize".toList, .bool true)] : List (Text × ArgValue)).lookup m).getD .none) ?_
    (show ∀ s ∈ calibrateSpecs, s.required = true → s.name ∈ ["--aligned_poses_B_H_csv_file".toList,
      "--aligned_poses_W_E_csv_file".toList, "--time_offset_input_csv_file".toList, "--calibration_output_json_file".toList,
      "--visualize".toList] by decide)
  · refine ⟨_, ?_, hc⟩
    refine (command_layout (lead := "  ".toList) (w := "rosrun".toList) (by decide) (by decide) (l := calibrateLaid n) ?_).trans ?_
    · simp only [calibrateLaid, List.forall_mem_cons, List.not_mem_nil, false_imp_iff, implies_true, and_true]
      exact ⟨here_ok (by decide), here_ok (by decide), below_ok (by decide), here_ok p9, laidOk_asIs (by decide) (by decide), here_ok p10,
        below_ok (by decide), here_ok p11, below_ok (by decide), here_ok p12, below_ok (by decide), here_ok (by decide)⟩
    · simp only [calibrateLaid, List.map_cons, List.map_nil, here_meaning, below_meaning]
      rfl
  · have ht : ∀ m ∈ ["--aligned_poses_B_H_csv_file".toList, "--aligned_poses_W_E_csv_file".toList, "--time_offset_input_csv_file".toList,
        "--calibration_output_json_file".toList], ∃ s ∈ calibrateSpecs, s.name = m ∧ s.kind = .str ∧ s.many = false := by decide
    have hb : ∃ s ∈ calibrateSpecs, s.name = "--visualize".toList ∧ s.kind = .bool ∧ s.many = false := by decide
    have key : ∀ m ∈ ["--aligned_poses_B_H_csv_file".toList, "--aligned_poses_W_E_csv_file".toList, "--time_offset_input_csv_file".toList,
        "--calibration_output_json_file".toList], ∀ t, NoDash t → ∀ v : ArgValue, v = .str t →
        ∃ s ∈ calibrateSpecs, s.name = (Given.words m [t]).name ∧ Means s.kind s.many (Given.words m [t]).values v ∧ v ≠ .bool false ∧
        (Given.words m [t]).Separate := by
      intro m hm t htd v hv
      obtain ⟨s, hs, h1, h2, h3⟩ := ht m hm
      refine ⟨s, hs, h1, ?_, ?_, ?_⟩
      · rw [h2, h3, hv]; exact .text t
      · rw [hv]; simp
      · intro u hu
        rw [List.mem_singleton.mp hu]
        exact htd
    simp only [List.forall_mem_cons, List.not_mem_nil, false_imp_iff, implies_true, and_true]
    refine ⟨key _ (by decide) _ d9 _ rfl, key _ (by decide) _ d10 _ rfl, key _ (by decide) _ d11 _ rfl, key _ (by decide) _ d12 _ rfl, ?_⟩
    obtain ⟨s, hs, h1, h2, h3⟩ := hb
    refine ⟨s, hs, h1, ?_, ?_, ?_⟩
    · rw [h2, h3]
      exact .word true
    · exact fun e => by cases e
    · intro u hu
      rw [List.mem_singleton.mp hu]
      intro c hc e
      subst e
      revert hc
      decide

/-- The fifth step: the flags of the batch estimator. -/
theorem C99_estimate (n : StepNames) (h : ∀ t ∈ n.all, Name t) :
    ∃ argv assigned, shellCommands (layout "  rosrun".toList (estimateLaid n)) =
        .ok ["rosrun".toList :: "hand_eye_calibration_batch_estimation".toList :: "batch_estimator".toList :: argv] ∧
      parseFlags estimatorFlags none argv = some (assigned, []) ∧
      ∀ d, flagOf assigned "pose1_csv".toList d = n.tf_poses ∧ flagOf assigned "pose2_csv".toList d = n.camera_poses ∧
        flagOf assigned "init_guess_file".toList d = n.calibration ∧ flagOf assigned "output_file".toList d = n.optimized ∧
        flagOf assigned "v".toList d = ['1'] ∧ flagOf assigned "config_file".toList d = d ∧ flagOf assigned "model_config".toList d = d := by
  have hp : ∀ t ∈ n.all, t ≠ [] ∧ Plain t := fun t ht => plain_name (h t ht)
  simp only [StepNames.all, List.forall_mem_cons, List.not_mem_nil, false_imp_iff, implies_true, and_true] at hp
  obtain ⟨-, -, -, -, -, -, p7, p8, -, -, -, p12, p13⟩ := hp
  refine ⟨["--v".toList, "1".toList, "--pose1_csv".toList, n.tf_poses, "--pose2_csv".toList, n.camera_poses, "--init_guess_file".toList,
    n.calibration, "--output_file".toList, n.optimized], _, ?_, rfl, fun _ => ⟨rfl, rfl, rfl, rfl, rfl, rfl, rfl⟩⟩
  refine (command_layout (lead := "  ".toList) (w := "rosrun".toList) (by decide) (by decide) (l := estimateLaid n) ?_).trans ?_
  · simp only [estimateLaid, List.forall_mem_cons, List.not_mem_nil, false_imp_iff, implies_true, and_true]
    exact ⟨here_ok (by decide), here_ok (by decide), below_ok (by decide), here_ok (by decide), below_ok (by decide), here_ok p7, below_ok (by decide),
      here_ok p8, below_ok (by decide), here_ok p12, below_ok (by decide), here_ok p13⟩
  · simp only [estimateLaid, List.map_cons, List.map_nil, here_meaning, below_meaning]
    rfl

/-- The end-to-end calibration: the script gets the two names. -/
theorem C99_complete (a b : Text) (ha : Name a) (hb : Name b) :
    shellCommands (layout "rosrun".toList (completeLaid a b)) =
      .ok [["rosrun".toList, "hand_eye_calibration".toList, "compute_complete_handeye_calibration.sh".toList, a, b]] := by
  refine (command_layout (lead := []) (w := "rosrun".toList) (by decide) (by decide) (l := completeLaid a b) ?_).trans ?_
  · simp only [completeLaid, List.forall_mem_cons, List.not_mem_nil, false_imp_iff, implies_true, and_true]
    exact ⟨here_ok (by decide), here_ok (by decide), below0_ok (plain_name ha), here_ok (plain_name hb)⟩
  · simp only [completeLaid, List.map_cons, List.map_nil, here_meaning, below0_meaning]

theorem plain_decimal (n : ℕ) : Plain (decimal n) := by
  intro c hc
  obtain ⟨d, hd, rfl⟩ := decimal_digits n c hc
  interval_cases d <;> decide

theorem noDash_decimal (n : ℕ) : NoDash (decimal n) := by
  intro c hc
  obtain ⟨d, hd, rfl⟩ := decimal_digits n c (List.mem_of_mem_head? hc)
  exact (digitChar_ne hd).1

theorem decimalInt_flag (b : Bool) : decimalInt (if b then 1 else 0) = if b then ['1'] else ['0'] := by
  cases b <;> decide +kernel

theorem experiment_parse (files : List Text) (hf : files ≠ [] ∧ ∀ t ∈ files, NoDash t) (iterations : ℕ) (directory : Text) (hdir : NoDash directory)
    (flags : List Bool) (hflags : flags ≠ []) :
    parseArgs experimentSpecs ("--aligned_poses_B_H_csv_files".toList :: files ++
        ["--num_iterations=".toList ++ decimal iterations, "--result_directory".toList, directory, "--is_absolute_pose_sensor".toList] ++
        flags.map fun b => if b then ['1'] else ['0']) =
      some [("--aligned_poses_B_H_csv_files".toList, .strs files), ("--is_absolute_pose_sensor".toList, .ints (flags.map fun b => if b then 1 else 0)),
        ("--result_directory".toList, .str directory), ("--visualize".toList, .bool false), ("--plot_every_nth_pose".toList, .int 10),
        ("--num_iterations".toList, .int iterations)] := by
  have hc := C93_options_partial experimentSpecs (specs_ok _ (by simp)).1 (specs_ok _ (by simp)).2
    [.words "--aligned_poses_B_H_csv_files".toList files, .equals "--num_iterations".toList (decimal iterations),
      .words "--result_directory".toList [directory], .words "--is_absolute_pose_sensor".toList ((flags.map fun b => if b then 1 else 0).map decimalInt)]
    (fun m => (([("--aligned_poses_B_H_csv_files".toList, .strs files), ("--num_iterations".toList, .int iterations),
      ("--result_directory".toList, .str directory),
      ("--is_absolute_pose_sensor".toList, .ints (flags.map fun b => if b then 1 else 0))] : List (Text × ArgValue)).lookup m).getD .none) ?_
    (show ∀ s ∈ experimentSpecs, s.required = true → s.name ∈ ["--aligned_poses_B_H_csv_files".toList, "--num_iterations".toList,
      "--result_directory".toList, "--is_absolute_pose_sensor".toList] by decide)
  · have e : (flags.map fun b => if b then (1 : ℤ) else 0).map decimalInt = flags.map fun b => if b then ['1'] else ['0'] := by
      rw [List.map_map]
      exact List.map_congr_left fun b _ => decimalInt_flag b
    rw [e] at hc
    refine Eq.trans (congrArg (parseArgs experimentSpecs) ?_) hc
    simp only [List.flatMap_cons, List.flatMap_nil, Given.tokens, List.append_assoc, List.cons_append, List.nil_append, List.append_nil]
    rfl
  · simp only [List.forall_mem_cons, List.not_mem_nil, false_imp_iff, implies_true, and_true]
    refine ⟨?_, ?_, ?_, ?_⟩
    · exact ⟨{ name := "--aligned_poses_B_H_csv_files".toList, many := true, required := true }, by simp [experimentSpecs], rfl, .texts files hf.1,
        (fun e => by cases e), hf.2⟩
    · refine ⟨{ name := "--num_iterations".toList, kind := .int, default := .int 2 }, by simp [experimentSpecs], rfl, ?_, (fun e => by cases e), trivial⟩
      have := Means.number (iterations : ℤ)
      rwa [decimalInt, if_neg (by omega), Int.natAbs_natCast] at this
    · exact ⟨{ name := "--result_directory".toList, required := true }, by simp [experimentSpecs], rfl, .text directory, (fun e => by cases e),
        fun u hu => (List.mem_singleton.mp hu).symm ▸ hdir⟩
    · refine ⟨{ name := "--is_absolute_pose_sensor".toList, kind := .int, many := true }, by simp [experimentSpecs], rfl,
        .numbers _ (by simpa using hflags), (fun e => by cases e), ?_⟩
      intro u hu
      obtain ⟨z, hz, rfl⟩ := List.mem_map.mp hu
      obtain ⟨b, -, rfl⟩ := List.mem_map.mp hz
      rw [decimalInt_flag]
      cases b <;> (intro c hc e; subst e; revert hc; decide)

/-- The experiments: the scripts get the files, the number of iterations, the directory, and the flags of the sensors. -/
theorem C99_experiment (program : Text) (hprog : Name program) (files : List Text) (hf : files ≠ [] ∧ ∀ t ∈ files, Name t) (iterations : ℕ)
    (directory : Text) (hdir : Name directory) (flags : List Bool) (hflags : flags.length = files.length) :
    ∃ argv, shellCommands (layout "rosrun".toList (experimentLaid program files iterations directory flags)) =
        .ok ["rosrun".toList :: "hand_eye_calibration_experiments".toList :: program :: argv] ∧
      ∃ ns, parseArgs experimentSpecs argv = some ns ∧
        ns.lookup "--aligned_poses_B_H_csv_files".toList = some (.strs files) ∧ ns.lookup "--num_iterations".toList = some (.int iterations) ∧
        ns.lookup "--result_directory".toList = some (.str directory) ∧ ns.lookup "--visualize".toList = some (.bool false) ∧
        ∃ l, ns.lookup "--is_absolute_pose_sensor".toList = some (.ints l) ∧ absoluteFlags files.length (some l) = .ok flags := by
  have hne : flags ≠ [] := by
    intro e
    rw [e] at hflags
    exact hf.1 (List.eq_nil_of_length_eq_zero hflags.symm)
  refine ⟨_, ?_, _, experiment_parse files ⟨hf.1, fun t ht => (hf.2 t ht).2.2⟩ iterations directory hdir.2.2 flags hne, rfl, rfl, rfl, rfl, _, rfl, ?_⟩
  · refine (command_layout (lead := []) (w := "rosrun".toList) (by decide) (by decide)
      (l := experimentLaid program files iterations directory flags) ?_).trans ?_
    · intro p hp
      simp only [experimentLaid, List.mem_append, List.mem_cons, List.not_mem_nil, or_false, List.mem_map] at hp
      rcases hp with (((rfl | rfl | rfl) | ⟨t, ht, rfl⟩) | rfl | rfl | rfl | rfl) | ⟨b, -, rfl⟩
      · exact here_ok (by decide)
      · exact here_ok (plain_name hprog)
      · exact below0_ok (by decide)
      · exact below10_ok (plain_name (hf.2 t ht))
      · exact below0_ok ⟨by simp, plain_append (by decide) (plain_decimal iterations)⟩
      · exact below0_ok (by decide)
      · exact here_ok (plain_name hdir)
      · exact below0_ok (by decide)
      · cases b <;> exact here_ok (by decide)
    · simp only [experimentLaid, List.map_append, List.map_cons, List.map_nil, List.map_map, here_meaning, below0_meaning]
      have e1 : files.map (Laid.meaning ∘ below10) = files := by
        conv_rhs => rw [← List.map_id files]
        exact List.map_congr_left fun t _ => below10_meaning t
      have e2 : flags.map (Laid.meaning ∘ fun b => here (if b then ['1'] else ['0'])) = flags.map fun b => if b then ['1'] else ['0'] :=
        List.map_congr_left fun b _ => here_meaning _
      rw [e1, e2]
      simp only [List.cons_append, List.nil_append, List.append_assoc]
  · have e : (flags.map fun b => if b then (1 : ℤ) else 0).map (fun flag => decide (flag ≠ 0)) = flags := by
      rw [List.map_map]
      conv_rhs => rw [← List.map_id flags]
      refine List.map_congr_left fun b _ => ?_
      cases b <;> rfl
    rw [absoluteFlags, pyAssert_pos (by rw [e]; exact hflags)]
    exact congrArg Except.ok e

theorem mapM_none {α β : Type} {f : α → Option β} {l : List α} {a : α} (ha : a ∈ l) (h : f a = none) : l.mapM f = none := by
  induction l with
  | nil => cases ha
  | cons b l ih =>
    rw [List.mapM_cons]
    rcases List.mem_cons.mp ha with rfl | ha
    · rw [h]; rfl
    · rw [ih ha]
      cases f b <;> rfl

/-- The command of the second experiment ends with a backslash (EXP:54), so that it goes on in the next line.  If there is another command, its name is
taken for one more flag of a sensor, and the script does not start, whatever the files are. -/
theorem C99_backslash_refuted (program : Text) (hprog : Name program) (files : List Text) (hf : files ≠ [] ∧ ∀ t ∈ files, Name t) (iterations : ℕ)
    (directory : Text) (hdir : Name directory) (flags : List Bool) (command : Text) (hcommand : Name command ∧ parseInt command = none) :
    ∃ argv, shellCommands (layout "rosrun".toList (experimentLaid program files iterations directory flags ++ [below0 command])) =
        .ok ["rosrun".toList :: "hand_eye_calibration_experiments".toList :: program :: argv] ∧ parseArgs experimentSpecs argv = none := by
  refine ⟨"--aligned_poses_B_H_csv_files".toList :: files ++
        ["--num_iterations=".toList ++ decimal iterations, "--result_directory".toList, directory, "--is_absolute_pose_sensor".toList] ++
        (flags.map fun b => if b then ['1'] else ['0']) ++ [command], ?_, ?_⟩
  · refine (command_layout (lead := []) (w := "rosrun".toList) (by decide) (by decide)
      (l := experimentLaid program files iterations directory flags ++ [below0 command]) ?_).trans ?_
    · intro p hp
      simp only [experimentLaid, List.mem_append, List.mem_cons, List.not_mem_nil, or_false, List.mem_map] at hp
      rcases hp with ((((rfl | rfl | rfl) | ⟨t, ht, rfl⟩) | rfl | rfl | rfl | rfl) | ⟨b, -, rfl⟩) | rfl
      · exact here_ok (by decide)
      · exact here_ok (plain_name hprog)
      · exact below0_ok (by decide)
      · exact below10_ok (plain_name (hf.2 t ht))
      · exact below0_ok ⟨by simp, plain_append (by decide) (plain_decimal iterations)⟩
      · exact below0_ok (by decide)
      · exact here_ok (plain_name hdir)
      · exact below0_ok (by decide)
      · cases b <;> exact here_ok (by decide)
      · exact below0_ok (plain_name hcommand.1)
    · simp only [experimentLaid, List.map_append, List.map_cons, List.map_nil, List.map_map, here_meaning, below0_meaning]
      have e1 : files.map (Laid.meaning ∘ below10) = files := by
        conv_rhs => rw [← List.map_id files]
        exact List.map_congr_left fun t _ => below10_meaning t
      have e2 : flags.map (Laid.meaning ∘ fun b => here (if b then ['1'] else ['0'])) = flags.map fun b => if b then ['1'] else ['0'] :=
        List.map_congr_left fun b _ => here_meaning _
      rw [e1, e2]
      simp only [List.cons_append, List.nil_append, List.append_assoc]
  · have hg := group_line (names := "--help".toList :: experimentSpecs.map ArgSpec.name)
      [.words "--aligned_poses_B_H_csv_files".toList files, .equals "--num_iterations".toList (decimal iterations),
        .words "--result_directory".toList [directory],
        .words "--is_absolute_pose_sensor".toList ((flags.map fun b => if b then ['1'] else ['0']) ++ [command])] (by decide) ?_
    · have e : [Given.words "--aligned_poses_B_H_csv_files".toList files, .equals "--num_iterations".toList (decimal iterations),
        .words "--result_directory".toList [directory],
        .words "--is_absolute_pose_sensor".toList ((flags.map fun b => if b then ['1'] else ['0']) ++ [command])].flatMap Given.tokens =
          "--aligned_poses_B_H_csv_files".toList :: files ++
        ["--num_iterations=".toList ++ decimal iterations, "--result_directory".toList, directory, "--is_absolute_pose_sensor".toList] ++
        (flags.map fun b => if b then ['1'] else ['0']) ++ [command] := by
        simp only [List.flatMap_cons, List.flatMap_nil, Given.tokens, List.append_assoc, List.cons_append, List.nil_append, List.append_nil]
        rfl
      rw [e] at hg
      have hconv : convertArg .int true ((flags.map fun b => if b then ['1'] else ['0']) ++ [command]) = none := by
        have hm : ((flags.map fun b => if b then ['1'] else ['0']) ++ [command]).mapM parseInt = none := mapM_none (by simp) hcommand.2
        revert hm
        generalize (flags.map fun b => if b then ['1'] else ['0']) ++ [command] = l
        intro hm
        cases l with
        | nil => rfl
        | cons t l => rw [convertArg, hm]; rfl
      have hstore : storeArg experimentSpecs ("--is_absolute_pose_sensor".toList, none, (flags.map fun b => if b then ['1'] else ['0']) ++ [command]) = none := by
        show (convertArg .int true ((flags.map fun b => if b then ['1'] else ['0']) ++ [command])).bind _ = none
        rw [hconv]
        rfl
      rw [parseArgs, hg]
      show (List.mapM (storeArg experimentSpecs) _).bind _ = none
      rw [mapM_none (a := ("--is_absolute_pose_sensor".toList, none, (flags.map fun b => if b then ['1'] else ['0']) ++ [command])) _ hstore]
      · rfl
      · simp [optionGroup]
    · simp only [List.forall_mem_cons, List.not_mem_nil, false_imp_iff, implies_true, and_true]
      have hn : ∀ m ∈ ["--aligned_poses_B_H_csv_files".toList, "--num_iterations".toList, "--result_directory".toList, "--is_absolute_pose_sensor".toList],
          m ∈ "--help".toList :: experimentSpecs.map ArgSpec.name ∧ m.head? = some '-' := by decide
      simp only [List.forall_mem_cons, List.not_mem_nil, false_imp_iff, implies_true, and_true] at hn
      obtain ⟨n1, n2, n3, n4⟩ := hn
      refine ⟨⟨n1.1, n1.2, fun t ht => (hf.2 t ht).2.2⟩, ⟨n2.1, n2.2, trivial⟩,
        ⟨n3.1, n3.2, fun t ht => (List.mem_singleton.mp ht).symm ▸ hdir.2.2⟩, ⟨n4.1, n4.2, ?_⟩⟩
      intro t ht
      rcases List.mem_append.mp ht with ht | ht
      · obtain ⟨b, -, rfl⟩ := List.mem_map.mp ht
        cases b <;> (intro c hc e; subst e; revert hc; decide)
      · exact (List.mem_singleton.mp ht).symm ▸ hcommand.1.2.2

/-- The names of the documentation are such names. -/
theorem documented_names : (∀ t ∈ documentedNames.all, Name t) ∧ ∀ t ∈ documentedFiles, Name t := by
  have : ∀ t ∈ documentedNames.all ++ documentedFiles, (t ≠ [] ∧ (∀ c ∈ t, c.isAlphanum = true ∨ c ∈ ['/', '_', '-', '.', ':', '+', ','])) ∧
      t.head? ≠ some '-' := by decide +kernel
  have all : ∀ t ∈ documentedNames.all ++ documentedFiles, Name t :=
    fun t ht => ⟨(this t ht).1.1, (this t ht).1.2, fun c hc e => (this t ht).2 (e ▸ hc)⟩
  exact ⟨fun t ht => all t (List.mem_append_left _ ht), fun t ht => all t (List.mem_append_right _ ht)⟩

/-- The third step of the documentation does not start. -/
example : ∃ argv, shellCommands readmeAlign = .ok ["rosrun".toList :: "hand_eye_calibration".toList :: "compute_aligned_poses.py".toList :: argv] ∧
    parseArgs alignSpecs argv = none := by
  rw [C99_texts.2.2.1]
  exact C99_align_refuted documentedNames documented_names.1

/-- The fourth step of the documentation starts with the files of the third. -/
example : ∃ argv, shellCommands readmeCalibrate = .ok ["rosrun".toList :: "hand_eye_calibration".toList :: "compute_hand_eye_calibration.py".toList :: argv] ∧
    ∃ ns, parseArgs calibrateSpecs argv = some ns ∧ ns.lookup "--aligned_poses_W_E_csv_file".toList = some (.str "camera_aligned.csv".toList) := by
  rw [C99_texts.2.2.2.1]
  obtain ⟨argv, h1, h2⟩ := C99_calibrate documentedNames documented_names.1
  exact ⟨argv, h1, _, h2, rfl⟩

/-- The experiment of the documentation runs ten times with three files. -/
example : ∃ argv, shellCommands readmeExperiment =
      .ok ["rosrun".toList :: "hand_eye_calibration_experiments".toList :: "compute_set_of_hand_eye_calibrations.py".toList :: argv] ∧
    ∃ ns, parseArgs experimentSpecs argv = some ns ∧ ns.lookup "--num_iterations".toList = some (.int 10) ∧
      ns.lookup "--aligned_poses_B_H_csv_files".toList = some (.strs documentedFiles) := by
  rw [C99_texts.2.2.2.2.2.2.1]
  obtain ⟨argv, h1, ns, h2, h3, h4, -⟩ := C99_experiment "compute_set_of_hand_eye_calibrations.py".toList
    ⟨by decide, by unfold NameChar; decide, fun c hc e => by subst e; revert hc; decide⟩ documentedFiles ⟨by decide, documented_names.2⟩ 10 "TANGO_exCALIBur_2/results".toList
    ⟨by decide, by unfold NameChar; decide, fun c hc e => by subst e; revert hc; decide⟩ [false, false, false] rfl
  exact ⟨argv, h1, ns, h2, h4, h3⟩

end HandEye
