import Verif.Props.Commands

/-! # Property C93: the other commands, and where command lines are misread -/

namespace HandEye

theorem parse_calibrate (a b p : Text) (hv : ∀ t ∈ [a, b, p], Spec.NoDash t) :
    parseArgs calibrateSpecs ["--aligned_poses_B_H_csv_file".toList, a, "--aligned_poses_W_E_csv_file".toList, b,
      "--extrinsics_output_csv_file".toList, p] =
      some [("--aligned_poses_B_H_csv_file".toList, .str a), ("--aligned_poses_H_B_csv_file".toList, .none),
        ("--aligned_poses_W_E_csv_file".toList, .str b), ("--aligned_poses_E_W_csv_file".toList, .none),
        ("--extrinsics_output_csv_file".toList, .str p), ("--time_offset_input_csv_file".toList, .none),
        ("--calibration_output_json_file".toList, .none), ("--visualize".toList, .bool false),
        ("--plot_every_nth_pose".toList, .int 10)] := by
  have := parse_words calibrateSpecs (specs_ok _ (by simp)).1 (specs_ok _ (by simp)).2
    ["--aligned_poses_B_H_csv_file".toList, "--aligned_poses_W_E_csv_file".toList, "--extrinsics_output_csv_file".toList]
    (by decide) (by decide) (by decide) [a, b, p] rfl hv
  exact this

/-- The second command of `close_the_circle_test.py` reaches `compute_hand_eye_calibration.py` with the three file names, if these have
no white space, quotes and backslashes and do not begin with a dash. -/
theorem C93_calibrate_command_partial (a b p : Text) (h : ∀ t ∈ [a, b, p], t ≠ [] ∧ Spec.Plain t ∧ Spec.NoDash t) :
    ∃ argv, shlexSplit (calibrateCommand a b p) =
        .ok ("rosrun".toList :: "hand_eye_calibration".toList :: "compute_hand_eye_calibration.py".toList :: argv) ∧
      parseArgs calibrateSpecs argv =
        some [("--aligned_poses_B_H_csv_file".toList, .str a), ("--aligned_poses_H_B_csv_file".toList, .none),
        ("--aligned_poses_W_E_csv_file".toList, .str b), ("--aligned_poses_E_W_csv_file".toList, .none),
        ("--extrinsics_output_csv_file".toList, .str p), ("--time_offset_input_csv_file".toList, .none),
        ("--calibration_output_json_file".toList, .none), ("--visualize".toList, .bool false),
        ("--plot_every_nth_pose".toList, .int 10)] := by
  have hv : ∀ t ∈ [a, b, p], Spec.NoDash t := fun t ht => (h t ht).2.2
  simp only [List.forall_mem_cons, List.not_mem_nil, false_imp_iff, implies_true, and_true] at h
  obtain ⟨ha, hb, hp⟩ := h
  refine ⟨["--aligned_poses_B_H_csv_file".toList, a, "--aligned_poses_W_E_csv_file".toList, b,
      "--extrinsics_output_csv_file".toList, p], ?_, parse_calibrate a b p hv⟩
  have e : calibrateCommand a b p = "rosrun".toList ++ ([(" ".toList, "hand_eye_calibration".toList),
      (" ".toList, "compute_hand_eye_calibration.py".toList),
      ("       ".toList, "--aligned_poses_B_H_csv_file".toList), (" ".toList, a),
      ("       ".toList, "--aligned_poses_W_E_csv_file".toList), (" ".toList, b),
      ("        ".toList, "--extrinsics_output_csv_file".toList), (" ".toList, p)].flatMap (fun p => p.1 ++ p.2) ++ []) := by
    have e1 : "rosrun hand_eye_calibration compute_hand_eye_calibration.py       --aligned_poses_B_H_csv_file ".toList =
      "rosrun".toList ++ (" ".toList ++ ("hand_eye_calibration".toList ++ (" ".toList ++ ("compute_hand_eye_calibration.py".toList ++
      ("       ".toList ++ ("--aligned_poses_B_H_csv_file".toList ++ " ".toList)))))) := by decide
    have e2 : "       --aligned_poses_W_E_csv_file ".toList = "       ".toList ++ ("--aligned_poses_W_E_csv_file".toList ++ " ".toList) := by decide
    have e3 : "        --extrinsics_output_csv_file ".toList = "        ".toList ++ ("--extrinsics_output_csv_file".toList ++ " ".toList) := by decide
    unfold calibrateCommand
    rw [e1, e2, e3]
    simp only [List.append_assoc, List.flatMap_cons, List.flatMap_nil, List.append_nil]
  rw [e, C93_split "rosrun".toList (by decide) _ ?_ [] (by simp)]
  · rfl
  · simp only [List.forall_mem_cons, List.not_mem_nil, false_imp_iff, implies_true, and_true]
    exact ⟨by decide, by decide, by decide, ⟨by decide, by decide, ha.1, ha.2.1⟩, by decide, ⟨by decide, by decide, hb.1, hb.2.1⟩,
      by decide, ⟨by decide, by decide, hp.1, hp.2.1⟩⟩

/-- A flag with an equals sign. -/
theorem flag_equals {known : List Text} {n : Text} (hn : n ∈ known) (heq : '=' ∉ n) (v : Text) (r : List Text) :
    parseFlags known none (('-' :: '-' :: (n ++ '=' :: v)) :: r) = (parseFlags known none r).map fun p => ((n, v) :: p.1, p.2) := by
  have hn' : ∀ c ∈ n, decide (c ≠ '=') = true := fun c hc => decide_eq_true fun e => heq (e ▸ hc)
  have h1 : flagName ('-' :: '-' :: (n ++ '=' :: v)) = n := by
    unfold flagName
    rw [if_pos (by rfl)]
    show (n ++ '=' :: v).takeWhile (· ≠ '=') = n
    rw [List.takeWhile_append_of_pos hn']
    simp
  have h2 : flagValue ('-' :: '-' :: (n ++ '=' :: v)) = some v := by
    unfold flagValue
    rw [if_pos (by simp)]
    have : ('-' :: '-' :: (n ++ '=' :: v)).dropWhile (· ≠ '=') = '=' :: v := by
      rw [List.dropWhile_cons_of_pos (by decide), List.dropWhile_cons_of_pos (by decide), List.dropWhile_append_of_pos hn']
      simp
    rw [this]
    rfl
  rw [parseFlags, if_neg (by simp), if_neg, if_pos (by rw [h1]; exact hn), h2, h1]
  intro e
  have := congrArg List.length e
  simp at this

/-- The words of the third command, and what the batch estimator takes from them. -/
theorem flags_estimate (a b g o : Text) :
    parseFlags estimatorFlags none ["-v".toList, "1".toList, "--pose1_csv=".toList ++ a, "--pose2_csv=".toList ++ b,
      "--init_guess_file=".toList ++ g, "--output_file=".toList ++ o] =
      some ([("v".toList, "1".toList), ("pose1_csv".toList, a), ("pose2_csv".toList, b), ("init_guess_file".toList, g),
        ("output_file".toList, o)], []) := by
  have h1 := flag_equals (known := estimatorFlags) (n := "pose1_csv".toList) (by decide) (by decide) a
  have h2 := flag_equals (known := estimatorFlags) (n := "pose2_csv".toList) (by decide) (by decide) b
  have h3 := flag_equals (known := estimatorFlags) (n := "init_guess_file".toList) (by decide) (by decide) g
  have h4 := flag_equals (known := estimatorFlags) (n := "output_file".toList) (by decide) (by decide) o
  have hv : ∀ r, parseFlags estimatorFlags none ("-v".toList :: "1".toList :: r) =
      (parseFlags estimatorFlags none r).map fun p => (("v".toList, "1".toList) :: p.1, p.2) := fun r => rfl
  rw [hv]
  show (parseFlags estimatorFlags none (('-' :: '-' :: ("pose1_csv".toList ++ '=' :: a)) :: ('-' :: '-' :: ("pose2_csv".toList ++ '=' :: b)) ::
    ('-' :: '-' :: ("init_guess_file".toList ++ '=' :: g)) :: ('-' :: '-' :: ("output_file".toList ++ '=' :: o)) :: [])).map _ = _
  rw [h1, h2, h3, h4]
  rfl

/-- What the flags are afterwards. -/
theorem flagOf_estimate (a b g o d : Text) :
    let assigned := [("v".toList, "1".toList), ("pose1_csv".toList, a), ("pose2_csv".toList, b), ("init_guess_file".toList, g),
        ("output_file".toList, o)]
    flagOf assigned "pose1_csv".toList d = a ∧ flagOf assigned "pose2_csv".toList d = b ∧
      flagOf assigned "init_guess_file".toList d = g ∧ flagOf assigned "output_file".toList d = o ∧
      flagOf assigned "config_file".toList d = d :=
  ⟨rfl, rfl, rfl, rfl, rfl⟩

/-- The third command reaches the batch estimator with the four file names and with the default configuration, if the names have no
white space, quotes and backslashes. -/
theorem C93_estimate_command_partial (a b g o : Text) (h : ∀ t ∈ [a, b, g, o], Spec.Plain t) :
    ∃ argv assigned, shlexSplit (estimateCommand a b g o) =
        .ok ("rosrun".toList :: "hand_eye_calibration_batch_estimation".toList :: "batch_estimator".toList :: argv) ∧
      parseFlags estimatorFlags none argv = some (assigned, []) ∧
      ∀ d, flagOf assigned "pose1_csv".toList d = a ∧ flagOf assigned "pose2_csv".toList d = b ∧
        flagOf assigned "init_guess_file".toList d = g ∧ flagOf assigned "output_file".toList d = o ∧
        flagOf assigned "config_file".toList d = d := by
  simp only [List.forall_mem_cons, List.not_mem_nil, false_imp_iff, implies_true, and_true] at h
  obtain ⟨ha, hb, hg, ho⟩ := h
  refine ⟨_, _, ?_, flags_estimate a b g o, fun d => flagOf_estimate a b g o d⟩
  have e : estimateCommand a b g o = "rosrun".toList ++ ([(" ".toList, "hand_eye_calibration_batch_estimation".toList),
      (" ".toList, "batch_estimator".toList), (" ".toList, "-v".toList), (" ".toList, "1".toList),
      ("       ".toList, "--pose1_csv=".toList ++ a), (" ".toList, "--pose2_csv=".toList ++ b),
      ("       ".toList, "--init_guess_file=".toList ++ g),
      ("       ".toList, "--output_file=".toList ++ o)].flatMap (fun p => p.1 ++ p.2) ++ []) := by
    have e1 : "rosrun hand_eye_calibration_batch_estimation batch_estimator -v 1       --pose1_csv=".toList =
      "rosrun".toList ++ (" ".toList ++ ("hand_eye_calibration_batch_estimation".toList ++ (" ".toList ++ ("batch_estimator".toList ++
      (" ".toList ++ ("-v".toList ++ (" ".toList ++ ("1".toList ++ ("       ".toList ++ "--pose1_csv=".toList))))))))) := by decide
    have e2 : " --pose2_csv=".toList = " ".toList ++ "--pose2_csv=".toList := by decide
    have e3 : "       --init_guess_file=".toList = "       ".toList ++ "--init_guess_file=".toList := by decide
    have e4 : "       --output_file=".toList = "       ".toList ++ "--output_file=".toList := by decide
    unfold estimateCommand
    rw [e1, e2, e3, e4]
    simp only [List.append_assoc, List.flatMap_cons, List.flatMap_nil, List.append_nil]
  rw [e, C93_split "rosrun".toList (by decide) _ ?_ [] (by simp)]
  · rfl
  · simp only [List.forall_mem_cons, List.not_mem_nil, false_imp_iff, implies_true, and_true]
    refine ⟨by decide, by decide, by decide, by decide, ⟨by decide, by decide, ?_, plain_append (by decide) ha⟩,
      ⟨by decide, by decide, ?_, plain_append (by decide) hb⟩, ⟨by decide, by decide, ?_, plain_append (by decide) hg⟩,
      ⟨by decide, by decide, ?_, plain_append (by decide) ho⟩⟩ <;>
    exact List.append_ne_nil_of_left_ne_nil (by decide) _

example : (∃ argv assigned, shlexSplit (estimateCommand "a.csv".toList "b.csv".toList "guess".toList "out".toList) =
    .ok ("rosrun".toList :: "hand_eye_calibration_batch_estimation".toList :: "batch_estimator".toList :: argv) ∧
    parseFlags estimatorFlags none argv = some (assigned, []) ∧ flagOf assigned "pose2_csv".toList [] = "b.csv".toList) := by
  obtain ⟨argv, s, h1, h2, h3⟩ := C93_estimate_command_partial "a.csv".toList "b.csv".toList "guess".toList "out".toList (by decide)
  exact ⟨argv, s, h1, h2, (h3 []).2.1⟩

/-- The name of the first file has a space: the batch estimator reads another file, whose name is the part before the space, and
ignores the rest.  No program reports an error for it. -/
theorem C93_space_refuted (a a' b g o : Text) (h : ∀ t ∈ [a, a', b, g, o], Spec.Plain t) (ha' : a' ≠ []) (hd : Spec.NoDash a') :
    ∃ argv assigned, shlexSplit (estimateCommand (a ++ ' ' :: a') b g o) =
        .ok ("rosrun".toList :: "hand_eye_calibration_batch_estimation".toList :: "batch_estimator".toList :: argv) ∧
      parseFlags estimatorFlags none argv = some (assigned, [a']) ∧
      ∀ d, flagOf assigned "pose1_csv".toList d = a ∧ flagOf assigned "pose1_csv".toList d ≠ a ++ ' ' :: a' := by
  simp only [List.forall_mem_cons, List.not_mem_nil, false_imp_iff, implies_true, and_true] at h
  obtain ⟨ha, hp', hb, hg, ho⟩ := h
  have hf : parseFlags estimatorFlags none ["-v".toList, "1".toList, "--pose1_csv=".toList ++ a, a', "--pose2_csv=".toList ++ b,
      "--init_guess_file=".toList ++ g, "--output_file=".toList ++ o] =
      some ([("v".toList, "1".toList), ("pose1_csv".toList, a), ("pose2_csv".toList, b), ("init_guess_file".toList, g),
        ("output_file".toList, o)], [a']) := by
    have h1 := flag_equals (known := estimatorFlags) (n := "pose1_csv".toList) (by decide) (by decide) a
    have h2 := flag_equals (known := estimatorFlags) (n := "pose2_csv".toList) (by decide) (by decide) b
    have h3 := flag_equals (known := estimatorFlags) (n := "init_guess_file".toList) (by decide) (by decide) g
    have h4 := flag_equals (known := estimatorFlags) (n := "output_file".toList) (by decide) (by decide) o
    have hv : ∀ r, parseFlags estimatorFlags none ("-v".toList :: "1".toList :: r) =
        (parseFlags estimatorFlags none r).map fun p => (("v".toList, "1".toList) :: p.1, p.2) := fun r => rfl
    have hw : ∀ r, parseFlags estimatorFlags none (a' :: r) = (parseFlags estimatorFlags none r).map fun p => (p.1, a' :: p.2) := by
      intro r
      rw [parseFlags, if_pos]
      exact Or.inl fun e => hd _ e rfl
    rw [hv]
    show (parseFlags estimatorFlags none (('-' :: '-' :: ("pose1_csv".toList ++ '=' :: a)) :: a' :: ('-' :: '-' :: ("pose2_csv".toList ++ '=' :: b)) ::
      ('-' :: '-' :: ("init_guess_file".toList ++ '=' :: g)) :: ('-' :: '-' :: ("output_file".toList ++ '=' :: o)) :: [])).map _ = _
    rw [h1, hw, h2, h3, h4]
    rfl
  refine ⟨_, _, ?_, hf, fun d => ⟨(flagOf_estimate a b g o d).1, ?_⟩⟩
  · have e : estimateCommand (a ++ ' ' :: a') b g o = "rosrun".toList ++ ([(" ".toList, "hand_eye_calibration_batch_estimation".toList),
        (" ".toList, "batch_estimator".toList), (" ".toList, "-v".toList), (" ".toList, "1".toList),
        ("       ".toList, "--pose1_csv=".toList ++ a), (" ".toList, a'), (" ".toList, "--pose2_csv=".toList ++ b),
        ("       ".toList, "--init_guess_file=".toList ++ g),
        ("       ".toList, "--output_file=".toList ++ o)].flatMap (fun p => p.1 ++ p.2) ++ []) := by
      have e1 : "rosrun hand_eye_calibration_batch_estimation batch_estimator -v 1       --pose1_csv=".toList =
        "rosrun".toList ++ (" ".toList ++ ("hand_eye_calibration_batch_estimation".toList ++ (" ".toList ++ ("batch_estimator".toList ++
        (" ".toList ++ ("-v".toList ++ (" ".toList ++ ("1".toList ++ ("       ".toList ++ "--pose1_csv=".toList))))))))) := by decide
      have e2 : " --pose2_csv=".toList = " ".toList ++ "--pose2_csv=".toList := by decide
      have e3 : "       --init_guess_file=".toList = "       ".toList ++ "--init_guess_file=".toList := by decide
      have e4 : "       --output_file=".toList = "       ".toList ++ "--output_file=".toList := by decide
      have e5 : ' ' :: a' = " ".toList ++ a' := rfl
      unfold estimateCommand
      rw [e1, e2, e3, e4, e5]
      simp only [List.append_assoc, List.flatMap_cons, List.flatMap_nil, List.append_nil]
    rw [e, C93_split "rosrun".toList (by decide) _ ?_ [] (by simp)]
    · rfl
    · simp only [List.forall_mem_cons, List.not_mem_nil, false_imp_iff, implies_true, and_true]
      refine ⟨by decide, by decide, by decide, by decide, ⟨by decide, by decide, ?_, plain_append (by decide) ha⟩,
        ⟨by decide, by decide, ha', hp'⟩,
        ⟨by decide, by decide, ?_, plain_append (by decide) hb⟩, ⟨by decide, by decide, ?_, plain_append (by decide) hg⟩,
        ⟨by decide, by decide, ?_, plain_append (by decide) ho⟩⟩ <;>
      exact List.append_ne_nil_of_left_ne_nil (by decide) _
  · have := (flagOf_estimate a b g o d).1
    rw [this]
    intro e
    have := congrArg List.length e
    simp at this

end HandEye
