import Verif.Props.Commands2

/-! # Property C93: words that do not say what they mean -/

namespace HandEye

/-- A file name may carry options of its own: an input file called `b --quaternion_format JPL` makes `compute_aligned_poses.py` write
with the other convention. -/
theorem C93_injection_refuted (a b a' b' off : Text) (h : ∀ t ∈ [a, b, a', b', off], t ≠ [] ∧ Spec.Plain t ∧ Spec.NoDash t) :
    ∃ argv, shlexSplit (alignCommand a (b ++ " --quaternion_format JPL".toList) a' b' off) =
        .ok ("rosrun".toList :: "hand_eye_calibration".toList :: "compute_aligned_poses.py".toList :: argv) ∧
      parseArgs alignSpecs argv = some [("--poses_B_H_csv_file".toList, .str a), ("--poses_W_E_csv_file".toList, .str b),
        ("--aligned_poses_B_H_csv_file".toList, .str a'), ("--aligned_poses_W_E_csv_file".toList, .str b'),
        ("--time_offset_output_csv_file".toList, .str off), ("--quaternion_format".toList, .str "JPL".toList),
        ("--visualize".toList, .bool false)] := by
  have hv : ∀ t ∈ [a, b, "JPL".toList, a', b', off], Spec.NoDash t := by
    intro t ht
    by_cases e : t = "JPL".toList
    · subst e
      intro c hc e
      subst e
      revert hc
      decide
    · refine (h t ?_).2.2
      simp only [List.mem_cons, List.not_mem_nil, or_false] at ht ⊢
      tauto
  simp only [List.forall_mem_cons, List.not_mem_nil, false_imp_iff, implies_true, and_true] at h
  obtain ⟨ha, hb, ha', hb', hoff⟩ := h
  have hp := parse_words alignSpecs (specs_ok _ (by simp)).1 (specs_ok _ (by simp)).2
    ["--poses_B_H_csv_file".toList, "--poses_W_E_csv_file".toList, "--quaternion_format".toList, "--aligned_poses_B_H_csv_file".toList,
      "--aligned_poses_W_E_csv_file".toList, "--time_offset_output_csv_file".toList] (by decide) (by decide) (by decide)
    [a, b, "JPL".toList, a', b', off] rfl hv
  refine ⟨["--poses_B_H_csv_file".toList, a, "--poses_W_E_csv_file".toList, b, "--quaternion_format".toList, "JPL".toList,
    "--aligned_poses_B_H_csv_file".toList, a',
    "--aligned_poses_W_E_csv_file".toList, b', "--time_offset_output_csv_file".toList, off], ?_, hp⟩
  have e : alignCommand a (b ++ " --quaternion_format JPL".toList) a' b' off = "rosrun".toList ++ ([(" ".toList, "hand_eye_calibration".toList), (" ".toList, "compute_aligned_poses.py".toList),
      ("       ".toList, "--poses_B_H_csv_file".toList), (" ".toList, a), ("        ".toList, "--poses_W_E_csv_file".toList), (" ".toList, b),
      (" ".toList, "--quaternion_format".toList), (" ".toList, "JPL".toList),
      ("       ".toList, "--aligned_poses_B_H_csv_file".toList), (" ".toList, a'),
      ("       ".toList, "--aligned_poses_W_E_csv_file".toList), (" ".toList, b'),
      ("       ".toList, "--time_offset_output_csv_file".toList), (" ".toList, off)].flatMap (fun p => p.1 ++ p.2) ++ []) := by
    have e1 : "rosrun hand_eye_calibration compute_aligned_poses.py       --poses_B_H_csv_file ".toList = "rosrun".toList ++ (" ".toList ++
      ("hand_eye_calibration".toList ++ (" ".toList ++ ("compute_aligned_poses.py".toList ++ ("       ".toList ++
      ("--poses_B_H_csv_file".toList ++ " ".toList)))))) := by decide
    have e2 : "        --poses_W_E_csv_file ".toList = "        ".toList ++ ("--poses_W_E_csv_file".toList ++ " ".toList) := by decide
    have e3 : "       --aligned_poses_B_H_csv_file ".toList = "       ".toList ++ ("--aligned_poses_B_H_csv_file".toList ++ " ".toList) := by decide
    have e4 : "       --aligned_poses_W_E_csv_file ".toList = "       ".toList ++ ("--aligned_poses_W_E_csv_file".toList ++ " ".toList) := by decide
    have e5 : "       --time_offset_output_csv_file ".toList = "       ".toList ++ ("--time_offset_output_csv_file".toList ++ " ".toList) := by decide
    have e6 : " --quaternion_format JPL".toList = " ".toList ++ ("--quaternion_format".toList ++ (" ".toList ++ "JPL".toList)) := by decide
    unfold alignCommand
    rw [e1, e2, e3, e4, e5, e6]
    simp only [List.append_assoc, List.flatMap_cons, List.flatMap_nil, List.append_nil]
  rw [e, C93_split "rosrun".toList (by decide) _ ?_ [] (by simp)]
  · rfl
  · simp only [List.forall_mem_cons, List.not_mem_nil, false_imp_iff, implies_true, and_true]
    exact ⟨by decide, by decide, by decide, ⟨by decide, by decide, ha.1, ha.2.1⟩, by decide, ⟨by decide, by decide, hb.1, hb.2.1⟩,
      by decide, by decide,
      by decide, ⟨by decide, by decide, ha'.1, ha'.2.1⟩, by decide, ⟨by decide, by decide, hb'.1, hb'.2.1⟩,
      by decide, ⟨by decide, by decide, hoff.1, hoff.2.1⟩⟩

/-- Backslashes vanish and quotes are an error (or vanish). -/
theorem C93_quotes_refuted :
    shlexSplit "cat a\\b.csv".toList = .ok ["cat".toList, "ab.csv".toList] ∧
    shlexSplit "cat it's.csv".toList = .error .value ∧
    shlexSplit "cat \"a b.csv\"".toList = .ok ["cat".toList, "a b.csv".toList] := ⟨rfl, rfl, rfl⟩

/-- `--visualize=v` of `compute_hand_eye_calibration.py` is true for every `v` that is not empty. -/
theorem C93_visualize (v : Text) :
    ∃ ns, parseArgs calibrateSpecs ["--visualize=".toList ++ v] = some ns ∧
      ns.lookup "--visualize".toList = some (.bool (decide (v ≠ []))) := by
  have h := parse_given calibrateSpecs (specs_ok _ (by simp)).1 (specs_ok _ (by simp)).2 [.equals "--visualize".toList v]
    (fun _ => .bool (decide (v ≠ []))) ?_
    (show ∀ s ∈ calibrateSpecs, s.required = true → s.name ∈ ["--visualize".toList] by decide)
  · exact ⟨_, h, rfl⟩
  · intro p hp
    rw [List.mem_singleton.mp hp]
    obtain ⟨s, hs, h1, h2, h3⟩ : ∃ s ∈ calibrateSpecs, s.name = "--visualize".toList ∧ s.kind = .bool ∧ s.many = false := by decide
    refine ⟨s, hs, h1, ?_, trivial⟩
    rw [h2, h3]
    cases v <;> rfl

example : (∃ ns, parseArgs calibrateSpecs ["--visualize=False".toList] = some ns ∧ ns.lookup "--visualize".toList = some (.bool true)) ∧
    (∃ ns, parseArgs calibrateSpecs ["--visualize=".toList] = some ns ∧ ns.lookup "--visualize".toList = some (.bool false)) :=
  ⟨C93_visualize "False".toList, C93_visualize []⟩

/-- C93 fails for the words that mean `false`: with `--visualize False` and with `--visualize 0` the scripts visualise. -/
theorem C93_false_refuted :
    ∃ ws, Spec.Means .bool false ws (.bool false) ∧
      ∃ ns, parseArgs calibrateSpecs (Spec.Given.words "--visualize".toList ws).tokens = some ns ∧
        ns.lookup "--visualize".toList = some (.bool true) :=
  ⟨["False".toList], .word false, _, rfl, rfl⟩

/-- The first command of the shell script reaches `compute_aligned_poses.py` with the names of the files. -/
theorem C93_script_align (a b a' b' : Text) (h : ∀ t ∈ [a, b, a', b'], Spec.NoDash t) :
    parseArgs alignSpecs (shellAlignWords a b a' b') = some [("--poses_B_H_csv_file".toList, .str a), ("--poses_W_E_csv_file".toList, .str b),
        ("--aligned_poses_B_H_csv_file".toList, .str a'), ("--aligned_poses_W_E_csv_file".toList, .str b'),
        ("--time_offset_output_csv_file".toList, .str "time_offset.csv".toList), ("--quaternion_format".toList, .str "Hamilton".toList),
        ("--visualize".toList, .bool false)] := by
  refine parse_align a b a' b' _ ?_
  simp only [List.forall_mem_cons, List.not_mem_nil, false_imp_iff, implies_true, and_true] at h ⊢
  refine ⟨h.1, h.2.1, h.2.2.1, h.2.2.2, ?_⟩
  intro c hc e
  subst e
  revert hc
  decide

/-- The third command of the shell script reaches the batch estimator with the names of the files; names may even begin with a dash. -/
theorem C93_script_estimate (a b : Text) :
    ∃ assigned, parseFlags estimatorFlags none (shellEstimateWords a b) = some (assigned, []) ∧
      ∀ d, flagOf assigned "pose1_csv".toList d = a ∧ flagOf assigned "pose2_csv".toList d = b ∧
        flagOf assigned "init_guess_file".toList d = "calibration.json".toList ∧
        flagOf assigned "output_file".toList d = "calibration_optimized.json".toList ∧
        flagOf assigned "config_file".toList d = d :=
  ⟨_, rfl, fun _ => ⟨rfl, rfl, rfl, rfl, rfl⟩⟩

example : ∃ s, parseFlags estimatorFlags none (shellEstimateWords "a.csv".toList "-b".toList) = some (s, []) ∧
    flagOf s "pose2_csv".toList [] = "-b".toList := ⟨_, rfl, rfl⟩

/-- The shell script asks for no visualisation (SH:25) and gets one. -/
theorem C93_script_refuted (a b : Text) (h : ∀ t ∈ [a, b], Spec.NoDash t) :
    ∃ ns, parseArgs calibrateSpecs (shellCalibrateWords a b) = some ns ∧
      ns.lookup "--aligned_poses_B_H_csv_file".toList = some (.str a) ∧
      ns.lookup "--aligned_poses_W_E_csv_file".toList = some (.str b) ∧
      ns.lookup "--time_offset_input_csv_file".toList = some (.str "time_offset.csv".toList) ∧
      ns.lookup "--calibration_output_json_file".toList = some (.str "calibration.json".toList) ∧
      ns.lookup "--visualize".toList = some (.bool true) := by
  have h := parse_given calibrateSpecs (specs_ok _ (by simp)).1 (specs_ok _ (by simp)).2
    [.words "--aligned_poses_B_H_csv_file".toList [a], .words "--aligned_poses_W_E_csv_file".toList [b],
      .words "--time_offset_input_csv_file".toList ["time_offset.csv".toList],
      .words "--calibration_output_json_file".toList ["calibration.json".toList], .equals "--visualize".toList "0".toList]
    (fun n => (([("--aligned_poses_B_H_csv_file".toList, .str a), ("--aligned_poses_W_E_csv_file".toList, .str b),
      ("--time_offset_input_csv_file".toList, .str "time_offset.csv".toList),
      ("--calibration_output_json_file".toList, .str "calibration.json".toList),
      ("--visualize".toList, .bool true)] : List (Text × ArgValue)).lookup n).getD .none) ?_
    (show ∀ s ∈ calibrateSpecs, s.required = true → s.name ∈ ["--aligned_poses_B_H_csv_file".toList,
      "--aligned_poses_W_E_csv_file".toList, "--time_offset_input_csv_file".toList, "--calibration_output_json_file".toList,
      "--visualize".toList] by decide)
  · exact ⟨_, h, rfl, rfl, rfl, rfl, rfl⟩
  · have hd : ∀ t : Text, t.head? ≠ some '-' → Spec.NoDash t := fun t ht c hc e => ht (e ▸ hc)
    have ht : ∀ n ∈ ["--aligned_poses_B_H_csv_file".toList, "--aligned_poses_W_E_csv_file".toList, "--time_offset_input_csv_file".toList,
        "--calibration_output_json_file".toList], ∃ s ∈ calibrateSpecs, s.name = n ∧ s.kind = .str ∧ s.many = false := by decide
    have hb : ∃ s ∈ calibrateSpecs, s.name = "--visualize".toList ∧ s.kind = .bool ∧ s.many = false := by decide
    have key : ∀ n ∈ ["--aligned_poses_B_H_csv_file".toList, "--aligned_poses_W_E_csv_file".toList, "--time_offset_input_csv_file".toList,
        "--calibration_output_json_file".toList], ∀ t, Spec.NoDash t → ∀ v : ArgValue, v = .str t →
        ∃ s ∈ calibrateSpecs, s.name = (Spec.Given.words n [t]).name ∧
        convertArg s.kind s.many (Spec.Given.words n [t]).values = some v ∧ (Spec.Given.words n [t]).Separate := by
      intro n hn t htd v hv
      obtain ⟨s, hs, h1, h2, h3⟩ := ht n hn
      refine ⟨s, hs, h1, ?_, ?_⟩
      · rw [h2, h3, hv]; rfl
      · intro u hu
        rw [List.mem_singleton.mp hu]
        exact htd
    simp only [List.forall_mem_cons, List.not_mem_nil, false_imp_iff, implies_true, and_true] at h ⊢
    refine ⟨key _ (by decide) _ h.1 _ rfl, key _ (by decide) _ h.2 _ rfl, key _ (by decide) _ (hd _ (by decide)) _ rfl,
      key _ (by decide) _ (hd _ (by decide)) _ rfl, ?_⟩
    obtain ⟨s, hs, h1, h2, h3⟩ := hb
    refine ⟨s, hs, h1, ?_, trivial⟩
    rw [h2, h3]
    rfl

example : ∃ ns, parseArgs calibrateSpecs (shellCalibrateWords "a.csv".toList "b.csv".toList) = some ns ∧
    ns.lookup "--visualize".toList = some (.bool true) := ⟨_, rfl, rfl⟩

end HandEye
