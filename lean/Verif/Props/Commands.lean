import Verif.Lemmas.Commands

/-! # Property C93: command lines reach the programs as they are meant -/

namespace HandEye

/-- C93 for `shlex.split`: words without white space, quotes and backslashes, separated by any white space, are the words. -/
theorem C93_split (w : Text) (hw : w ≠ [] ∧ Spec.Plain w) (l : List (Text × Text))
    (h : ∀ p ∈ l, p.1 ≠ [] ∧ (∀ c ∈ p.1, Spec.Blank c) ∧ p.2 ≠ [] ∧ Spec.Plain p.2) (tail : Text) (ht : ∀ c ∈ tail, Spec.Blank c) :
    shlexSplit (w ++ (l.flatMap (fun p => p.1 ++ p.2) ++ tail)) = .ok (w :: l.map Prod.snd) := by
  unfold shlexSplit
  rw [go_word hw.2 hw.1, go_words ht l h]

example : shlexSplit "  ls -l   a.csv ".toList = .ok ["ls".toList, "-l".toList, "a.csv".toList] := by rfl

/-- C93 for `run`: it returns exactly if the program was started with the words of the command and ended with exit code zero. -/
theorem C93_run (exec : List Text → Py ℤ) (cmd : Text) :
    runCommand exec cmd false = .ok () ↔ ∃ args, shlexSplit cmd = .ok args ∧ exec args = .ok 0 := by
  unfold runCommand
  rw [if_neg (by simp)]
  constructor
  · intro h
    obtain ⟨args, h1, h⟩ := Py.bind_eq_ok.mp h
    obtain ⟨code, h2, h⟩ := Py.bind_eq_ok.mp h
    by_cases hc : code = 0
    · exact ⟨args, h1, by rw [h2, hc]⟩
    · rw [if_pos hc] at h
      cases h
  · rintro ⟨args, h1, h2⟩
    rw [h1, Py.ok_bind, h2, Py.ok_bind, if_neg (by simp)]
    rfl

/-- C93 for `run`: in a dry run no program is started, whatever it would do. -/
theorem C93_dry_run (exec : List Text → Py ℤ) (cmd : Text) : runCommand exec cmd true = .ok () := rfl

example : runCommand (fun _ => .error .os) "it's".toList true = .ok () := C93_dry_run _ _

example : runCommand (fun _ => .ok 0) "ls".toList false = .ok () ∧ runCommand (fun _ => .ok 2) "ls".toList false = .error .os := ⟨rfl, rfl⟩

/-- Options whose values are converted to `value`. -/
theorem parse_given (specs : List ArgSpec) (hnames : (specs.map ArgSpec.name).Nodup)
    (hdash : ∀ s ∈ specs, s.name.head? = some '-' ∧ '=' ∉ s.name)
    (given : List Spec.Given) (value : Text → ArgValue)
    (hgiven : ∀ p ∈ given, ∃ s ∈ specs, s.name = p.name ∧ convertArg s.kind s.many p.values = some (value p.name) ∧ p.Separate)
    (hreq : ∀ s ∈ specs, s.required = true → s.name ∈ given.map Spec.Given.name) :
    parseArgs specs (given.flatMap Spec.Given.tokens) =
      some (specs.map fun s => (s.name, if s.name ∈ given.map Spec.Given.name then value s.name else s.default)) := by
  unfold parseArgs
  rw [group_line given]
  · simp only [Option.bind_eq_bind, Option.bind_some]
    rw [if_neg (by simp)]
    have h1 : (given.map optionGroup).mapM (storeArg specs) = some (given.map fun p => (p.name, value p.name)) := by
      rw [mapM_some (g := fun q => (q.1, value q.1))]
      · rw [List.map_map]
        congr 1
        refine List.map_congr_left fun p _ => ?_
        cases p <;> rfl
      · intro q hq
        obtain ⟨p, hp, rfl⟩ := List.mem_map.mp hq
        obtain ⟨s, hs, h1, h2, -⟩ := hgiven p hp
        rw [store_given hnames hs h1 h2]
        cases p <;> rfl
    have e : (given.map fun p => (p.name, value p.name)).map Prod.fst = given.map Spec.Given.name := by
      rw [List.map_map]; rfl
    rw [h1, Option.bind_some]
    refine mapM_some fun s hs => ?_
    rw [final_given (value := value)]
    · rw [e]
    · intro p hp
      obtain ⟨q, -, rfl⟩ := List.mem_map.mp hp
      rfl
    · rw [e]
      exact hreq s hs
  · intro m hm
    rcases List.mem_cons.mp hm with rfl | hm
    · decide
    · obtain ⟨s, hs, rfl⟩ := List.mem_map.mp hm
      exact (hdash s hs).2
  · intro p hp
    obtain ⟨s, hs, h1, -, h4⟩ := hgiven p hp
    refine ⟨?_, ?_, h4⟩
    · rw [← h1]
      exact List.mem_cons_of_mem _ (List.mem_map_of_mem hs)
    · rw [← h1]
      exact (hdash s hs).1

/-- C93 for `argparse`: options that are given in any order, as `--name word ...` or `--name=value`, have the values that are meant,
the others have their defaults.  (Missing: options with a truth value that is meant to be false, where this fails, see
`C93_false_refuted`; values that begin with a dash and are words of their own, which `argparse` takes for options.) -/
theorem C93_options_partial (specs : List ArgSpec) (hnames : (specs.map ArgSpec.name).Nodup)
    (hdash : ∀ s ∈ specs, s.name.head? = some '-' ∧ '=' ∉ s.name)
    (given : List Spec.Given) (value : Text → ArgValue)
    (hgiven : ∀ p ∈ given, ∃ s ∈ specs, s.name = p.name ∧ Spec.Means s.kind s.many p.values (value p.name) ∧
      value p.name ≠ .bool false ∧ p.Separate)
    (hreq : ∀ s ∈ specs, s.required = true → s.name ∈ given.map Spec.Given.name) :
    parseArgs specs (given.flatMap Spec.Given.tokens) =
      some (specs.map fun s => (s.name, if s.name ∈ given.map Spec.Given.name then value s.name else s.default)) := by
  refine parse_given specs hnames hdash given value (fun p hp => ?_) hreq
  obtain ⟨s, hs, h1, h2, h3, h4⟩ := hgiven p hp
  exact ⟨s, hs, h1, convert_means h2 h3, h4⟩

theorem specs_ok : ∀ specs ∈ [alignSpecs, calibrateSpecs, experimentSpecs], (specs.map ArgSpec.name).Nodup ∧
    ∀ s ∈ specs, s.name.head? = some '-' ∧ '=' ∉ s.name := by
  decide

instance : DecidablePred Spec.Blank := fun c => inferInstanceAs (Decidable (c = ' ' ∨ c = '\t' ∨ c = '\r' ∨ c = '\n'))

instance : DecidablePred Spec.Plain := fun t =>
  inferInstanceAs (Decidable (∀ c ∈ t, ¬ Spec.Blank c ∧ c ≠ '\\' ∧ c ≠ '\'' ∧ c ≠ '"'))

theorem plain_append {s t : Text} (hs : Spec.Plain s) (ht : Spec.Plain t) : Spec.Plain (s ++ t) := by
  intro c hc
  rcases List.mem_append.mp hc with hc | hc
  · exact hs c hc
  · exact ht c hc

/-- Options with a text each. -/
theorem parse_words (specs : List ArgSpec) (hnames : (specs.map ArgSpec.name).Nodup)
    (hdash : ∀ s ∈ specs, s.name.head? = some '-' ∧ '=' ∉ s.name) (names : List Text) (hn : names.Nodup)
    (hk : ∀ n ∈ names, ∃ s ∈ specs, s.name = n ∧ s.kind = .str ∧ s.many = false)
    (hreq : ∀ s ∈ specs, s.required = true → s.name ∈ names) (vals : List Text) (hl : names.length = vals.length)
    (hv : ∀ t ∈ vals, Spec.NoDash t) :
    parseArgs specs ((names.zip vals).flatMap fun p => [p.1, p.2]) =
      some (specs.map fun s => (s.name, (((names.zip vals).lookup s.name).map ArgValue.str).getD s.default)) := by
  have hfst : (names.zip vals).map Prod.fst = names := by rw [List.map_fst_zip hl.le]
  have hlook : ∀ p ∈ names.zip vals, (names.zip vals).lookup p.1 = some p.2 := by
    have : ∀ (l : List (Text × Text)), (l.map Prod.fst).Nodup → ∀ p ∈ l, l.lookup p.1 = some p.2 := by
      intro l
      induction l with
      | nil => intro _ p hp; cases hp
      | cons a l ih =>
        intro hnd p hp
        rw [List.map_cons, List.nodup_cons] at hnd
        rcases List.mem_cons.mp hp with rfl | hp
        · rw [List.lookup_cons_self]
        · have hne : (p.1 == a.1) = false := beq_false_of_ne fun e => hnd.1 (e ▸ List.mem_map_of_mem hp)
          have ih := ih hnd.2 p hp
          rw [List.lookup_cons, hne, ih]
    exact this _ (by rw [hfst]; exact hn)
  have := C93_options_partial specs hnames hdash ((names.zip vals).map fun p => .words p.1 [p.2])
    (fun n => (((names.zip vals).lookup n).map ArgValue.str).getD .none) ?_ ?_
  · rw [List.flatMap_map, List.map_map] at this
    have e : Spec.Given.name ∘ (fun p : Text × Text => Spec.Given.words p.1 [p.2]) = Prod.fst := rfl
    rw [e, hfst] at this
    refine this.trans ?_
    congr 1
    refine List.map_congr_left fun s _ => ?_
    congr 1
    split
    · rename_i hs
      rw [← hfst] at hs
      obtain ⟨p, hp, hp'⟩ := List.mem_map.mp hs
      rw [← hp', hlook p hp]
      rfl
    · rename_i hs
      have : (names.zip vals).lookup s.name = none := by
        rw [List.lookup_eq_none_iff]
        intro p hp
        have : p.1 ∈ names := hfst ▸ List.mem_map_of_mem hp
        simp only [bne_iff_ne]
        exact fun e => hs (e ▸ this)
      rw [this]
      rfl
  · intro q hq
    obtain ⟨p, hp, rfl⟩ := List.mem_map.mp hq
    obtain ⟨s, hs, s1, s2, s3⟩ := hk p.1 (List.of_mem_zip hp).1
    refine ⟨s, hs, s1, ?_, ?_, ?_⟩
    · rw [s2, s3]
      show Spec.Means _ _ [p.2] _
      have : ((((names.zip vals).lookup p.1).map ArgValue.str).getD .none) = .str p.2 := by rw [hlook p hp]; rfl
      exact this ▸ Spec.Means.text p.2
    · show ((((names.zip vals).lookup p.1).map ArgValue.str).getD .none) ≠ _
      rw [hlook p hp]
      simp
    · intro t ht
      rw [List.mem_singleton.mp ht]
      exact hv _ (List.of_mem_zip hp).2
  · intro s hs hr
    rw [List.map_map]
    have e : Spec.Given.name ∘ (fun p : Text × Text => Spec.Given.words p.1 [p.2]) = Prod.fst := rfl
    rw [e, hfst]
    exact hreq s hs hr

theorem parse_align (a b a' b' off : Text) (hv : ∀ t ∈ [a, b, a', b', off], Spec.NoDash t) :
    parseArgs alignSpecs ["--poses_B_H_csv_file".toList, a, "--poses_W_E_csv_file".toList, b, "--aligned_poses_B_H_csv_file".toList, a',
    "--aligned_poses_W_E_csv_file".toList, b', "--time_offset_output_csv_file".toList, off] =
      some [("--poses_B_H_csv_file".toList, .str a), ("--poses_W_E_csv_file".toList, .str b),
        ("--aligned_poses_B_H_csv_file".toList, .str a'), ("--aligned_poses_W_E_csv_file".toList, .str b'),
        ("--time_offset_output_csv_file".toList, .str off), ("--quaternion_format".toList, .str "Hamilton".toList),
        ("--visualize".toList, .bool false)] := by
  have := parse_words alignSpecs (specs_ok _ (by simp)).1 (specs_ok _ (by simp)).2
    ["--poses_B_H_csv_file".toList, "--poses_W_E_csv_file".toList, "--aligned_poses_B_H_csv_file".toList,
      "--aligned_poses_W_E_csv_file".toList, "--time_offset_output_csv_file".toList] (by decide) (by decide) (by decide)
    [a, b, a', b', off] rfl hv
  exact this

/-- The first command of `close_the_circle_test.py` reaches `compute_aligned_poses.py` with the five file names, if these have no white
space, quotes and backslashes and do not begin with a dash. -/
theorem C93_align_command_partial (a b a' b' off : Text) (h : ∀ t ∈ [a, b, a', b', off], t ≠ [] ∧ Spec.Plain t ∧ Spec.NoDash t) :
    ∃ argv, shlexSplit (alignCommand a b a' b' off) =
        .ok ("rosrun".toList :: "hand_eye_calibration".toList :: "compute_aligned_poses.py".toList :: argv) ∧
      parseArgs alignSpecs argv = some [("--poses_B_H_csv_file".toList, .str a), ("--poses_W_E_csv_file".toList, .str b),
        ("--aligned_poses_B_H_csv_file".toList, .str a'), ("--aligned_poses_W_E_csv_file".toList, .str b'),
        ("--time_offset_output_csv_file".toList, .str off), ("--quaternion_format".toList, .str "Hamilton".toList),
        ("--visualize".toList, .bool false)] := by
  have hv : ∀ t ∈ [a, b, a', b', off], Spec.NoDash t := fun t ht => (h t ht).2.2
  simp only [List.forall_mem_cons, List.not_mem_nil, false_imp_iff, implies_true, and_true] at h
  obtain ⟨ha, hb, ha', hb', hoff⟩ := h
  refine ⟨["--poses_B_H_csv_file".toList, a, "--poses_W_E_csv_file".toList, b, "--aligned_poses_B_H_csv_file".toList, a',
    "--aligned_poses_W_E_csv_file".toList, b', "--time_offset_output_csv_file".toList, off], ?_, parse_align a b a' b' off hv⟩
  have e : alignCommand a b a' b' off = "rosrun".toList ++ ([(" ".toList, "hand_eye_calibration".toList), (" ".toList, "compute_aligned_poses.py".toList),
      ("       ".toList, "--poses_B_H_csv_file".toList), (" ".toList, a), ("        ".toList, "--poses_W_E_csv_file".toList), (" ".toList, b),
      ("       ".toList, "--aligned_poses_B_H_csv_file".toList), (" ".toList, a'),
      ("       ".toList, "--aligned_poses_W_E_csv_file".toList), (" ".toList, b'),
      ("       ".toList, "--time_offset_output_csv_file".toList), (" ".toList, off)].flatMap (fun p => p.1 ++ p.2) ++ []) := by
    have e1 : "rosrun hand_eye_calibration compute_aligned_poses.py       --poses_B_H_csv_file ".toList = "rosrun".toList ++ (" ".toList ++
      ("hand_eye_calibration".toList ++ (" ".toList ++ ("compute_aligned_poses.py".toList ++ ("       ".toList ++
      ("--poses_B_H_csv_file".toList ++ " ".toList)))))) := by decide
    have e2 : "        --poses_W_E_csv_file ".toList = "        ".toList ++ ("--poses_W_E_csv_file".toList ++ " ".toList) := by decide
    have e3 : "       --aligned_poses_B_H_csv_file ".toList = "       ".toList ++ ("--aligned_poses_B_H_csv_file".toList ++ " ".toList) := by decide
    have e4 : "       --aligned_poses_W_E_csv_file ".toList = "       ".toList ++ ("--aligned_poses_W_E_csv_file".toList ++ " ".toList) := by decide
    have e5 : "       --time_offset_output_csv_file ".toList = "       ".toList ++ ("--time_offset_output_csv_file".toList ++ " ".toList) := by decide
    unfold alignCommand
    rw [e1, e2, e3, e4, e5]
    simp only [List.append_assoc, List.flatMap_cons, List.flatMap_nil, List.append_nil]
  rw [e, C93_split "rosrun".toList (by decide) _ ?_ [] (by simp)]
  · rfl
  · simp only [List.forall_mem_cons, List.not_mem_nil, false_imp_iff, implies_true, and_true]
    exact ⟨by decide, by decide, by decide, ⟨by decide, by decide, ha.1, ha.2.1⟩, by decide, ⟨by decide, by decide, hb.1, hb.2.1⟩,
      by decide, ⟨by decide, by decide, ha'.1, ha'.2.1⟩, by decide, ⟨by decide, by decide, hb'.1, hb'.2.1⟩,
      by decide, ⟨by decide, by decide, hoff.1, hoff.2.1⟩⟩

end HandEye
