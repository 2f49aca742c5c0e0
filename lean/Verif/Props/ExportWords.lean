import Verif.Lemmas.ExportWords
import Verif.Props.Export

/-! # Property C98: the tools of the export get the arguments that are meant -/

namespace HandEye

open Spec

/-- **C98**: if no name of the configuration begins with a dash, the tools get the arguments that are meant, so that the files after the script, and the
exception that ended it, are those of the script with named arguments (C81).  (Missing: names that begin with a dash, where this fails, see
`C98_dash_refuted`.) -/
theorem C98_export_partial {τ : Type} (str : ℝ → Text) (strtod : Text → Option ℝ) (w : ExportWorld τ) (yaml_content : Option (List BagEntry)) (fs : FileTable τ)
    (hd : ∀ bags, yaml_content = some bags → ∀ s ∈ configured bags, Undashed s) (hy : ∀ file y, w.read_target file = some y → Survives str strtod y) :
    exportScriptWords str strtod w yaml_content fs = exportScript w yaml_content fs := by
  rcases yaml_content with _ | bags
  · rfl
  have hd := hd bags rfl
  have key : ∀ l : List ToolCall, (∀ c ∈ l, ∃ s ∈ configured bags, c = sourceCall s) → ∀ fs, l.foldl (runWords str strtod w) fs = l.foldl (runCall w) fs := by
    intro l
    induction l with
    | nil => intro _ _; rfl
    | cons c l ih =>
      intro h fs
      obtain ⟨s, hs, rfl⟩ := h _ List.mem_cons_self
      rw [List.foldl_cons, List.foldl_cons, runWords_source str strtod w fs s (hd s hs) hy]
      exact ih (fun c hc => h c (List.mem_cons_of_mem _ hc)) _
  unfold exportScriptWords exportScript
  exact Prod.ext (key _ (fun c hc => exportCalls_configured hc) fs) rfl

/-- With C81: every table that the tools can get is in a file of its own after the script. -/
theorem C98_exported_partial {τ : Type} (str : ℝ → Text) (strtod : Text → Option ℝ) (w : ExportWorld τ) (bags : List BagEntry) (fs : FileTable τ)
    (hl : ∀ b ∈ bags, EqualLengths b) (hp : PlainNames bags) (hd : ∀ s ∈ configured bags, Undashed s)
    (hy : ∀ file y, w.read_target file = some y → Survives str strtod y) :
    ∃ fs', exportScriptWords str strtod w (some bags) fs = (fs', none) ∧ ∃ file : PoseSource → Text,
      (∀ s ∈ configured bags, ∀ s' ∈ configured bags, file s = file s' → s = s') ∧
      ∀ s ∈ configured bags, Available w s → ∃ t, IsTable w s t ∧ fs' (file s) = some t := by
  rw [C98_export_partial str strtod w (some bags) fs (by rintro _ ⟨⟩; exact hd) hy]
  exact C81_exported_partial w bags fs hl hp

/-- **C98** for the target extractor: `gflags` takes the word after a flag whatever it is, so that every name arrives, also with spaces and dashes. -/
theorem C98_flags (str : ℝ → Text) (strtod : Text → Option ℝ) (bag topic camera output : Text) (y : AprilTarget) (hy : Survives str strtod y) :
    ∃ flags, extractorFlagsOf strtod (extractorWords str bag (extractorConfig bag topic camera output y)) = some flags ∧
      flags.bag = bag ∧ flags.topic = topic ∧ flags.eval_camera_yaml = camera ∧ flags.camera_pose_T_C_G_output_file_timestamped = output ∧
      flags.april_target = y ∧ flags.write_csv_header = false ∧ flags.output_position_in_mm = false ∧ flags.draw_extraction = true :=
  ⟨_, extractorFlags_words str strtod bag _ hy.vertical hy.horizontal hy.boarder hy.size hy.gap, rfl, rfl, rfl, rfl, rfl, rfl, rfl, rfl⟩

/-- **C98**, how the extractor reads its words: the flags that are meant are assigned, in their order. -/
theorem C98_gflags (l : List FlagGiven) (hl : ∀ g ∈ l, g.Known extractorValueFlags extractorBoolFlags) :
    parseFlagsBool extractorValueFlags extractorBoolFlags none (l.flatMap FlagGiven.words) = some (l.map FlagGiven.meaning) := by
  have h := parseFlagsBool_givens extractorValueFlags extractorBoolFlags extractorFlags_distinct.1 extractorFlags_distinct.2 l hl []
  rw [List.append_nil] at h
  rw [h]
  simp [parseFlagsBool]

/-- A flag that the extractor does not know, or a flag without the value that it needs, is an error wherever it stands: the extractor does not start. -/
theorem C98_gflags_unknown (strtod : Text → Option ℝ) (l : List FlagGiven) (hl : ∀ g ∈ l, g.Known extractorValueFlags extractorBoolFlags) (n : Text) (r : List Text)
    (h : (n ≠ [] ∧ '=' ∉ n ∧ n ∉ extractorValueFlags ∧ n ∉ extractorBoolFlags ∧ ∀ b ∈ extractorBoolFlags, n ≠ "no".toList ++ b) ∨ (n ∈ extractorValueFlags ∧ r = [])) :
    extractorFlagsOf strtod (l.flatMap FlagGiven.words ++ ("--".toList ++ n) :: r) = none := by
  have hp : parseFlagsBool extractorValueFlags extractorBoolFlags none (("--".toList ++ n) :: r) = none := by
    rcases h with ⟨h0, h1, h2, h3, h4⟩ | ⟨h2, rfl⟩
    · have hne := dashes_ne (r := []) h0
      rw [List.append_nil] at hne
      rw [parseFlagsBool, if_neg hne.1, if_neg hne.2, flagName_dashes n h1, if_neg h3, if_neg h2, if_neg]
      rintro ⟨ha, hb, -⟩
      refine h4 _ hb ?_
      obtain ⟨t, rfl⟩ := List.isPrefixOf_iff_prefix.mp ha
      rfl
    · obtain ⟨h0, h1⟩ := extractorFlags_distinct.1 n (.inl h2)
      have hne := dashes_ne (r := []) h0
      rw [List.append_nil] at hne
      rw [parseFlagsBool, if_neg hne.1, if_neg hne.2, flagName_dashes n h1, if_neg (extractorFlags_distinct.2 n h2), if_pos h2, flagValue_dashes n h1]
      rfl
  unfold extractorFlagsOf
  rw [parseFlagsBool_givens extractorValueFlags extractorBoolFlags extractorFlags_distinct.1 extractorFlags_distinct.2 l hl, hp]
  rfl

/-- The last of several values counts, and the integers have 32 bits. -/
theorem C98_gflags_values (a : List (Text × Text)) (name : Text) :
    (∀ d : Text, flagWith some (a ++ [(name, ['1'])]) name d = some ['1']) ∧
    (∀ d : Text, (∀ p ∈ a, p.1 ≠ name) → flagWith some a name d = some d) ∧
    (∀ n : ℤ, ∀ d, flagWith gflagsInt32 (a ++ [(name, intText n)]) name d = if -2 ^ 31 ≤ n ∧ n < 2 ^ 31 then some n else none) := by
  refine ⟨fun d => by simp [flagWith, assignedValue], fun d h => ?_, fun n d => ?_⟩
  · have : assignedValue a name = none := by
      unfold assignedValue
      rw [List.find?_eq_none.mpr]
      · rfl
      · intro p hp
        simpa using h p (List.mem_reverse.mp hp)
    simp [flagWith, this]
  · simp [flagWith, assignedValue, gflagsInt32, parseInt_intText]

/-- The extractor without its figures, with a header: the flags are read. -/
example : parseFlagsBool extractorValueFlags extractorBoolFlags none ["--bag".toList, "--topic".toList, "--nodraw_extraction".toList, "--write_csv_header".toList,
      "--topic=a=b".toList] =
    some [("bag".toList, "--topic".toList), ("draw_extraction".toList, ['0']), ("write_csv_header".toList, ['1']), ("topic".toList, "a=b".toList)] :=
  C98_gflags [.separate "bag".toList "--topic".toList, .off "draw_extraction".toList, .on "write_csv_header".toList, .joined "topic".toList "a=b".toList] (by
    intro g hg
    simp only [List.mem_cons, List.not_mem_nil, or_false] at hg
    rcases hg with rfl | rfl | rfl | rfl
    · show _ ∈ _; decide
    · exact ⟨by decide, by decide, by decide⟩
    · show _ ∈ _; decide
    · exact .inl (by decide))

/-- A flag of a later version is rejected. -/
example (strtod : Text → Option ℝ) : extractorFlagsOf strtod ["--bag".toList, "a.bag".toList, "--april_tag_number_pixel_boarder".toList, "2".toList] = none :=
  C98_gflags_unknown strtod [.separate "bag".toList "a.bag".toList] (by
    intro g hg
    simp only [List.mem_cons, List.not_mem_nil, or_false] at hg
    subst hg
    show _ ∈ _; decide) "april_tag_number_pixel_boarder".toList ["2".toList] (.inl ⟨by decide, by decide, by decide, by decide, by decide⟩)

/-- **C98** fails for names that begin with a dash: a frame that is called `-imu` is an option that `tf_to_csv.py` does not know, nothing is exported, and the
script does not notice. -/
theorem C98_dash_refuted {τ : Type} (str : ℝ → Text) (strtod : Text → Option ℝ) (w : ExportWorld τ) (fs : FileTable τ) :
    exportScriptWords str strtod w (some [⟨"run.bag".toList, "/data/".toList, [], [], some ⟨["-imu".toList], ["world".toList]⟩, none, []⟩]) fs = (fs, none) := by
  have h : parseArgs tfToCsvSpecs ["--bag".toList, "/data/run.bag".toList, "--tf_source_frame".toList, "-imu".toList, "--tf_target_frame".toList, "world".toList,
    "--csv_output_file".toList, "run_world_-imu.csv".toList] = none := by decide
  have hw : runWords str strtod w fs (sourceCall (.tf "/data/".toList "run.bag".toList "-imu".toList "world".toList)) = fs := by
    show (tfToCsvMain w ["--bag".toList, "/data/run.bag".toList, "--tf_source_frame".toList, "-imu".toList, "--tf_target_frame".toList, "world".toList,
    "--csv_output_file".toList, "run_world_-imu.csv".toList] fs).getD fs = fs
    unfold tfToCsvMain
    rw [h]
    rfl
  exact Prod.ext hw rfl

/-- A check that names have no dash in front. -/
theorem undashed_of {l : List PoseSource} (h : ∀ s ∈ l, (match s with
      | .tf path name source target => [path ++ name, name, source, target].all (fun t => t.head? != some '-')
      | .camera path name topic camera target => [path ++ name, name, topic, camera, target].all (fun t => t.head? != some '-') : Bool) = true) :
    ∀ s ∈ l, Undashed s := by
  intro s hs
  have h := h s hs
  cases s <;> simp only [List.all_cons, List.all_nil, Bool.and_true, Bool.and_eq_true, bne_iff_ne, ne_eq] at h
  · exact ⟨fun c hc e => h.1 (by rw [hc, e]), fun c hc e => h.2.1 (by rw [hc, e]), fun c hc e => h.2.2.1 (by rw [hc, e]), fun c hc e => h.2.2.2 (by rw [hc, e])⟩
  · exact ⟨fun c hc e => h.1 (by rw [hc, e]), fun c hc e => h.2.1 (by rw [hc, e]), fun c hc e => h.2.2.1 (by rw [hc, e]), fun c hc e => h.2.2.2.1 (by rw [hc, e]),
      fun c hc e => h.2.2.2.2 (by rw [hc, e])⟩

/-- The first bag of `configs/falcon.yaml`, with one camera. -/
def falconDriveBag : BagEntry :=
  ⟨"1_falcon_merged-2017-04-07-12-16-44.bag".toList, "/Users/ffurrer/Google Drive/fsr_2017/datasets/".toList, "/calib/".toList, "/calib/".toList,
    some ⟨["vicon".toList, "odom".toList], ["falcon".toList, "imu".toList]⟩, some ⟨["/falcon/color/color".toList], ["falcon_color.yaml".toList]⟩, "target_55_165.yaml".toList⟩

/-- The blank in the path of `configs/falcon.yaml` does no harm, and neither do the dashes inside of the name of the bag. -/
example (str : ℝ → Text) (strtod : Text → Option ℝ) (w : ExportWorld Text) (hy : ∀ file y, w.read_target file = some y → Survives str strtod y) :
    exportScriptWords str strtod w (some [falconDriveBag]) (fun _ => none) = exportScript w (some [falconDriveBag]) (fun _ => none) := by
  exact C98_export_partial str strtod w (some [falconDriveBag]) _ (by rintro _ ⟨⟩; exact undashed_of (by decide)) hy

/-- Both bags of the example of C81 are exported also by the words. -/
example (str : ℝ → Text) (strtod : Text → Option ℝ) (w : ExportWorld Text) (hy : ∀ file y, w.read_target file = some y → Survives str strtod y)
    (hw : ∀ s ∈ configured [falconBag "1_falcon_merged-2017-04-07-12-16-44.bag".toList, falconBag "3_falcon_merged-2017-04-07-12-22-23.bag".toList], Available w s) :
    ∃ fs', exportScriptWords str strtod w (some [falconBag "1_falcon_merged-2017-04-07-12-16-44.bag".toList,
      falconBag "3_falcon_merged-2017-04-07-12-22-23.bag".toList]) (fun _ => none) = (fs', none) ∧
      ∃ file t, w.tf_to_csv ("/datasets/".toList ++ "3_falcon_merged-2017-04-07-12-22-23.bag".toList) "odom".toList "imu".toList = some t ∧ fs' file = some t := by
  obtain ⟨fs', h, file, _, ht⟩ := C98_exported_partial str strtod w _ (fun _ => none) (by
    intro b hb
    simp only [List.mem_cons, List.not_mem_nil, or_false] at hb
    rcases hb with rfl | rfl <;>
    · refine ⟨fun f hf => ?_, fun c hc => ?_⟩
      · simp only [falconBag, Option.some.injEq] at hf
        subst hf; rfl
      · simp only [falconBag, Option.some.injEq] at hc
        subst hc; rfl) falcon_plain (undashed_of (by decide)) hy
  have hm : PoseSource.tf "/datasets/".toList "3_falcon_merged-2017-04-07-12-22-23.bag".toList "odom".toList
      "imu".toList ∈ configured [falconBag "1_falcon_merged-2017-04-07-12-16-44.bag".toList,
      falconBag "3_falcon_merged-2017-04-07-12-22-23.bag".toList] := by
    simp [configured, falconBag, sourcesOf]
  obtain ⟨t, h1, h2⟩ := ht _ hm (hw _ hm)
  exact ⟨fs', h, _, t, h1, h2⟩

/-- The numbers of `calib/target_55_165.yaml` survive if the two lengths are read as they were written. -/
example (str : ℝ → Text) (strtod : Text → Option ℝ) (h1 : strtod (str 0.055) = some 0.055) (h2 : strtod (str 0.0165) = some 0.0165) :
    ∃ flags, extractorFlagsOf strtod (extractorWords str "/data/-run 1.bag".toList (extractorConfig "/data/-run 1.bag".toList "-topic".toList "c.yaml".toList
      "o.csv".toList ⟨6, 6, 2, 0.055, 0.0165⟩)) = some flags ∧ flags.topic = "-topic".toList ∧ flags.april_target.april_tag_number_vertical = 6 := by
  obtain ⟨flags, h, _, ht, _, _, hy, _⟩ := C98_flags str strtod "/data/-run 1.bag".toList "-topic".toList "c.yaml".toList "o.csv".toList ⟨6, 6, 2, 0.055, 0.0165⟩
    ⟨by norm_num, by norm_num, by norm_num, h1, h2⟩
  exact ⟨flags, h, ht, by rw [hy]⟩

end HandEye
