import Verif.Model.ExportWords
import Verif.Lemmas.Csv
import Verif.Lemmas.Commands
import Verif.Spec.ExportWords
import Verif.Lemmas.Export
import Verif.Props.Commands

/-! # Lemmas about the words of the export -/

namespace HandEye

theorem parseDigits_natText (n : ℕ) : parseDigits (natText n) = some n := by
  unfold parseDigits
  rw [if_pos ⟨natText_ne_nil n, List.all_eq_true.mpr (natText_digits n)⟩]
  exact congrArg some (natText_value n)

theorem parseInt_natText (n : ℕ) : parseInt (natText n) = some (n : ℤ) := by
  obtain ⟨c, r, h⟩ := List.exists_cons_of_ne_nil (natText_ne_nil n)
  have hc : c.isDigit = true := natText_digits n c (by rw [h]; exact List.mem_cons_self)
  have : parseInt (c :: r) = (parseDigits (c :: r)).map fun n => (n : ℤ) := by
    unfold parseInt
    split
    · rename_i h'
      cases h'
      exact absurd hc (by decide)
    · rename_i h'
      cases h'
      exact absurd hc (by decide)
    · rfl
  rw [h, this, ← h, parseDigits_natText]
  rfl

theorem parseInt_intText (n : ℤ) : parseInt (intText n) = some n := by
  unfold intText
  split
  · have : parseInt ('-' :: natText n.natAbs) = some (-(n.natAbs : ℤ)) := by
      simp only [parseInt, parseDigits_natText]
      rfl
    rw [this]
    congr 1
    omega
  · rw [parseInt_natText]
    congr 1
    omega

theorem gflagsInt32_intText {n : ℤ} (h : -2 ^ 31 ≤ n ∧ n < 2 ^ 31) : gflagsInt32 (intText n) = some n := by
  unfold gflagsInt32
  rw [parseInt_intText, Option.bind_some, if_pos h]

theorem gflagsBool_text (b : Bool) : gflagsBool (pyBoolText b) = some b := by cases b <;> decide

/-- The flags that the words of `extractorWords` assign. -/
noncomputable def extractorAssigned (str : ℝ → Text) (bag_path : Text) (c : TargetExtractorConfig) : List (Text × Text) :=
  [("bag".toList, bag_path), ("topic".toList, c.topic), ("eval_camera_yaml".toList, c.calib_file_camera),
   ("draw_extraction".toList, pyBoolText c.draw_extraction),
   ("camera_pose_T_C_G_output_file".toList, c.camera_pose_T_C_G_output_file),
   ("camera_pose_T_C_G_output_file_timestamped".toList, c.camera_pose_T_C_G_output_file_timestamped)] ++
  (if c.alsologtostderr then [("alsologtostderr".toList, ['1'])] else []) ++
  [("write_csv_header".toList, pyBoolText c.write_csv_header),
   ("april_tag_number_vertical".toList, intText c.april_target.april_tag_number_vertical),
   ("april_tag_number_horizontal".toList, intText c.april_target.april_tag_number_horizontal),
   ("april_tag_size_m".toList, str c.april_target.april_tag_size_m),
   ("april_tag_pixel_boarder".toList, intText c.april_target.april_tag_number_pixel_boarder),
   ("april_tag_gap_size_m".toList, str c.april_target.april_tag_gap_size_m)]

theorem parse_extractorWords (str : ℝ → Text) (bag_path : Text) (c : TargetExtractorConfig) :
    parseFlagsBool extractorValueFlags extractorBoolFlags none (extractorWords str bag_path c) = some (extractorAssigned str bag_path c) := by
  have hd : ∀ (b : Bool) (r : List Text), parseFlagsBool extractorValueFlags extractorBoolFlags none (("--draw_extraction=".toList ++ pyBoolText b) :: r) =
      (parseFlagsBool extractorValueFlags extractorBoolFlags none r).map fun p => ("draw_extraction".toList, pyBoolText b) :: p := by
    intro b r
    cases b <;> rfl
  have hw : ∀ (b : Bool) (r : List Text), parseFlagsBool extractorValueFlags extractorBoolFlags none (("--write_csv_header=".toList ++ pyBoolText b) :: r) =
      (parseFlagsBool extractorValueFlags extractorBoolFlags none r).map fun p => ("write_csv_header".toList, pyBoolText b) :: p := by
    intro b r
    cases b <;> rfl
  have v : ∀ n ∈ extractorValueFlags, ∀ (t : Text) (r : List Text), parseFlagsBool extractorValueFlags extractorBoolFlags none (("--".toList ++ n) :: t :: r) =
      (parseFlagsBool extractorValueFlags extractorBoolFlags none r).map fun p => (n, t) :: p := by
    intro n hn t r
    unfold extractorValueFlags at hn
    simp only [List.mem_cons, List.not_mem_nil, or_false] at hn
    rcases hn with rfl | rfl | rfl | rfl | rfl | rfl | rfl | rfl | rfl | rfl | rfl | rfl | rfl <;> rfl
  unfold extractorWords extractorAssigned
  have tail : parseFlagsBool extractorValueFlags extractorBoolFlags none
      (("--write_csv_header=".toList ++ pyBoolText c.write_csv_header) ::
       "--april_tag_number_vertical".toList :: intText c.april_target.april_tag_number_vertical ::
       "--april_tag_number_horizontal".toList :: intText c.april_target.april_tag_number_horizontal ::
       "--april_tag_size_m".toList :: str c.april_target.april_tag_size_m ::
       "--april_tag_pixel_boarder".toList :: intText c.april_target.april_tag_number_pixel_boarder ::
       "--april_tag_gap_size_m".toList :: str c.april_target.april_tag_gap_size_m :: []) =
      some [("write_csv_header".toList, pyBoolText c.write_csv_header),
       ("april_tag_number_vertical".toList, intText c.april_target.april_tag_number_vertical),
       ("april_tag_number_horizontal".toList, intText c.april_target.april_tag_number_horizontal),
       ("april_tag_size_m".toList, str c.april_target.april_tag_size_m),
       ("april_tag_pixel_boarder".toList, intText c.april_target.april_tag_number_pixel_boarder),
       ("april_tag_gap_size_m".toList, str c.april_target.april_tag_gap_size_m)] := by
    rw [hw]
    rfl
  have start : ∀ r, parseFlagsBool extractorValueFlags extractorBoolFlags none
      ("--bag".toList :: bag_path :: "--topic".toList :: c.topic :: "--eval_camera_yaml".toList :: c.calib_file_camera ::
       ("--draw_extraction=".toList ++ pyBoolText c.draw_extraction) ::
       "--camera_pose_T_C_G_output_file".toList :: c.camera_pose_T_C_G_output_file ::
       "--camera_pose_T_C_G_output_file_timestamped".toList :: c.camera_pose_T_C_G_output_file_timestamped :: r) =
      (parseFlagsBool extractorValueFlags extractorBoolFlags none r).map fun p =>
        ("bag".toList, bag_path) :: ("topic".toList, c.topic) :: ("eval_camera_yaml".toList, c.calib_file_camera) ::
         ("draw_extraction".toList, pyBoolText c.draw_extraction) ::
         ("camera_pose_T_C_G_output_file".toList, c.camera_pose_T_C_G_output_file) ::
         ("camera_pose_T_C_G_output_file_timestamped".toList, c.camera_pose_T_C_G_output_file_timestamped) :: p := by
    intro r
    have e1 := v "bag".toList (by decide)
    have e2 := v "topic".toList (by decide)
    have e3 := v "eval_camera_yaml".toList (by decide)
    have e4 := v "camera_pose_T_C_G_output_file".toList (by decide)
    have e5 := v "camera_pose_T_C_G_output_file_timestamped".toList (by decide)
    refine (e1 _ _).trans ?_
    rw [show ∀ q, parseFlagsBool extractorValueFlags extractorBoolFlags none ("--topic".toList :: c.topic :: q) = _ from fun q => e2 _ q]
    rw [show ∀ q, parseFlagsBool extractorValueFlags extractorBoolFlags none ("--eval_camera_yaml".toList :: c.calib_file_camera :: q) = _ from fun q => e3 _ q, hd,
      show ∀ t q, parseFlagsBool extractorValueFlags extractorBoolFlags none ("--camera_pose_T_C_G_output_file".toList :: t :: q) = _ from fun t q => e4 t q,
      show ∀ t q, parseFlagsBool extractorValueFlags extractorBoolFlags none ("--camera_pose_T_C_G_output_file_timestamped".toList :: t :: q) = _ from fun t q => e5 t q]
    cases parseFlagsBool extractorValueFlags extractorBoolFlags none r <;> rfl
  cases c.alsologtostderr with
  | false =>
    simp only [Bool.false_eq_true, if_false, List.append_nil, List.cons_append, List.nil_append]
    rw [start, tail]
    rfl
  | true =>
    simp only [if_true, List.cons_append, List.nil_append]
    have hl : ∀ r, parseFlagsBool extractorValueFlags extractorBoolFlags none ("--alsologtostderr".toList :: r) =
      (parseFlagsBool extractorValueFlags extractorBoolFlags none r).map fun p => ("alsologtostderr".toList, ['1']) :: p := fun r => rfl
    rw [start, hl, tail]
    rfl

/-- The flags that arrive. -/
theorem extractorFlags_words (str : ℝ → Text) (strtod : Text → Option ℝ) (bag_path : Text) (c : TargetExtractorConfig)
    (hv : -2 ^ 31 ≤ c.april_target.april_tag_number_vertical ∧ c.april_target.april_tag_number_vertical < 2 ^ 31)
    (hh : -2 ^ 31 ≤ c.april_target.april_tag_number_horizontal ∧ c.april_target.april_tag_number_horizontal < 2 ^ 31)
    (hb : -2 ^ 31 ≤ c.april_target.april_tag_number_pixel_boarder ∧ c.april_target.april_tag_number_pixel_boarder < 2 ^ 31)
    (hs : strtod (str c.april_target.april_tag_size_m) = some c.april_target.april_tag_size_m)
    (hg : strtod (str c.april_target.april_tag_gap_size_m) = some c.april_target.april_tag_gap_size_m) :
    extractorFlagsOf strtod (extractorWords str bag_path c) = some (callTargetExtractor bag_path c) := by
  have hv := gflagsInt32_intText hv
  have hh := gflagsInt32_intText hh
  have hb := gflagsInt32_intText hb
  have h1 := gflagsBool_text c.draw_extraction
  have h2 := gflagsBool_text c.write_csv_header
  unfold extractorFlagsOf
  rw [parse_extractorWords]
  have e0 : ∀ d, flagWith some (extractorAssigned str bag_path c) "bag".toList d = some (bag_path) := by
    intro d; unfold extractorAssigned; cases c.alsologtostderr <;> rfl
  have e1 : ∀ d, flagWith some (extractorAssigned str bag_path c) "topic".toList d = some (c.topic) := by
    intro d; unfold extractorAssigned; cases c.alsologtostderr <;> rfl
  have e2 : ∀ d, flagWith gflagsBool (extractorAssigned str bag_path c) "draw_extraction".toList d = some (c.draw_extraction) := by
    intro d; rw [← h1]; unfold extractorAssigned; cases c.alsologtostderr <;> rfl
  have e3 : ∀ d, flagWith some (extractorAssigned str bag_path c) "eval_camera_yaml".toList d = some (c.calib_file_camera) := by
    intro d; unfold extractorAssigned; cases c.alsologtostderr <;> rfl
  have e4 : ∀ d, flagWith some (extractorAssigned str bag_path c) "camera_pose_T_C_G_output_file".toList d = some (c.camera_pose_T_C_G_output_file) := by
    intro d; unfold extractorAssigned; cases c.alsologtostderr <;> rfl
  have e5 : ∀ d, flagWith some (extractorAssigned str bag_path c) "camera_pose_T_C_G_output_file_timestamped".toList d = some (c.camera_pose_T_C_G_output_file_timestamped) := by
    intro d; unfold extractorAssigned; cases c.alsologtostderr <;> rfl
  have e6 : flagWith gflagsBool (extractorAssigned str bag_path c) "alsologtostderr".toList false = some c.alsologtostderr := by
    unfold extractorAssigned; cases c.alsologtostderr <;> rfl
  have e7 : flagWith gflagsBool (extractorAssigned str bag_path c) "output_position_in_mm".toList false = some false := by
    unfold extractorAssigned; cases c.alsologtostderr <;> rfl
  have e8 : ∀ d, flagWith gflagsBool (extractorAssigned str bag_path c) "write_csv_header".toList d = some (c.write_csv_header) := by
    intro d; rw [← h2]; unfold extractorAssigned; cases c.alsologtostderr <;> rfl
  have e9 : flagWith strtod (extractorAssigned str bag_path c) "inlier_ratio_for_good_camera_pose".toList 0.4 = some (0.4 : ℝ) := by
    unfold extractorAssigned; cases c.alsologtostderr <;> rfl
  have e10 : ∀ d, flagWith gflagsInt32 (extractorAssigned str bag_path c) "april_tag_number_vertical".toList d = some (c.april_target.april_tag_number_vertical) := by
    intro d; rw [← hv]; unfold extractorAssigned; cases c.alsologtostderr <;> rfl
  have e11 : ∀ d, flagWith gflagsInt32 (extractorAssigned str bag_path c) "april_tag_number_horizontal".toList d = some (c.april_target.april_tag_number_horizontal) := by
    intro d; rw [← hh]; unfold extractorAssigned; cases c.alsologtostderr <;> rfl
  have e12 : ∀ d, flagWith gflagsInt32 (extractorAssigned str bag_path c) "april_tag_pixel_boarder".toList d = some (c.april_target.april_tag_number_pixel_boarder) := by
    intro d; rw [← hb]; unfold extractorAssigned; cases c.alsologtostderr <;> rfl
  have e13 : ∀ d, flagWith strtod (extractorAssigned str bag_path c) "april_tag_size_m".toList d = some (c.april_target.april_tag_size_m) := by
    intro d; rw [← hs]; unfold extractorAssigned; cases c.alsologtostderr <;> rfl
  have e14 : ∀ d, flagWith strtod (extractorAssigned str bag_path c) "april_tag_gap_size_m".toList d = some (c.april_target.april_tag_gap_size_m) := by
    intro d; rw [← hg]; unfold extractorAssigned; cases c.alsologtostderr <;> rfl
  refine Option.bind_eq_some_iff.mpr ⟨_, rfl, ?_⟩
  refine Option.bind_eq_some_iff.mpr ⟨_, e0 _, ?_⟩
  refine Option.bind_eq_some_iff.mpr ⟨_, e1 _, ?_⟩
  refine Option.bind_eq_some_iff.mpr ⟨_, e2 _, ?_⟩
  refine Option.bind_eq_some_iff.mpr ⟨_, e3 _, ?_⟩
  refine Option.bind_eq_some_iff.mpr ⟨_, e4 _, ?_⟩
  refine Option.bind_eq_some_iff.mpr ⟨_, e5 _, ?_⟩
  refine Option.bind_eq_some_iff.mpr ⟨_, e6, ?_⟩
  refine Option.bind_eq_some_iff.mpr ⟨_, e7, ?_⟩
  refine Option.bind_eq_some_iff.mpr ⟨_, e8 _, ?_⟩
  refine Option.bind_eq_some_iff.mpr ⟨_, e9, ?_⟩
  refine Option.bind_eq_some_iff.mpr ⟨_, e10 _, ?_⟩
  refine Option.bind_eq_some_iff.mpr ⟨_, e11 _, ?_⟩
  refine Option.bind_eq_some_iff.mpr ⟨_, e12 _, ?_⟩
  refine Option.bind_eq_some_iff.mpr ⟨_, e13 _, ?_⟩
  refine Option.bind_eq_some_iff.mpr ⟨_, e14 _, ?_⟩
  rfl

open Spec

/-- Every call is the call of a source of the configuration. -/
theorem exportCalls_configured {bags : List BagEntry} {c : ToolCall} (hc : c ∈ (exportCalls bags).1) : ∃ s ∈ configured bags, c = sourceCall s := by
  have hb : ∀ b : BagEntry, c ∈ (bagCalls b).1 → ∃ s ∈ sourcesOf b, c = sourceCall s := by
    intro b hc
    unfold bagCalls at hc
    by_cases hf : ∀ f, b.tf_frames = some f → f.source.length = f.target.length
    · rw [tfCalls_ok b hf] at hc
      by_cases hg : ∀ c, b.cameras = some c → c.cam_topics.length = c.cam_intrinsics.length
      · have := bagCalls_ok b ⟨hf, hg⟩
        unfold bagCalls at this
        rw [tfCalls_ok b hf] at this
        rw [this] at hc
        obtain ⟨s, hs, rfl⟩ := List.mem_map.mp hc
        exact ⟨s, hs, rfl⟩
      · have he : cameraCalls b = .error .assertion := by
          push Not at hg
          obtain ⟨d, hd, hne⟩ := hg
          unfold cameraCalls
          simp only [hd, pyAssert_neg hne, Py.error_bind]
        rw [he] at hc
        obtain ⟨s, hs, rfl⟩ := List.mem_map.mp hc
        exact ⟨s, List.mem_append_left _ hs, rfl⟩
    · push Not at hf
      obtain ⟨d, hd, hne⟩ := hf
      have he : tfCalls b = .error .assertion := by
        unfold tfCalls
        simp only [hd, pyAssert_neg hne, Py.error_bind]
      rw [he] at hc
      cases hc
  induction bags with
  | nil => simp [exportCalls] at hc
  | cons b bs ih =>
    have h1 := hb b
    unfold exportCalls at hc
    rcases h : bagCalls b with ⟨cs, _ | e⟩
    · rw [h] at h1 hc
      simp only [List.mem_append] at hc
      rcases hc with hc | hc
      · obtain ⟨s, hs, e⟩ := h1 hc
        exact ⟨s, List.mem_flatMap.mpr ⟨b, List.mem_cons_self, hs⟩, e⟩
      · obtain ⟨s, hs, e⟩ := ih hc
        obtain ⟨b', hb', hs⟩ := List.mem_flatMap.mp hs
        exact ⟨s, List.mem_flatMap.mpr ⟨b', List.mem_cons_of_mem _ hb', hs⟩, e⟩
    · rw [h] at h1 hc
      obtain ⟨s, hs, e⟩ := h1 hc
      exact ⟨s, List.mem_flatMap.mpr ⟨b, List.mem_cons_self, hs⟩, e⟩

/-- The name of a table begins with the name of the bag or with an underscore. -/
theorem noDash_output {name : Text} (h : NoDash name) (r : Text) : NoDash (bagNameWithoutSuffix name ++ '_' :: r) := by
  have e : bagNameWithoutSuffix name = stem name := bagNameWithoutSuffix_eq name
  rw [e]
  unfold stem
  cases name with
  | nil => intro c hc; simp at hc; subst hc; decide
  | cons a n =>
    by_cases ha : a = '.'
    · subst ha
      intro c hc
      simp at hc
      subst hc
      decide
    · intro c hc
      rw [List.takeWhile_cons_of_pos (by simpa using ha)] at hc
      exact h c hc

theorem interfaceSpecs_ok : ((interfaceSpecs.map ArgSpec.name).Nodup ∧ ∀ s ∈ interfaceSpecs, s.name.head? = some '-' ∧ '=' ∉ s.name) ∧
    (tfToCsvSpecs.map ArgSpec.name).Nodup ∧ ∀ s ∈ tfToCsvSpecs, s.name.head? = some '-' ∧ '=' ∉ s.name := by
  decide

/-- The words of `tf_to_csv.py` are read as they are meant. -/
theorem parse_tf (b s t o : Text) (hv : ∀ x ∈ [b, s, t, o], NoDash x) :
    parseArgs tfToCsvSpecs ["--bag".toList, b, "--tf_source_frame".toList, s, "--tf_target_frame".toList, t, "--csv_output_file".toList, o] =
      some [("--bag".toList, .str b), ("--tf_source_frame".toList, .str s), ("--tf_target_frame".toList, .str t), ("--csv_output_file".toList, .str o)] :=
  parse_words tfToCsvSpecs interfaceSpecs_ok.2.1 interfaceSpecs_ok.2.2
    ["--bag".toList, "--tf_source_frame".toList, "--tf_target_frame".toList, "--csv_output_file".toList]
    (by decide) (by decide) (by decide) [b, s, t, o] rfl hv

/-- The words of `target_extractor_interface.py` are read as they are meant. -/
theorem parse_interface (b x i g o : Text) (hv : ∀ t ∈ [b, x, i, g, o], NoDash t) :
    parseArgs interfaceSpecs ["--bag".toList, b, "--image_topic".toList, x, "--calib_file_camera".toList, i, "--calib_file_target".toList, g,
      "--output_file".toList, o] =
      some [("--bag".toList, .str b), ("--calib_file_camera".toList, .str i), ("--calib_file_target".toList, .str g), ("--image_topic".toList, .str x),
        ("--output_file".toList, .str o)] :=
  parse_words interfaceSpecs interfaceSpecs_ok.1.1 interfaceSpecs_ok.1.2
    ["--bag".toList, "--image_topic".toList, "--calib_file_camera".toList, "--calib_file_target".toList, "--output_file".toList]
    (by decide) (by decide) (by decide) [b, x, i, g, o] rfl hv

/-- A call of a source is run as it is meant. -/
theorem runWords_source {τ : Type} (str : ℝ → Text) (strtod : Text → Option ℝ) (w : ExportWorld τ) (fs : FileTable τ) (s : PoseSource) (hs : Undashed s)
    (hy : ∀ file y, w.read_target file = some y → Survives str strtod y) :
    runWords str strtod w fs (sourceCall s) = runCall w fs (sourceCall s) := by
  cases s with
  | tf p n x y =>
    obtain ⟨h1, h2, h3, h4⟩ := hs
    have ho : NoDash (tfOutputFile n y x) := by
      have := noDash_output h2 (y ++ ['_'] ++ x ++ ['.', 'c', 's', 'v'])
      simpa [tfOutputFile] using this
    have hp := parse_tf (p ++ n) x y (tfOutputFile n y x) (by simp [h1, h3, h4, ho])
    show (tfToCsvMain w ["--bag".toList, p ++ n, "--tf_source_frame".toList, x, "--tf_target_frame".toList, y, "--csv_output_file".toList, tfOutputFile n y x] fs).getD fs =
      (runTfToCsv w (sourceCall (.tf p n x y)) fs).getD fs
    unfold tfToCsvMain
    rw [hp]
    rfl
  | camera p n x i g =>
    obtain ⟨h1, h2, h3, h4, h5⟩ := hs
    have ho : NoDash (cameraOutputFile n x) := by
      have := noDash_output h2 (['W', '_'] ++ topicText x ++ ['.', 'c', 's', 'v'])
      simpa [cameraOutputFile] using this
    have hp := parse_interface (p ++ n) x i g (cameraOutputFile n x) (by simp [h1, h3, h4, h5, ho])
    show (interfaceMain str strtod w ["--bag".toList, p ++ n, "--image_topic".toList, x, "--calib_file_camera".toList, i, "--calib_file_target".toList, g,
      "--output_file".toList, cameraOutputFile n x] fs).getD fs = (runTargetExtractor w (sourceCall (.camera p n x i g)) fs).getD fs
    unfold interfaceMain
    rw [hp]
    show (Option.bind (w.read_target g) fun y => Option.bind (extractorFlagsOf strtod (extractorWords str (p ++ n) (extractorConfig (p ++ n) x i (cameraOutputFile n x) y))) fun flags =>
        Option.bind (w.target_extractor flags) fun tables => some ((fs.write flags.camera_pose_T_C_G_output_file tables.1).write flags.camera_pose_T_C_G_output_file_timestamped tables.2)).getD fs =
      (Option.bind (w.read_target g) fun y => Option.bind (w.target_extractor (callTargetExtractor (p ++ n) (extractorConfig (p ++ n) x i (cameraOutputFile n x) y))) fun tables =>
        some ((fs.write (sequencedPrefix ++ cameraOutputFile n x) tables.1).write (cameraOutputFile n x) tables.2)).getD fs
    cases hr : w.read_target g with
    | none => rfl
    | some y =>
      have := hy g y hr
      rw [Option.bind_some, Option.bind_some, extractorFlags_words str strtod (p ++ n) _ this.vertical this.horizontal this.boarder this.size this.gap]
      rfl

theorem flagName_dashes (n : Text) (hn : '=' ∉ n) : flagName ("--".toList ++ n) = n := by
  show n.takeWhile (· ≠ '=') = n
  have h := List.takeWhile_append_of_pos (p := fun c => decide (c ≠ '=')) (l₁ := n) (l₂ := []) (by intro c hc; simpa using fun e : c = '=' => hn (e ▸ hc))
  simpa only [List.append_nil, List.takeWhile_nil] using h

theorem flagName_equals (n v : Text) (hn : '=' ∉ n) : flagName ("--".toList ++ n ++ '=' :: v) = n := by
  show (n ++ '=' :: v).takeWhile (· ≠ '=') = n
  rw [List.takeWhile_append_of_pos (by intro c hc; simpa using fun e : c = '=' => hn (e ▸ hc))]
  simp

theorem flagValue_dashes (n : Text) (hn : '=' ∉ n) : flagValue ("--".toList ++ n) = none := by
  unfold flagValue
  rw [if_neg]
  simpa using hn

theorem flagValue_equals (n v : Text) (hn : '=' ∉ n) : flagValue ("--".toList ++ n ++ '=' :: v) = some v := by
  unfold flagValue
  rw [if_pos (by simp)]
  have : ∀ c ∈ "--".toList ++ n, decide (c ≠ '=') = true := by
    intro c hc
    rcases List.mem_append.mp hc with h | h
    · have : c = '-' := by simpa using h
      subst this
      decide
    · simpa using fun e : c = '=' => hn (e ▸ h)
  rw [List.dropWhile_append_of_pos this]
  simp

theorem dashes_ne {n r : Text} (hn : n ≠ []) : ¬ (("--".toList ++ n ++ r).head? ≠ some '-' ∨ "--".toList ++ n ++ r = ['-']) ∧ "--".toList ++ n ++ r ≠ "--".toList := by
  refine ⟨by simp, fun h => hn ?_⟩
  have : n ++ r = [] := by simpa using h
  exact (List.append_eq_nil_iff.mp this).1

/-- One flag. -/
theorem parseFlagsBool_given (values bools : List Text) (hn : ∀ n, n ∈ values ∨ n ∈ bools → n ≠ [] ∧ '=' ∉ n) (hd : ∀ n ∈ values, n ∉ bools)
    (g : FlagGiven) (hg : g.Known values bools) (r : List Text) :
    parseFlagsBool values bools none (g.words ++ r) = (parseFlagsBool values bools none r).map fun p => g.meaning :: p := by
  cases g with
  | separate n v =>
    have hk : n ∈ values := hg
    obtain ⟨h0, h1⟩ := hn n (.inl hk)
    have hne := dashes_ne (r := []) h0
    rw [List.append_nil] at hne
    show parseFlagsBool values bools none (("--".toList ++ n) :: v :: r) = _
    rw [parseFlagsBool, if_neg hne.1, if_neg hne.2, flagName_dashes n h1, if_neg (hd n hk), if_pos hk, flagValue_dashes n h1]
    dsimp only
    rw [parseFlagsBool]
    rfl
  | joined n v =>
    obtain ⟨h0, h1⟩ := hn n hg
    have hne := dashes_ne (r := '=' :: v) h0
    show parseFlagsBool values bools none (("--".toList ++ n ++ '=' :: v) :: r) = _
    rw [parseFlagsBool, if_neg hne.1, if_neg hne.2, flagName_equals n v h1, flagValue_equals n v h1]
    by_cases hb : n ∈ bools
    · rw [if_pos hb]; rfl
    · have hk : n ∈ values := hg.resolve_right hb
      rw [if_neg hb, if_pos hk]; rfl
  | on n =>
    have hk : n ∈ bools := hg
    obtain ⟨h0, h1⟩ := hn n (.inr hk)
    have hne := dashes_ne (r := []) h0
    rw [List.append_nil] at hne
    show parseFlagsBool values bools none (("--".toList ++ n) :: r) = _
    rw [parseFlagsBool, if_neg hne.1, if_neg hne.2, flagName_dashes n h1, if_pos hk, flagValue_dashes n h1]
    rfl
  | off n =>
    obtain ⟨hk, hv, hb⟩ := hg
    obtain ⟨h0, h1⟩ := hn n (.inr hk)
    have h2 : '=' ∉ "no".toList ++ n := by simpa using h1
    have hne := dashes_ne (n := "no".toList ++ n) (r := []) (by simp)
    rw [List.append_nil] at hne
    show parseFlagsBool values bools none (("--".toList ++ ("no".toList ++ n)) :: r) = _
    rw [parseFlagsBool, if_neg hne.1, if_neg hne.2, flagName_dashes _ h2, if_neg hb, if_neg hv, flagValue_dashes _ h2,
      if_pos ⟨by simp, by simpa using hk, rfl⟩]
    rfl

theorem parseFlagsBool_givens (values bools : List Text) (hn : ∀ n, n ∈ values ∨ n ∈ bools → n ≠ [] ∧ '=' ∉ n) (hd : ∀ n ∈ values, n ∉ bools)
    (l : List FlagGiven) (hl : ∀ g ∈ l, g.Known values bools) (r : List Text) :
    parseFlagsBool values bools none (l.flatMap FlagGiven.words ++ r) = (parseFlagsBool values bools none r).map fun p => l.map FlagGiven.meaning ++ p := by
  induction l with
  | nil => simp
  | cons g l ih =>
    rw [List.flatMap_cons, List.append_assoc, parseFlagsBool_given values bools hn hd g (hl g List.mem_cons_self),
      ih fun g hg => hl g (List.mem_cons_of_mem _ hg), Option.map_map]
    rfl

theorem extractorFlags_distinct : (∀ n, n ∈ extractorValueFlags ∨ n ∈ extractorBoolFlags → n ≠ [] ∧ '=' ∉ n) ∧ ∀ n ∈ extractorValueFlags, n ∉ extractorBoolFlags := by
  refine ⟨?_, by decide⟩
  have h1 : ∀ n ∈ extractorValueFlags, n ≠ [] ∧ '=' ∉ n := by decide
  have h2 : ∀ n ∈ extractorBoolFlags, n ≠ [] ∧ '=' ∉ n := by decide
  exact fun n hn => hn.elim (h1 n) (h2 n)

end HandEye
