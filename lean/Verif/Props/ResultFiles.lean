import Verif.Props.Results
import Verif.Lemmas.Csv

/-! # C67 and C68: names of the algorithms, and reading result files -/

namespace HandEye

open Spec

/-! ## C67 -/

/-- What a short name says: prefiltering is marked by `PF` at the front (after `S_` for a spoiled initial guess),
optimization by `O` at the end. -/
def saysPrefilter (short : String) : Bool :=
  "PF_".toList.isPrefixOf short.toList || "S_PF_".toList.isPrefixOf short.toList

def saysOptimization (short : String) : Bool := "_O".toList.isSuffixOf short.toList

/-- All configurations of the experiments have different names, which `collect_data_from_csv` knows, under short
names that say whether the poses are prefiltered and the result optimized. -/
theorem C67_names :
    ((getAllConfigs ++ [spoiledConfig]).map (·.algorithm_name)).Nodup ∧
    ∀ c ∈ getAllConfigs ++ [spoiledConfig], ∃ short, methodName c.algorithm_name = .ok short ∧
      saysPrefilter short = c.config.prefilter_poses_enabled ∧ saysOptimization short = c.enable_optimization := by
  have hnames : (getAllConfigs ++ [spoiledConfig]).map (·.algorithm_name) =
      ["baseline_filter_opt", "baseline_no_filter_opt", "baseline_filter_no_opt", "baseline_no_filter_no_opt",
       "RC_filter_no_opt", "RC_no_filter_no_opt", "RC_filter_opt", "RC_no_filter_opt",
       "RS_filter_no_opt", "RS_no_filter_no_opt", "RS_filter_opt", "RS_no_filter_opt",
       "EC_no_opt", "EC_opt", "ES_no_opt", "ES_opt", "optimization_w_spoiled_init_calibration"] := rfl
  refine ⟨by rw [hnames]; decide, ?_⟩
  intro c hc
  simp only [getAllConfigs, List.cons_append, List.nil_append, List.mem_cons, List.not_mem_nil, or_false] at hc
  rcases hc with rfl | rfl | rfl | rfl | rfl | rfl | rfl | rfl | rfl | rfl | rfl | rfl | rfl | rfl | rfl | rfl | rfl
  · exact ⟨"PF_B_O", rfl, by decide, by decide⟩
  · exact ⟨"B_O", rfl, by decide, by decide⟩
  · exact ⟨"PF_B", rfl, by decide, by decide⟩
  · exact ⟨"B", rfl, by decide, by decide⟩
  · exact ⟨"PF_RC", rfl, by decide, by decide⟩
  · exact ⟨"RC", rfl, by decide, by decide⟩
  · exact ⟨"PF_RC_O", rfl, by decide, by decide⟩
  · exact ⟨"RC_O", rfl, by decide, by decide⟩
  · exact ⟨"PF_RS", rfl, by decide, by decide⟩
  · exact ⟨"RS", rfl, by decide, by decide⟩
  · exact ⟨"PF_RS_O", rfl, by decide, by decide⟩
  · exact ⟨"RS_O", rfl, by decide, by decide⟩
  · exact ⟨"PF_EC", rfl, by decide, by decide⟩
  · exact ⟨"PF_EC_O", rfl, by decide, by decide⟩
  · exact ⟨"PF_ES", rfl, by decide, by decide⟩
  · exact ⟨"PF_ES_O", rfl, by decide, by decide⟩
  · exact ⟨"S_PF_ES_O", rfl, by decide, by decide⟩

/-! ## C68 -/

theorem splitChar_eq (c : Char) (s : List Char) : splitChar c s = s.splitOn c := by
  induction s with
  | nil => simp [splitChar]
  | cons x l ih =>
    rw [List.splitOn_cons_eq_if_modifyHead, splitChar]
    by_cases h : x = c
    · subst h
      simp [ih]
    · have : (x == c) = false := by simpa using h
      rw [if_neg h, this, ih]
      cases hs : l.splitOn c with
      | nil => exact absurd hs (List.splitOn_ne_nil c l)
      | cons a b => simp

/-- The columns that are expected are those of the header and one more. -/
theorem C68_header : cells resultHeader.dropLast = (expectedColumns.map String.toList).dropLast ∧
    (cells resultHeader.dropLast).length + 1 = expectedColumns.length := by
  rw [cells_header]
  decide

/-- The files that the experiments write cannot be read: if all lines are lines of results without commas in their
values, and there is at least one, then reading them is a ValueError. -/
theorem C68_refuted (files : List (List (List Char)))
    (hlines : ∀ lines ∈ files, ∀ line ∈ lines, ∃ (r : ResultEntry) (i : ℕ) (fields : List (List Char)),
      r.fields i = .ok fields ∧ (∀ f ∈ fields, ',' ∉ f) ∧ r.csvLine i = .ok (line ++ ['\n']))
    (hne : ∃ lines ∈ files, lines ≠ []) : readResultFiles files = .error .value := by
  have hlen : ∀ lines ∈ files, ∀ line ∈ lines, (splitChar ',' line).length = 23 := by
    intro lines hl line hline
    obtain ⟨r, i, fields, hf, hc, hcsv⟩ := hlines lines hl line hline
    unfold ResultEntry.csvLine at hcsv
    rw [hf, Py.ok_bind, Py.pure_eq] at hcsv
    have he : joinFields fields = line := by
      have := Except.ok.inj hcsv
      exact List.append_cancel_right this
    have h23 := (fields_ok hf).1
    rw [splitChar_eq, ← he]
    have := cells_join fields (by rintro rfl; simp at h23) hc
    unfold cells at this
    rw [this, h23]
  have hgen : ∀ lines ∈ files, genfromtxtRows expectedColumns.length lines =
      if lines = [] then .ok [] else .error .value := by
    intro lines hl
    unfold genfromtxtRows
    cases lines with
    | nil => simp
    | cons line lines =>
      rw [if_neg, if_neg (by simp)]
      intro h
      have h1 := h line (by simp)
      rw [hlen _ hl line (by simp)] at h1
      revert h1
      decide
  obtain ⟨lines, hl, hnl⟩ := hne
  match files with
  | [] => cases hl
  | [f] =>
    have : lines = f := by simpa using hl
    subst this
    unfold readResultFiles
    dsimp only
    rw [hgen lines (by simp), if_neg hnl]
    rfl
  | f :: g :: files =>
    unfold readResultFiles
    dsimp only
    have key : ∀ fs : List (List (List Char)), (∀ l ∈ fs, genfromtxtRows expectedColumns.length l =
        if l = [] then .ok [] else .error .value) → (∃ l ∈ fs, l ≠ []) →
        fs.mapM (genfromtxtRows expectedColumns.length) = .error .value := by
      intro fs
      induction fs with
      | nil => rintro _ ⟨l, hl, _⟩; cases hl
      | cons l fs ih =>
        rintro h ⟨k, hk, hkn⟩
        rw [List.mapM_cons, h l (by simp)]
        by_cases hln : l = []
        · rw [if_pos hln, Py.ok_bind, ih (fun x hx => h x (List.mem_cons_of_mem _ hx))]
          · rfl
          · rcases List.mem_cons.mp hk with rfl | hk
            · exact absurd hln hkn
            · exact ⟨k, hk, hkn⟩
        · rw [if_neg hln]; rfl
    rw [key _ hgen ⟨lines, hl, hnl⟩]
    rfl

/-- Even with the missing column added, a single file with a single row cannot be read. -/
theorem C68_single_refuted (line : List Char) (h : (cells line).length = expectedColumns.length) :
    readResultFiles [[line]] = .error .type := by
  unfold readResultFiles genfromtxtRows
  dsimp only
  rw [if_pos (by simpa [splitChar_eq, cells] using h)]
  rfl

/-- With the missing column added to all lines (of two files or more, or of one file with more than one line), the
rows are the cells of the lines, in the order of files and lines. -/
theorem C68_dataset_partial (files : List (List (List Char))) (hne : files ≠ [])
    (h : ∀ lines ∈ files, ∀ line ∈ lines, (cells line).length = expectedColumns.length)
    (hmany : files.length = 1 → files.flatten.length ≠ 1) :
    readResultFiles files = .ok (files.flatten.map cells) := by
  have hs : splitChar ',' = cells := by
    funext line
    exact splitChar_eq ',' line
  have hgen : ∀ lines ∈ files, genfromtxtRows expectedColumns.length lines = .ok (lines.map cells) := by
    intro lines hl
    unfold genfromtxtRows
    rw [hs, if_pos (h lines hl)]
  match files with
  | [] => exact absurd rfl hne
  | [f] =>
    unfold readResultFiles
    dsimp only
    have := hmany rfl
    rw [hgen f (by simp), Py.ok_bind, if_neg (by simpa using this)]
    simp
  | f :: g :: files =>
    unfold readResultFiles
    dsimp only
    have key : ∀ fs : List (List (List Char)), (∀ l ∈ fs, genfromtxtRows expectedColumns.length l =
        .ok (l.map cells)) → fs.mapM (genfromtxtRows expectedColumns.length) = .ok (fs.map (·.map cells)) := by
      intro fs
      induction fs with
      | nil => intro _; rfl
      | cons l fs ih =>
        intro h
        rw [List.mapM_cons, h l (by simp), Py.ok_bind, ih fun x hx => h x (List.mem_cons_of_mem _ hx)]
        rfl
    rw [key _ hgen, Py.ok_bind, Py.pure_eq, List.map_flatten]

/-- A line of the sample entry is a line that cannot be read. -/
example : ∃ line, (sampleEntry.initFromConfigs 0 spoiledConfig).csvLine 0 = .ok (line ++ ['\n']) ∧
    readResultFiles [[line]] = .error .value := by
  refine ⟨_, rfl, ?_⟩
  refine C68_refuted _ ?_ ⟨_, List.mem_singleton.mpr rfl, by simp⟩
  intro lines hl line hline
  obtain rfl := List.mem_singleton.mp hl
  obtain rfl := List.mem_singleton.mp hline
  refine ⟨sampleEntry.initFromConfigs 0 spoiledConfig, 0, _, rfl, ?_, rfl⟩
  simp [sampleEntry, ResultEntry.initFromConfigs, spoiledConfig, natText, boolText, optionText]

end HandEye
