import Verif.Model.Experiments
import Verif.Lemmas.Csv
import Verif.Lemmas.Py
import Verif.Spec.Experiments

/-!
# C58: experiment results record the configuration that was run

They do, except for the prefiltering column, which always says `False`.
-/

namespace HandEye

open Spec

theorem cells_join (fields : List (List Char)) (hne : fields ≠ []) (h : ∀ f ∈ fields, ',' ∉ f) :
    cells (joinFields fields) = fields := by
  induction fields with
  | nil => exact absurd rfl hne
  | cons f l ih =>
    cases l with
    | nil => exact List.splitOn_eq_singleton (h f List.mem_cons_self)
    | cons g l =>
      unfold cells at ih ⊢
      rw [joinFields, List.splitOn_append_cons_self_of_not_mem (h f List.mem_cons_self),
        ih (by simp) fun x hx => h x (List.mem_cons_of_mem _ hx)]

theorem cells_length (s : List Char) : (cells s).length = s.count ',' + 1 := by
  unfold cells
  induction s with
  | nil => simp
  | cons x l ih =>
    rw [List.splitOn_cons_eq_if_modifyHead]
    by_cases h : x = ','
    · subst h
      simp [ih]
    · have : (x == ',') = false := by simpa using h
      simp [this, ih, List.count_cons]

/-- The columns of the result files. -/
def headerNames : List String :=
  ["algorithm_name", "num_pose_pairs", "iteration_num", "prefiltering", "poses_B_H_csv_file", "poses_W_E_csv_file",
   "success", "position_rmse", "orientation_rmse", "num_inliers", "num_input_poses", "num_posesafter_filtering",
   "runtime_s", "loop_error_position_m", "loop_error_orientation_deg", "singular_values", "bad_singular_values",
   "optimization_enabled", "optimization_success", "optimization_runtime_s", "spoiled_initial_guess_angle_offset",
   "spoiled_initial_guess_translation_offset", "spoiled_initial_guess_time_offset"]

set_option maxRecDepth 10000 in
theorem resultHeader_eq : resultHeader = joinFields (headerNames.map String.toList) ++ ['\n'] := by
  decide +kernel

theorem cells_header : cells resultHeader.dropLast = headerNames.map String.toList := by
  rw [resultHeader_eq, List.dropLast_concat, cells_join _ (by simp [headerNames])]
  decide +kernel

theorem headerNames_nodup : (headerNames.map String.toList).Nodup := by decide +kernel

theorem lookup_zip {α β : Type} [BEq α] [LawfulBEq α] (keys : List α) (vals : List β) (hn : keys.Nodup) (i : ℕ)
    (hi : i < keys.length) : (keys.zip vals).lookup keys[i] = vals[i]? := by
  induction keys generalizing vals i with
  | nil => simp at hi
  | cons k keys ih =>
    cases vals with
    | nil => simp
    | cons v vals =>
      cases i with
      | zero => simp
      | succ i =>
        have hne : (keys[i]'(by simpa using hi)) ≠ k := by
          intro he
          exact (List.nodup_cons.mp hn).1 (he ▸ List.getElem_mem _)
        rw [List.zip_cons_cons, List.getElem_cons_succ, List.lookup_cons]
        have : ((keys[i]'(by simpa using hi)) == k) = false := by simpa using hne
        rw [this, List.getElem?_cons_succ]
        exact ih vals (List.nodup_cons.mp hn).2 i (by simpa using hi)

/-- The cell in the `i`-th column. -/
theorem column_eq (line : List Char) (i : ℕ) (hi : i < headerNames.length) :
    column resultHeader line headerNames[i] = (cells line.dropLast)[i]? := by
  unfold column
  rw [cells_header]
  have := lookup_zip (headerNames.map String.toList) (cells line.dropLast) headerNames_nodup i (by simpa using hi)
  rw [List.getElem_map] at this
  exact this

/-- A record whose lists have the checked length has a line for each of its pose pairs. -/
theorem C58_writes (r : ResultEntry) (n i : ℕ) (h : r.checkLength n = .ok ()) (hi : i < n) :
    ∃ line, r.csvLine i = .ok line := by
  unfold ResultEntry.checkLength at h
  have a : ∀ (p : Prop) [Decidable p] (k : Py Unit), (pyAssert p >>= fun _ => k) = .ok () → p ∧ k = .ok () := by
    intro p _ k hk
    by_cases hp : p
    · rw [pyAssert_pos hp] at hk; exact ⟨hp, hk⟩
    · rw [pyAssert_neg hp] at hk; cases hk
  have b : ∀ {α : Type} (l : List α), l.length = n → ∃ x, pyAt l i = .ok x := by
    intro α l hl
    refine ⟨l[i]'(by omega), ?_⟩
    unfold pyAt
    rw [List.getElem?_eq_getElem (by omega)]
  obtain ⟨h1, h⟩ := a _ _ h
  obtain ⟨h2, h⟩ := a _ _ h
  obtain ⟨h3, h⟩ := a _ _ h
  obtain ⟨h4, h⟩ := a _ _ h
  obtain ⟨h5, h⟩ := a _ _ h
  obtain ⟨h6, h⟩ := a _ _ h
  obtain ⟨h7, h⟩ := a _ _ h
  obtain ⟨h8, h⟩ := a _ _ h
  obtain ⟨h9, h⟩ := a _ _ h
  obtain ⟨h10, h⟩ := a _ _ h
  obtain ⟨h11, h⟩ := a _ _ h
  obtain ⟨h12, h⟩ := a _ _ h
  obtain ⟨h13, h⟩ := a _ _ h
  have h14 : r.spoiled_initial_guess_time_offset.length = n := by
    by_contra hp
    rw [pyAssert_neg hp] at h; cases h
  obtain ⟨x1, e1⟩ := b _ h1
  obtain ⟨x2, e2⟩ := b _ h2
  obtain ⟨x3, e3⟩ := b _ h3
  obtain ⟨x4, e4⟩ := b _ h4
  obtain ⟨x5, e5⟩ := b _ h5
  obtain ⟨x6, e6⟩ := b _ h6
  obtain ⟨x7, e7⟩ := b _ h7
  obtain ⟨x8, e8⟩ := b _ h8
  obtain ⟨x9, e9⟩ := b _ h9
  obtain ⟨x10, e10⟩ := b _ h10
  obtain ⟨x11, e11⟩ := b _ h11
  obtain ⟨x12, e12⟩ := b _ h12
  obtain ⟨x13, e13⟩ := b _ h13
  obtain ⟨x14, e14⟩ := b _ h14
  unfold ResultEntry.csvLine ResultEntry.fields
  rw [e1, e2, e3, e4, e5, e6, e7, e8, e9, e10, e11, e12, e13, e14]
  exact ⟨_, rfl⟩

theorem fields_ok {r : ResultEntry} {i : ℕ} {fields : List (List Char)} (h : r.fields i = .ok fields) :
    fields.length = 23 ∧ fields[0]? = some r.algorithm_name ∧ fields[1]? = some (natText i) ∧
    fields[2]? = some r.iteration_num ∧ fields[3]? = some (boolText r.prefiltering_enabled) ∧
    (∃ names, r.dataset_names[i]? = some names ∧ fields[4]? = some names.1 ∧ fields[5]? = some names.2) ∧
    (∃ b, r.success[i]? = some b ∧ fields[6]? = some (boolText b)) ∧
    (∃ e, r.rmse[i]? = some e ∧ fields[7]? = some e.1 ∧ fields[8]? = some e.2) ∧
    (∃ b, r.bad_singular_value[i]? = some b ∧ fields[16]? = some (boolText b)) ∧
    fields[17]? = some (boolText r.optimization_enabled) ∧
    (∃ b, r.optimization_success[i]? = some b ∧ fields[18]? = some (boolText b)) ∧
    fields[9]? = r.num_inliers[i]? ∧ fields[10]? = r.num_initial_poses[i]? ∧ fields[11]? = r.num_poses_kept[i]? ∧
    fields[12]? = r.runtimes[i]? ∧ fields[13]? = some r.loop_error_position ∧ fields[14]? = some r.loop_error_orientation ∧
    (∃ v, r.singular_values[i]? = some v ∧ fields[15]? = some (v.getD [])) ∧
    fields[19]? = r.optimization_runtime[i]? ∧ fields[20]? = r.spoiled_initial_guess_angle_offset[i]? ∧
    (∃ v, r.spoiled_initial_guess_translation_offset[i]? = some v ∧ fields[21]? = some (optionText v)) ∧
    fields[22]? = r.spoiled_initial_guess_time_offset[i]? := by
  have at_ok : ∀ {α : Type} {l : List α} {x : α}, pyAt l i = .ok x → l[i]? = some x := by
    intro α l x hx
    unfold pyAt at hx
    cases hl : l[i]? with
    | none => rw [hl] at hx; cases hx
    | some y => rw [hl] at hx; cases hx; rfl
  unfold ResultEntry.fields at h
  obtain ⟨sv, hsv, h⟩ := Py.bind_eq_ok.mp h
  obtain ⟨names, hnames, h⟩ := Py.bind_eq_ok.mp h
  obtain ⟨b, hb, h⟩ := Py.bind_eq_ok.mp h
  obtain ⟨e, he, h⟩ := Py.bind_eq_ok.mp h
  obtain ⟨_, h9, h⟩ := Py.bind_eq_ok.mp h
  obtain ⟨_, h10, h⟩ := Py.bind_eq_ok.mp h
  obtain ⟨_, h11, h⟩ := Py.bind_eq_ok.mp h
  obtain ⟨_, h12, h⟩ := Py.bind_eq_ok.mp h
  obtain ⟨bad, hbad, h⟩ := Py.bind_eq_ok.mp h
  obtain ⟨os, hos, h⟩ := Py.bind_eq_ok.mp h
  obtain ⟨_, h19, h⟩ := Py.bind_eq_ok.mp h
  obtain ⟨_, h20, h⟩ := Py.bind_eq_ok.mp h
  obtain ⟨tr, h21, h⟩ := Py.bind_eq_ok.mp h
  obtain ⟨_, h22, h⟩ := Py.bind_eq_ok.mp h
  rw [Py.pure_eq] at h
  cases h
  exact ⟨rfl, rfl, rfl, rfl, rfl, ⟨names, at_ok hnames, rfl, rfl⟩, ⟨b, at_ok hb, rfl⟩, ⟨e, at_ok he, rfl, rfl⟩,
    ⟨bad, at_ok hbad, rfl⟩, rfl, ⟨os, at_ok hos, rfl⟩, (at_ok h9).symm, (at_ok h10).symm, (at_ok h11).symm,
    (at_ok h12).symm, rfl, rfl, ⟨sv, at_ok hsv, rfl⟩, (at_ok h19).symm, (at_ok h20).symm, ⟨tr, at_ok h21, rfl⟩,
    (at_ok h22).symm⟩

/-- The text of a number are its decimal digits. -/
theorem natText_eq (n : ℕ) : natText n = Nat.toDigits 10 n := by
  induction n using Nat.strong_induction_on with
  | _ n ih =>
    rw [Nat.toDigits_eq_if (by norm_num)]
    split
    · next h =>
      unfold natText
      split
      · next h0 => rw [h0]; rfl
      · next h0 => rw [Nat.digits_of_lt 10 n h0 h]; rfl
    · next h =>
      rw [← ih (n / 10) (by omega)]
      unfold natText
      rw [if_neg (by omega), if_neg (by omega), Nat.digits_def' (by norm_num) (by omega), List.map_cons, List.reverse_cons]

/-- A line, read under the header, if no value contains a comma: as many cells as columns, and the name, pair,
iteration and optimization columns are those of the configuration that was passed to `init_from_configs`, the
names and all other values those of the pair.  (What is missing for the property: the prefiltering column.) -/
theorem C58_columns_partial (r : ResultEntry) (iteration : ℕ) (c : ExperimentConfig) (i : ℕ) (line : List Char)
    (h : (r.initFromConfigs iteration c).csvLine i = .ok line)
    (hcomma : ∀ fields, (r.initFromConfigs iteration c).fields i = .ok fields → ∀ f ∈ fields, ',' ∉ f) :
    (cells line.dropLast).length = (cells resultHeader.dropLast).length ∧
    column resultHeader line "algorithm_name" = some c.algorithm_name.toList ∧
    column resultHeader line "num_pose_pairs" = some (Nat.toDigits 10 i) ∧
    column resultHeader line "iteration_num" = some (Nat.toDigits 10 iteration) ∧
    column resultHeader line "optimization_enabled" = some (if c.enable_optimization then "True" else "False").toList ∧
    (∃ names, r.dataset_names[i]? = some names ∧ column resultHeader line "poses_B_H_csv_file" = some names.1 ∧
      column resultHeader line "poses_W_E_csv_file" = some names.2) ∧
    (∃ b, r.success[i]? = some b ∧ column resultHeader line "success" = some (if b then "True" else "False").toList) ∧
    (∃ e, r.rmse[i]? = some e ∧ column resultHeader line "position_rmse" = some e.1 ∧
      column resultHeader line "orientation_rmse" = some e.2) ∧
    (∃ b, r.bad_singular_value[i]? = some b ∧ column resultHeader line "bad_singular_values" = some (if b then "True" else "False").toList) ∧
    (∃ b, r.optimization_success[i]? = some b ∧
      column resultHeader line "optimization_success" = some (if b then "True" else "False").toList) ∧
    column resultHeader line "num_inliers" = r.num_inliers[i]? ∧
    column resultHeader line "num_input_poses" = r.num_initial_poses[i]? ∧
    column resultHeader line "num_posesafter_filtering" = r.num_poses_kept[i]? ∧
    column resultHeader line "runtime_s" = r.runtimes[i]? ∧
    column resultHeader line "loop_error_position_m" = some r.loop_error_position ∧
    column resultHeader line "loop_error_orientation_deg" = some r.loop_error_orientation ∧
    (∃ v, r.singular_values[i]? = some v ∧ column resultHeader line "singular_values" = some (v.getD [])) ∧
    column resultHeader line "optimization_runtime_s" = r.optimization_runtime[i]? ∧
    column resultHeader line "spoiled_initial_guess_angle_offset" = r.spoiled_initial_guess_angle_offset[i]? ∧
    (∃ v, r.spoiled_initial_guess_translation_offset[i]? = some v ∧
      column resultHeader line "spoiled_initial_guess_translation_offset" = some (v.getD "None".toList)) ∧
    column resultHeader line "spoiled_initial_guess_time_offset" = r.spoiled_initial_guess_time_offset[i]? := by
  obtain ⟨fields, hf, hl⟩ := Py.bind_eq_ok.mp h
  rw [Py.pure_eq] at hl
  cases hl
  obtain ⟨f0, f1, f2, f3, f4, f5, f6, f7, f8, f9, f10, g9, g10, g11, g12, g13, g14, g15, g19, g20, g21, g22⟩ :=
    fields_ok hf
  have hcells : cells (joinFields fields ++ ['\n']).dropLast = fields := by
    rw [List.dropLast_concat, cells_join fields (by rintro rfl; simp at f0) (hcomma fields hf)]
  have ht : ∀ b, boolText b = (if b then "True" else "False").toList := fun b => by cases b <;> rfl
  have hn : ∀ v, optionText v = v.getD "None".toList := fun v => by cases v <;> rfl
  have col := fun j hj => column_eq (joinFields fields ++ ['\n']) j hj
  simp only [hcells] at col ⊢
  refine ⟨by rw [f0, cells_header]; rfl, (col 0 (by decide)).trans f1, (col 1 (by decide)).trans (f2.trans (congrArg some (natText_eq i))),
    (col 2 (by decide)).trans (f3.trans (congrArg some (natText_eq iteration))), (col 17 (by decide)).trans (f9.trans (congrArg some (ht _))), ?_, ?_, ?_, ?_, ?_, (col 9 (by decide)).trans g9,
    (col 10 (by decide)).trans g10, (col 11 (by decide)).trans g11, (col 12 (by decide)).trans g12,
    (col 13 (by decide)).trans g13, (col 14 (by decide)).trans g14, ?_, (col 19 (by decide)).trans g19,
    (col 20 (by decide)).trans g20, ?_, (col 22 (by decide)).trans g22⟩
  · obtain ⟨x, a, b, d⟩ := f5
    exact ⟨x, a, (col 4 (by decide)).trans b, (col 5 (by decide)).trans d⟩
  · obtain ⟨x, a, b⟩ := f6
    exact ⟨x, a, (col 6 (by decide)).trans (b.trans (congrArg some (ht x)))⟩
  · obtain ⟨x, a, b, d⟩ := f7
    exact ⟨x, a, (col 7 (by decide)).trans b, (col 8 (by decide)).trans d⟩
  · obtain ⟨x, a, b⟩ := f8
    exact ⟨x, a, (col 16 (by decide)).trans (b.trans (congrArg some (ht x)))⟩
  · obtain ⟨x, a, b⟩ := f10
    exact ⟨x, a, (col 18 (by decide)).trans (b.trans (congrArg some (ht x)))⟩
  · obtain ⟨x, a, b⟩ := g15
    exact ⟨x, a, (col 15 (by decide)).trans b⟩
  · obtain ⟨x, a, b⟩ := g21
    exact ⟨x, a, (col 21 (by decide)).trans (b.trans (congrArg some (hn x)))⟩

/-- Whatever the configuration: the prefiltering column of an entry that `__init__` has made says `False`, also
if the poses have been prefiltered. -/
theorem C58_prefiltering_refuted (r : ResultEntry) (hr : r.prefiltering_enabled = false) (iteration : ℕ)
    (c : ExperimentConfig) (hc : c.config.prefilter_poses_enabled = true) (i : ℕ) (line : List Char)
    (h : (r.initFromConfigs iteration c).csvLine i = .ok line)
    (hcomma : ∀ fields, (r.initFromConfigs iteration c).fields i = .ok fields → ∀ f ∈ fields, ',' ∉ f) :
    column resultHeader line "prefiltering" = some "False".toList ∧
    column resultHeader line "prefiltering" ≠ some (if c.config.prefilter_poses_enabled then "True" else "False").toList := by
  obtain ⟨fields, hf, hl⟩ := Py.bind_eq_ok.mp h
  rw [Py.pure_eq] at hl
  cases hl
  obtain ⟨f0, f1, f2, f3, f4, _⟩ := fields_ok hf
  have hcells : cells (joinFields fields ++ ['\n']).dropLast = fields := by
    rw [List.dropLast_concat, cells_join fields (by rintro rfl; simp at f0) (hcomma fields hf)]
  have e : column resultHeader (joinFields fields ++ ['\n']) "prefiltering" = some "False".toList := by
    refine (column_eq (joinFields fields ++ ['\n']) 3 (by decide)).trans ?_
    rw [hcells, f4]
    change some (boolText r.prefiltering_enabled) = _
    rw [hr]
    rfl
  refine ⟨e, ?_⟩
  rw [e, hc]
  decide

theorem count_joinFields (fields : List (List Char)) :
    (joinFields fields).count ',' = (fields.length - 1) + (fields.map (List.count ',')).sum := by
  induction fields with
  | nil => simp [joinFields]
  | cons f l ih =>
    cases l with
    | nil => simp [joinFields]
    | cons g l =>
      rw [joinFields, List.count_append, List.count_cons_self, ih]
      simp only [List.length_cons, List.map_cons, List.sum_cons]
      omega

/-- A comma in a file name (or in any other value) gives a line with more cells than there are columns. -/
theorem C58_comma_refuted (r : ResultEntry) (i : ℕ) (line : List Char) (fields : List (List Char))
    (hf : r.fields i = .ok fields) (h : r.csvLine i = .ok line) (f : List Char) (hmem : f ∈ fields) (hc : ',' ∈ f) :
    (cells resultHeader.dropLast).length < (cells line.dropLast).length := by
  unfold ResultEntry.csvLine at h
  rw [hf, Py.ok_bind, Py.pure_eq] at h
  cases h
  rw [cells_header, cells_length, List.dropLast_concat, count_joinFields, (fields_ok hf).1]
  have h1 : 0 < f.count ',' := List.count_pos_iff.mpr hc
  have h2 : f.count ',' ≤ (fields.map (List.count ',')).sum :=
    List.le_sum_of_mem (List.mem_map_of_mem hmem)
  have h3 : (headerNames.map String.toList).length = 23 := by decide
  omega

/-- An entry with one pose pair. -/
def sampleEntry : ResultEntry :=
  { dataset_names := [("a.csv".toList, "b.csv".toList)], success := [true], rmse := [(['1'], ['2'])],
    num_inliers := [['9']], num_initial_poses := [['9']], num_poses_kept := [['9']], runtimes := [['3']],
    singular_values := [none], bad_singular_value := [false], optimization_success := [true],
    optimization_runtime := [['0']], spoiled_initial_guess_angle_offset := [['0']],
    spoiled_initial_guess_translation_offset := [none], spoiled_initial_guess_time_offset := [['0']] }

example : ∃ line, (sampleEntry.initFromConfigs 2 (withOptimization (getRansacClassicConfig true) true)).csvLine 0 =
      .ok line ∧
    column resultHeader line "algorithm_name" = some "RC_filter_opt".toList ∧
    column resultHeader line "iteration_num" = some ['2'] ∧
    column resultHeader line "prefiltering" = some "False".toList := by
  obtain ⟨line, h⟩ := C58_writes (sampleEntry.initFromConfigs 2 (withOptimization (getRansacClassicConfig true) true)) 1 0
    (by simp [ResultEntry.checkLength, sampleEntry, ResultEntry.initFromConfigs, pyAssert]) (by norm_num)
  have hcomma : ∀ fields, (sampleEntry.initFromConfigs 2
      (withOptimization (getRansacClassicConfig true) true)).fields 0 = .ok fields → ∀ f ∈ fields, ',' ∉ f := by
    intro fields hf
    cases hf
    simp [sampleEntry, ResultEntry.initFromConfigs, withOptimization, getRansacClassicConfig, natText, boolText,
      optionText]
  have h1 := C58_columns_partial sampleEntry 2 _ 0 line h hcomma
  have h2 := C58_prefiltering_refuted sampleEntry rfl 2 _ rfl 0 line h hcomma
  refine ⟨line, h, ?_, ?_, h2.1⟩
  · rw [h1.2.1]; rfl
  · rw [h1.2.2.2.1]; rfl

end HandEye
