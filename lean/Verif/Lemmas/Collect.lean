import Verif.Model.Experiments
import Verif.Lemmas.Py

/-! # The grouping of collected results -/

namespace HandEye


theorem dictGet_dictSet {β : Type} (d : List (String × β)) (k k' : String) (v : β) :
    dictGet (dictSet d k v) k' = if k' = k then some v else dictGet d k' := by
  unfold dictGet
  induction d with
  | nil =>
    by_cases h : k' = k
    · subst h; simp [dictSet]
    · have : (k' == k) = false := by simpa using h
      simp [dictSet, List.lookup_cons, this, h]
  | cons p d ih =>
    obtain ⟨k1, v1⟩ := p
    rw [dictSet]
    by_cases h1 : k1 = k
    · subst h1
      rw [if_pos rfl, List.lookup_cons, List.lookup_cons]
      by_cases h : k' = k1
      · subst h; simp
      · have : (k' == k1) = false := by simpa using h
        simp [this, h]
    · rw [if_neg h1, List.lookup_cons, List.lookup_cons, ih]
      by_cases h : k' = k1
      · subst h; simp [h1]
      · have : (k' == k1) = false := by simpa using h
        simp [this]

/-- The list under `d[dataset][method]`. -/
def NestedDict.get (d : NestedDict) (dataset method : String) : Option (List ℝ) :=
  (dictGet d dataset).bind fun inner => dictGet inner method

theorem NestedDict.get_append (d : NestedDict) (dataset method : String) (v : ℝ) (dataset' method' : String) :
    (d.append dataset method v).get dataset' method' =
      if dataset' = dataset ∧ method' = method then some ((d.get dataset method).getD [] ++ [v])
      else d.get dataset' method' := by
  unfold NestedDict.get NestedDict.append
  simp only [dictGet_dictSet]
  have hnil : ∀ m, dictGet ([] : List (String × List ℝ)) m = none := fun _ => rfl
  by_cases hd : dataset' = dataset
  · subst hd
    cases h : dictGet d dataset' with
    | none =>
      by_cases hm : method' = method
      · subst hm
        simp [dictGet_dictSet, hnil]
      · simp [dictGet_dictSet, hnil, hm]
    | some inner =>
      cases h' : dictGet inner method with
      | none =>
        by_cases hm : method' = method
        · subst hm
          simp [dictGet_dictSet, h, h']
        · simp [dictGet_dictSet, h, h', hm]
      | some old =>
        by_cases hm : method' = method
        · subst hm
          simp [dictGet_dictSet, h, h']
        · simp [dictGet_dictSet, h, h', hm]
  · cases h : dictGet d dataset with
    | none => simp [hd, dictGet_dictSet]
    | some inner => simp [hd]

/-- The name of the method of a row. -/
def shortName (r : ResultRow) : String := (methodNames.lookup r.method).getD ""

/-- The values of the rows of one group. -/
def groupOf (rows : List ResultRow) (m : String) (f : ResultRow → ℝ) : List ℝ :=
  (rows.filter fun r => shortName r = m).map f

def groupOfDataset (rows : List ResultRow) (d m : String) (f : ResultRow → ℝ) : Option (List ℝ) :=
  if (rows.filter fun r => r.dataset = d ∧ shortName r = m) = [] then none
  else some ((rows.filter fun r => r.dataset = d ∧ shortName r = m).map f)

noncomputable def totalRuntime (r : ResultRow) : ℝ := r.runtime + r.runtime_optimization

/-- What holds after the rows `done` have been added. -/
structure Grouped (done : List ResultRow) (s : Collected) : Prop where
  methods : s.methods = (done.map shortName).eraseDups
  datasets : s.datasets = (done.map (·.dataset)).eraseDups
  index : s.max_index = s.methods.length
  position : s.position_rmses = s.methods.map fun m => groupOf done m (·.position_rmse)
  orientation : s.orientation_rmses = s.methods.map fun m => groupOf done m (·.orientation_rmse)
  runtime : s.runtimes = s.methods.map fun m => groupOf done m totalRuntime
  position_per : ∀ d m, s.position_rmses_per_method.get d m = groupOfDataset done d m (·.position_rmse)
  orientation_per : ∀ d m, s.orientation_rmses_per_method.get d m = groupOfDataset done d m (·.orientation_rmse)
  runtime_per : ∀ d m, s.runtimes_per_method.get d m = groupOfDataset done d m totalRuntime
  loop_position : s.loop_errors_position_m = done.map (·.loop_error_position_m)
  loop_orientation : s.loop_errors_orientation_deg = done.map (·.loop_error_orientation_deg)
  angle : s.spoiled_initial_guess_angle_offsets = done.map (·.initial_guess_angle)
  translation : s.spoiled_initial_guess_translation_norm_offsets = done.map (·.initial_guess_translation_norm)
  time : s.spoiled_initial_guess_time_offsets = done.map (·.initial_guess_time)

theorem eraseDups_snoc (l : List String) (a : String) :
    (l ++ [a]).eraseDups = if a ∈ l then l.eraseDups else l.eraseDups ++ [a] := by
  rw [List.eraseDups_append]
  by_cases h : a ∈ l
  · simp [h, List.removeAll]
  · simp [h, List.removeAll, List.eraseDups_cons]

theorem eraseDups_nodup (l : List String) : l.eraseDups.Nodup := by
  induction l using List.reverseRecOn with
  | nil => simp
  | append_singleton l a ih =>
    rw [eraseDups_snoc]
    by_cases h : a ∈ l
    · rwa [if_pos h]
    · rw [if_neg h]
      refine List.nodup_append.mpr ⟨ih, by simp, ?_⟩
      rintro x hx y hy rfl
      simp at hy
      subst hy
      exact h (List.mem_eraseDups.mp hx)

theorem appendAt_map (methods : List String) (g g' : String → List ℝ) (i : ℕ) (m : String) (v : ℝ)
    (hm : methods[i]? = some m) (hnd : methods.Nodup) (hne : ∀ m' ∈ methods, m' ≠ m → g' m' = g m')
    (heq : g' m = g m ++ [v]) : appendAt (methods.map g) i v = .ok (methods.map g') := by
  unfold appendAt pyAt
  rw [List.getElem?_map, hm]
  simp only [Option.map_some, Py.ok_bind, Py.pure_eq]
  congr 1
  obtain ⟨hi, hmi⟩ := List.getElem?_eq_some_iff.mp hm
  apply List.ext_getElem
  · simp
  intro j h1 h2
  simp at h1
  rw [List.getElem_set, List.getElem_map, List.getElem_map]
  by_cases hij : i = j
  · subst hij
    rw [if_pos rfl, hmi, heq]
  · rw [if_neg hij, hne _ (List.getElem_mem _)]
    intro h
    exact hij ((List.Nodup.getElem_inj_iff hnd).mp (hmi.trans h.symm))

theorem groupOf_snoc (done : List ResultRow) (r : ResultRow) (m : String) (f : ResultRow → ℝ) :
    groupOf (done ++ [r]) m f = if m = shortName r then groupOf done m f ++ [f r] else groupOf done m f := by
  unfold groupOf
  rw [List.filter_append]
  by_cases h : m = shortName r
  · subst h; simp
  · simp [h, Ne.symm h]

theorem groupOfDataset_snoc (done : List ResultRow) (r : ResultRow) (d m : String) (f : ResultRow → ℝ) :
    groupOfDataset (done ++ [r]) d m f = if d = r.dataset ∧ m = shortName r
      then some ((groupOfDataset done r.dataset (shortName r) f).getD [] ++ [f r]) else groupOfDataset done d m f := by
  unfold groupOfDataset
  rw [List.filter_append]
  by_cases h : d = r.dataset ∧ m = shortName r
  · obtain ⟨rfl, rfl⟩ := h
    have h1 : ([r].filter fun x => x.dataset = r.dataset ∧ shortName x = shortName r) = [r] := by simp
    rw [h1, if_neg (by simp), if_pos ⟨rfl, rfl⟩, List.map_append]
    by_cases he : (done.filter fun x => x.dataset = r.dataset ∧ shortName x = shortName r) = []
    · rw [if_pos he, he]; rfl
    · rw [if_neg he]; rfl
  · have h' : ¬ (r.dataset = d ∧ shortName r = m) := fun x => h ⟨x.1.symm, x.2.symm⟩
    have hf : ([r].filter fun x => x.dataset = d ∧ shortName x = m) = [] := by
      rw [List.filter_singleton]
      simp [h']
    rw [hf, List.append_nil, if_neg h]

theorem Grouped.add {done : List ResultRow} {s : Collected} (hs : Grouped done s) (r : ResultRow) :
    ∃ s', s.add (shortName r) (totalRuntime r) r = .ok s' ∧ Grouped (done ++ [r]) s' := by
  have hgroup : shortName r ∉ done.map shortName → ∀ f, groupOf done (shortName r) f = [] := by
    intro h f
    unfold groupOf
    rw [List.map_eq_nil_iff, List.filter_eq_nil_iff]
    intro x hx he
    exact h (List.mem_map.mpr ⟨x, hx, by simpa using he⟩)
  have hmem : shortName r ∈ s.methods ↔ shortName r ∈ done.map shortName := by
    rw [hs.methods, List.mem_eraseDups]
  have hmem' : r.dataset ∈ s.datasets ↔ r.dataset ∈ done.map (·.dataset) := by
    rw [hs.datasets, List.mem_eraseDups]
  -- the state after the first part
  obtain ⟨t, i, ht, hi, hm, hd, hx, hpos, hori, hrun, h1, h2, h3, h4, h5, h6, h7, h8⟩ : ∃ t i,
      (s.noteDataset r.dataset).noteMethod (shortName r) = (t, i) ∧ t.methods[i]? = some (shortName r) ∧
      t.methods = ((done ++ [r]).map shortName).eraseDups ∧
      t.datasets = ((done ++ [r]).map (·.dataset)).eraseDups ∧ t.max_index = t.methods.length ∧
      t.position_rmses = t.methods.map (fun m => groupOf done m (·.position_rmse)) ∧
      t.orientation_rmses = t.methods.map (fun m => groupOf done m (·.orientation_rmse)) ∧
      t.runtimes = t.methods.map (fun m => groupOf done m totalRuntime) ∧
      t.position_rmses_per_method = s.position_rmses_per_method ∧
      t.orientation_rmses_per_method = s.orientation_rmses_per_method ∧
      t.runtimes_per_method = s.runtimes_per_method ∧
      t.loop_errors_position_m = s.loop_errors_position_m ∧
      t.loop_errors_orientation_deg = s.loop_errors_orientation_deg ∧
      t.spoiled_initial_guess_angle_offsets = s.spoiled_initial_guess_angle_offsets ∧
      t.spoiled_initial_guess_translation_norm_offsets = s.spoiled_initial_guess_translation_norm_offsets ∧
      t.spoiled_initial_guess_time_offsets = s.spoiled_initial_guess_time_offsets := by
    obtain ⟨u, hu, hud, humeth, hurest⟩ : ∃ u, s.noteDataset r.dataset = u ∧
        u.datasets = ((done ++ [r]).map (·.dataset)).eraseDups ∧ u.methods = s.methods ∧
        (u.max_index = s.max_index ∧ u.position_rmses = s.position_rmses ∧
          u.orientation_rmses = s.orientation_rmses ∧ u.runtimes = s.runtimes ∧
          u.position_rmses_per_method = s.position_rmses_per_method ∧
          u.orientation_rmses_per_method = s.orientation_rmses_per_method ∧
          u.runtimes_per_method = s.runtimes_per_method ∧
          u.loop_errors_position_m = s.loop_errors_position_m ∧
          u.loop_errors_orientation_deg = s.loop_errors_orientation_deg ∧
          u.spoiled_initial_guess_angle_offsets = s.spoiled_initial_guess_angle_offsets ∧
          u.spoiled_initial_guess_translation_norm_offsets = s.spoiled_initial_guess_translation_norm_offsets ∧
          u.spoiled_initial_guess_time_offsets = s.spoiled_initial_guess_time_offsets) := by
      refine ⟨_, rfl, ?_, ?_, ?_⟩
      · unfold Collected.noteDataset
        rw [List.map_append, List.map_singleton, eraseDups_snoc]
        by_cases h : r.dataset ∈ s.datasets
        · rw [if_pos h, if_pos (hmem'.mp h), hs.datasets]
        · rw [if_neg h, if_neg (mt hmem'.mpr h), hs.datasets]
      · unfold Collected.noteDataset
        split <;> rfl
      · unfold Collected.noteDataset
        split <;> exact ⟨rfl, rfl, rfl, rfl, rfl, rfl, rfl, rfl, rfl, rfl, rfl, rfl⟩
    obtain ⟨ui, up, uo, ur, u1, u2, u3, u4, u5, u6, u7, u8⟩ := hurest
    rw [hu]
    unfold Collected.noteMethod
    by_cases h : shortName r ∈ u.methods
    · rw [if_pos h]
      have h' : shortName r ∈ done.map shortName := hmem.mp (humeth ▸ h)
      refine ⟨u, _, rfl, ?_, ?_, hud, ?_, ?_, ?_, ?_, u1, u2, u3, u4, u5, u6, u7, u8⟩
      · rw [List.getElem?_eq_getElem (List.idxOf_lt_length_of_mem h), List.getElem_idxOf]
      · rw [humeth, hs.methods, List.map_append, List.map_singleton, eraseDups_snoc, if_pos h']
      · rw [ui, humeth, hs.index]
      · rw [up, humeth, hs.position]
      · rw [uo, humeth, hs.orientation]
      · rw [ur, humeth, hs.runtime]
    · rw [if_neg h]
      have h' : shortName r ∉ done.map shortName := fun x => h (humeth ▸ hmem.mpr x)
      refine ⟨_, _, rfl, ?_, ?_, hud, ?_, ?_, ?_, ?_, u1, u2, u3, u4, u5, u6, u7, u8⟩
      · change (u.methods ++ [shortName r])[u.max_index]? = _
        rw [ui, hs.index, humeth]
        simp
      · change u.methods ++ [shortName r] = _
        rw [humeth, hs.methods, List.map_append, List.map_singleton, eraseDups_snoc, if_neg h']
      · change u.max_index + 1 = (u.methods ++ [shortName r]).length
        rw [ui, hs.index, humeth]
        simp
      · change u.position_rmses ++ [[]] = (u.methods ++ [shortName r]).map _
        rw [up, hs.position, humeth, List.map_append, List.map_singleton, hgroup h']
      · change u.orientation_rmses ++ [[]] = (u.methods ++ [shortName r]).map _
        rw [uo, hs.orientation, humeth, List.map_append, List.map_singleton, hgroup h']
      · change u.runtimes ++ [[]] = (u.methods ++ [shortName r]).map _
        rw [ur, hs.runtime, humeth, List.map_append, List.map_singleton, hgroup h']
  have hnd : t.methods.Nodup := by rw [hm]; exact eraseDups_nodup _
  have happ : ∀ f : ResultRow → ℝ, appendAt (t.methods.map fun m => groupOf done m f) i (f r) =
      .ok (t.methods.map fun m => groupOf (done ++ [r]) m f) := by
    intro f
    refine appendAt_map _ _ _ i (shortName r) _ hi hnd ?_ ?_
    · intro m' _ hne
      simp only [groupOf_snoc, if_neg hne]
    · simp only [groupOf_snoc, if_true]
  unfold Collected.add
  simp only [ht]
  rw [hpos, happ (·.position_rmse), Py.ok_bind, hori, happ (·.orientation_rmse), Py.ok_bind, hrun,
    happ totalRuntime, Py.ok_bind, Py.pure_eq]
  refine ⟨_, rfl, ?_⟩
  refine ⟨hm, hd, hx, rfl, rfl, rfl, ?_, ?_, ?_, ?_, ?_, ?_, ?_, ?_⟩
  · intro d m
    simp only [h1, NestedDict.get_append, hs.position_per, groupOfDataset_snoc]
  · intro d m
    simp only [h2, NestedDict.get_append, hs.orientation_per, groupOfDataset_snoc]
  · intro d m
    simp only [h3, NestedDict.get_append, hs.runtime_per, groupOfDataset_snoc]
  · simp only [h4, hs.loop_position, List.map_append, List.map_singleton]
  · simp only [h5, hs.loop_orientation, List.map_append, List.map_singleton]
  · simp only [h6, hs.angle, List.map_append, List.map_singleton]
  · simp only [h7, hs.translation, List.map_append, List.map_singleton]
  · simp only [h8, hs.time, List.map_append, List.map_singleton]

theorem methodName_ok {m short : String} (h : methodName m = .ok short) : methodNames.lookup m = some short := by
  unfold methodName at h
  cases hl : methodNames.lookup m with
  | none => rw [hl] at h; cases h
  | some x => rw [hl] at h; cases h; rfl

theorem collectRows_grouped (rows done : List ResultRow) (s : Collected) (hs : Grouped done s)
    (hk : ∀ r ∈ rows, methodNames.lookup r.method ≠ none) :
    ∃ s', collectRows rows s = .ok s' ∧
      Grouped (done ++ rows.filter fun r => r.success && !r.bad_singular_values) s' := by
  induction rows generalizing done s with
  | nil => exact ⟨s, rfl, by simpa using hs⟩
  | cons r rows ih =>
    obtain ⟨short, hshort⟩ := Option.ne_none_iff_exists'.mp (hk r (by simp))
    have hname : methodName r.method = .ok short := by unfold methodName; rw [hshort]
    have hsn : shortName r = short := by unfold shortName; rw [hshort]; rfl
    have hk' := fun x hx => hk x (List.mem_cons_of_mem r hx)
    rw [collectRows, hname, Py.ok_bind]
    by_cases hb : (!r.success || r.bad_singular_values) = true
    · rw [if_pos hb, List.filter_cons_of_neg (by revert hb; cases r.success <;> cases r.bad_singular_values <;> simp)]
      exact ih done s hs hk'
    · rw [if_neg hb, List.filter_cons_of_pos (by revert hb; cases r.success <;> cases r.bad_singular_values <;> simp)]
      obtain ⟨s1, h1, hs1⟩ := hs.add r
      rw [hsn] at h1
      unfold totalRuntime at h1
      rw [h1, Py.ok_bind]
      obtain ⟨s2, h2, hs2⟩ := ih (done ++ [r]) s1 hs1 hk'
      exact ⟨s2, h2, by simpa using hs2⟩

theorem collectRows_key (rows : List ResultRow) (s : Collected) (done : List ResultRow) (hs : Grouped done s)
    (h : ∃ r ∈ rows, methodNames.lookup r.method = none) : collectRows rows s = .error .key := by
  induction rows generalizing done s with
  | nil => simp at h
  | cons r rows ih =>
    rw [collectRows]
    cases hl : methodNames.lookup r.method with
    | none =>
      have : methodName r.method = .error .key := by unfold methodName; rw [hl]
      rw [this]; rfl
    | some short =>
      have hname : methodName r.method = .ok short := by unfold methodName; rw [hl]
      have hsn : shortName r = short := by unfold shortName; rw [hl]; rfl
      have h' : ∃ r ∈ rows, methodNames.lookup r.method = none := by
        obtain ⟨x, hx, hxl⟩ := h
        rcases List.mem_cons.mp hx with rfl | hx
        · rw [hl] at hxl; cases hxl
        · exact ⟨x, hx, hxl⟩
      rw [hname, Py.ok_bind]
      by_cases hb : (!r.success || r.bad_singular_values) = true
      · rw [if_pos hb]; exact ih s done hs h'
      · rw [if_neg hb]
        obtain ⟨s1, h1, hs1⟩ := hs.add r
        rw [hsn] at h1
        unfold totalRuntime at h1
        rw [h1, Py.ok_bind]
        exact ih s1 _ hs1 h'

theorem grouped_start : Grouped [] {} :=
  ⟨rfl, rfl, rfl, rfl, rfl, rfl, fun _ _ => rfl, fun _ _ => rfl, fun _ _ => rfl, rfl, rfl, rfl, rfl, rfl⟩

end HandEye
