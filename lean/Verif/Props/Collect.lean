import Verif.Lemmas.Collect

/-!
# C59: collected results are grouped by method without loss

`collect_data_from_csv`, for all rows that `genfromtxt` may have read.
-/

namespace HandEye

/-- The rows that count: successful and well-conditioned. -/
def goodRows (rows : List ResultRow) : List ResultRow := rows.filter fun r => r.success && !r.bad_singular_values

/-- No two algorithms have the same short name. -/
theorem C59_names_injective (a b short : String) (ha : methodNames.lookup a = some short)
    (hb : methodNames.lookup b = some short) : a = b := by
  have key : ∀ p ∈ methodNames, ∀ q ∈ methodNames, p.2 = q.2 → p = q := by decide
  have mem : ∀ (l : List (String × String)) (k v : String), l.lookup k = some v → (k, v) ∈ l := by
    intro l k v h
    induction l with
    | nil => simp at h
    | cons p l ih =>
      obtain ⟨k', v'⟩ := p
      rw [List.lookup_cons] at h
      by_cases hk : k = k'
      · subst hk
        simp at h
        simp [h]
      · have : (k == k') = false := by simpa using hk
        rw [this] at h
        exact List.mem_cons_of_mem _ (ih h)
  have := key _ (mem _ _ _ ha) _ (mem _ _ _ hb) rfl
  exact congrArg Prod.fst this

/-- The collection succeeds iff the algorithm of each row, failed ones included, is a known one; if not, it raises
KeyError. -/
theorem C59_outcome (rows : List ResultRow) :
    ((∀ r ∈ rows, ∃ short, methodNames.lookup r.method = some short) → ∃ c, collectData rows = .ok c) ∧
    ((∃ r ∈ rows, methodNames.lookup r.method = none) → collectData rows = .error .key) := by
  constructor
  · intro h
    obtain ⟨c, hc, _⟩ := collectRows_grouped rows [] {} grouped_start
      (fun r hr hn => by obtain ⟨x, hx⟩ := h r hr; rw [hn] at hx; cases hx)
    exact ⟨c, hc⟩
  · exact collectRows_key rows {} [] grouped_start

theorem collectData_grouped {rows : List ResultRow} {c : Collected} (h : collectData rows = .ok c) :
    (∀ r ∈ rows, methodNames.lookup r.method ≠ none) ∧ Grouped (goodRows rows) c := by
  have hk : ∀ r ∈ rows, methodNames.lookup r.method ≠ none := by
    intro r hr hn
    rw [(C59_outcome rows).2 ⟨r, hr, hn⟩] at h
    cases h
  obtain ⟨c', hc', hg⟩ := collectRows_grouped rows [] {} grouped_start hk
  have : c = c' := by
    have := h.symm.trans hc'
    cases this
    rfl
  subst this
  exact ⟨hk, hg⟩

theorem shortName_eq_iff {rows : List ResultRow} (hk : ∀ r ∈ rows, methodNames.lookup r.method ≠ none)
    {a short : String} (ha : methodNames.lookup a = some short) (r : ResultRow) (hr : r ∈ rows) :
    shortName r = short ↔ r.method = a := by
  obtain ⟨x, hx⟩ := Option.ne_none_iff_exists'.mp (hk r hr)
  unfold shortName
  rw [hx]
  constructor
  · rintro h
    exact C59_names_injective _ _ short (hx.trans (congrArg some h)) ha
  · rintro rfl
    rw [ha] at hx
    cases hx
    rfl

/-- The methods are the short names of the algorithms of the good rows, each once, in the order in which they come
first; the datasets likewise. -/
theorem C59_methods (rows : List ResultRow) (c : Collected) (h : collectData rows = .ok c) :
    c.methods.Nodup ∧ c.datasets = ((goodRows rows).map (·.dataset)).eraseDups ∧
    c.methods.map some = (((goodRows rows).map (·.method)).eraseDups).map (fun a => methodNames.lookup a) := by
  obtain ⟨hk, hg⟩ := collectData_grouped h
  refine ⟨by rw [hg.methods]; exact eraseDups_nodup _, hg.datasets, ?_⟩
  rw [hg.methods]
  have hsub : ∀ r ∈ goodRows rows, r ∈ rows := fun r hr => (List.mem_filter.mp hr).1
  generalize goodRows rows = l at hsub
  induction l using List.reverseRecOn with
  | nil => rfl
  | append_singleton l r ih =>
    have ih := ih fun x hx => hsub x (by simp [hx])
    obtain ⟨x, hx⟩ := Option.ne_none_iff_exists'.mp (hk r (hsub r (by simp)))
    have hsn : shortName r = x := by unfold shortName; rw [hx]; rfl
    have hiff : shortName r ∈ l.map shortName ↔ r.method ∈ l.map (·.method) := by
      simp only [List.mem_map]
      constructor
      · rintro ⟨y, hy, he⟩
        exact ⟨y, hy, (shortName_eq_iff hk hx y (hsub y (by simp [hy]))).mp (he.trans hsn)⟩
      · rintro ⟨y, hy, he⟩
        exact ⟨y, hy, ((shortName_eq_iff hk hx y (hsub y (by simp [hy]))).mpr he).trans hsn.symm⟩
    rw [List.map_append, List.map_singleton, List.map_append, List.map_singleton, eraseDups_snoc, eraseDups_snoc]
    by_cases hm : r.method ∈ l.map (·.method)
    · rw [if_pos hm, if_pos (hiff.mpr hm), ih]
    · rw [if_neg hm, if_neg (mt hiff.mp hm), List.map_append, List.map_append, ih]
      simp [hsn, hx]

/-- The groups: as many as there are methods, and the group of the algorithm `a` has the values of the good rows of
`a`, in the order of the rows.  The run time of a row is that of the calibration plus that of the optimization. -/
theorem C59_groups (rows : List ResultRow) (c : Collected) (h : collectData rows = .ok c) :
    c.position_rmses.length = c.methods.length ∧ c.orientation_rmses.length = c.methods.length ∧
    c.runtimes.length = c.methods.length ∧
    ∀ i (hi : i < c.methods.length), ∃ a, methodNames.lookup a = some c.methods[i] ∧
      (∃ r ∈ goodRows rows, r.method = a) ∧
      c.position_rmses[i]? = some (((goodRows rows).filter (·.method = a)).map (·.position_rmse)) ∧
      c.orientation_rmses[i]? = some (((goodRows rows).filter (·.method = a)).map (·.orientation_rmse)) ∧
      c.runtimes[i]? = some (((goodRows rows).filter (·.method = a)).map
        fun r => r.runtime + r.runtime_optimization) := by
  obtain ⟨hk, hg⟩ := collectData_grouped h
  refine ⟨by rw [hg.position]; simp, by rw [hg.orientation]; simp, by rw [hg.runtime]; simp, ?_⟩
  intro i hi
  have hm : c.methods[i] ∈ (goodRows rows).map shortName := by
    have hall : ∀ m ∈ c.methods, m ∈ (goodRows rows).map shortName := by
      intro m hm
      rw [hg.methods] at hm
      exact List.mem_eraseDups.mp hm
    exact hall _ (List.getElem_mem hi)
  obtain ⟨r, hr, hrm⟩ := List.mem_map.mp hm
  obtain ⟨x, hx⟩ := Option.ne_none_iff_exists'.mp (hk r (List.mem_filter.mp hr).1)
  have hsn : shortName r = x := by unfold shortName; rw [hx]; rfl
  have hgroup : ∀ f : ResultRow → ℝ, groupOf (goodRows rows) c.methods[i] f =
      ((goodRows rows).filter (·.method = r.method)).map f := by
    intro f
    unfold groupOf
    congr 1
    apply List.filter_congr
    intro y hy
    rw [decide_eq_decide, ← hrm, hsn]
    exact shortName_eq_iff hk hx y (List.mem_filter.mp hy).1
  refine ⟨r.method, by rw [hx, ← hrm, hsn], ⟨r, hr, rfl⟩, ?_, ?_, ?_⟩
  · rw [hg.position, List.getElem?_map, List.getElem?_eq_getElem hi, Option.map_some, hgroup]
  · rw [hg.orientation, List.getElem?_map, List.getElem?_eq_getElem hi, Option.map_some, hgroup]
  · rw [hg.runtime, List.getElem?_map, List.getElem?_eq_getElem hi, Option.map_some, hgroup]
    rfl

/-- No loss: every good row is in exactly one group, that of its algorithm. -/
theorem C59_every_row (rows : List ResultRow) (c : Collected) (h : collectData rows = .ok c) (r : ResultRow)
    (hr : r ∈ goodRows rows) : ∃! i, ∃ hi : i < c.methods.length, methodNames.lookup r.method = some c.methods[i] := by
  obtain ⟨hk, hg⟩ := collectData_grouped h
  obtain ⟨x, hx⟩ := Option.ne_none_iff_exists'.mp (hk r (List.mem_filter.mp hr).1)
  have hsn : shortName r = x := by unfold shortName; rw [hx]; rfl
  have hmem : x ∈ c.methods := by
    rw [hg.methods, List.mem_eraseDups, ← hsn]
    exact List.mem_map_of_mem hr
  obtain ⟨i, hi, he⟩ := List.getElem_of_mem hmem
  refine ⟨i, ⟨hi, by rw [hx, he]⟩, ?_⟩
  rintro j ⟨hj, hje⟩
  rw [hx] at hje
  have hnd : c.methods.Nodup := by rw [hg.methods]; exact eraseDups_nodup _
  exact (List.Nodup.getElem_inj_iff hnd).mp ((Option.some.inj hje).symm.trans he.symm)

/-- The dictionaries per dataset: for a known algorithm the entry has the values of the good rows of that dataset
and algorithm in order, and there is no entry if there is no such row. -/
theorem C59_per_dataset (rows : List ResultRow) (c : Collected) (h : collectData rows = .ok c) (d a short : String)
    (ha : methodNames.lookup a = some short) (group : List ResultRow)
    (hgr : group = (goodRows rows).filter fun r => r.dataset = d ∧ r.method = a) :
    (c.position_rmses_per_method.get d short = if group = [] then none else some (group.map (·.position_rmse))) ∧
    (c.orientation_rmses_per_method.get d short =
      if group = [] then none else some (group.map (·.orientation_rmse))) ∧
    (c.runtimes_per_method.get d short =
      if group = [] then none else some (group.map fun r => r.runtime + r.runtime_optimization)) := by
  obtain ⟨hk, hg⟩ := collectData_grouped h
  have hf : ((goodRows rows).filter fun r => r.dataset = d ∧ shortName r = short) = group := by
    rw [hgr]
    apply List.filter_congr
    intro y hy
    rw [decide_eq_decide, shortName_eq_iff hk ha y (List.mem_filter.mp hy).1]
  refine ⟨?_, ?_, ?_⟩
  · rw [hg.position_per, groupOfDataset, hf]
  · rw [hg.orientation_per, groupOfDataset, hf]
  · rw [hg.runtime_per, groupOfDataset, hf]
    rfl

/-- The lists for the plots of the spoiled initial guess have one entry for each good row. -/
theorem C59_spoiled (rows : List ResultRow) (c : Collected) (h : collectData rows = .ok c) :
    c.loop_errors_position_m = (goodRows rows).map (·.loop_error_position_m) ∧
    c.loop_errors_orientation_deg = (goodRows rows).map (·.loop_error_orientation_deg) ∧
    c.spoiled_initial_guess_angle_offsets = (goodRows rows).map (·.initial_guess_angle) ∧
    c.spoiled_initial_guess_translation_norm_offsets = (goodRows rows).map (·.initial_guess_translation_norm) ∧
    c.spoiled_initial_guess_time_offsets = (goodRows rows).map (·.initial_guess_time) := by
  obtain ⟨_, hg⟩ := collectData_grouped h
  exact ⟨hg.loop_position, hg.loop_orientation, hg.angle, hg.translation, hg.time⟩

/-- Rows for the example. -/
def exampleRow (method : String) (success : Bool) (e : ℝ) : ResultRow :=
  ⟨method, success, e, 2 * e, 1, 0, 0, false, e, 0, 0, 0, "d"⟩

example : ∃ c, collectData [exampleRow "EC_opt" true 1, exampleRow "ES_opt" false 2, exampleRow "RC_filter_opt" true 3,
      exampleRow "EC_opt" true 4] = .ok c ∧ c.methods.map some = [some "PF_EC_O", some "PF_RC_O"] ∧
    c.position_rmses_per_method.get "d" "PF_EC_O" = some [1, 4] ∧
    c.position_rmses_per_method.get "d" "PF_ES_O" = none := by
  obtain ⟨c, hc⟩ := (C59_outcome [exampleRow "EC_opt" true 1, exampleRow "ES_opt" false 2,
    exampleRow "RC_filter_opt" true 3, exampleRow "EC_opt" true 4]).1 (by
      intro r hr
      simp only [List.mem_cons, List.not_mem_nil, or_false] at hr
      rcases hr with rfl | rfl | rfl | rfl
      · exact ⟨"PF_EC_O", rfl⟩
      · exact ⟨"PF_ES_O", rfl⟩
      · exact ⟨"PF_RC_O", rfl⟩
      · exact ⟨"PF_EC_O", rfl⟩)
  have hgood : goodRows [exampleRow "EC_opt" true 1, exampleRow "ES_opt" false 2, exampleRow "RC_filter_opt" true 3,
      exampleRow "EC_opt" true 4] = [exampleRow "EC_opt" true 1, exampleRow "RC_filter_opt" true 3,
      exampleRow "EC_opt" true 4] := rfl
  have h1 := (C59_methods _ c hc).2.2
  have h2 := (C59_per_dataset _ c hc "d" "EC_opt" "PF_EC_O" rfl _ rfl).1
  have h3 := (C59_per_dataset _ c hc "d" "ES_opt" "PF_ES_O" rfl _ rfl).1
  rw [hgood] at h1 h2 h3
  have e2 : ([exampleRow "EC_opt" true 1, exampleRow "RC_filter_opt" true 3, exampleRow "EC_opt" true 4].filter
      fun r => r.dataset = "d" ∧ r.method = "EC_opt") = [exampleRow "EC_opt" true 1, exampleRow "EC_opt" true 4] := rfl
  have e3 : ([exampleRow "EC_opt" true 1, exampleRow "RC_filter_opt" true 3, exampleRow "EC_opt" true 4].filter
      fun r => r.dataset = "d" ∧ r.method = "ES_opt") = [] := rfl
  rw [e2] at h2
  rw [e3] at h3
  exact ⟨c, hc, h1.trans rfl, h2, h3⟩

end HandEye
