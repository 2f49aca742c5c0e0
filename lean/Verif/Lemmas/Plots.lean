import Mathlib.Tactic.FieldSimp
import Mathlib.Tactic.Ring
import Verif.Model.Plots
import Verif.Lemmas.Py
import Verif.Lemmas.Collect

/-! # Lemmas about the plots -/

namespace HandEye

/-- If every element succeeds or raises the same exception, one failure decides. -/
theorem Py.mapM_error {α β : Type} {f : α → Py β} {l : List α} {e : PyErr}
    (h : ∀ a ∈ l, (∃ b, f a = .ok b) ∨ f a = .error e) (hx : ∃ a ∈ l, f a = .error e) :
    List.mapM f l = .error e := by
  induction l with
  | nil => obtain ⟨a, ha, _⟩ := hx; cases ha
  | cons a l ih =>
    rw [Py.mapM_cons]
    rcases h a (by simp) with ⟨b, hb⟩ | hb
    · rw [hb, Py.ok_bind, ih (fun x hx => h x (by simp [hx])) ?_, Py.error_bind]
      obtain ⟨x, hx, hxe⟩ := hx
      rcases List.mem_cons.mp hx with rfl | hx
      · rw [hb] at hxe; cases hxe
      · exact ⟨x, hx, hxe⟩
    · rw [hb, Py.error_bind]

theorem NestedDict.at_of_get (d : NestedDict) (dataset method : String) :
    d.at dataset method = match d.get dataset method with
      | none => .error .key
      | some v => .ok v := by
  unfold NestedDict.at NestedDict.get
  cases dictGet d dataset with
  | none => rfl
  | some inner => cases h : dictGet inner method <;> simp [h]

theorem xTicks_length (n : ℕ) : (xTicks n).length = n := by
  unfold xTicks
  split_ifs with h
  · simp [h]
  · simp

theorem xTicks_get (n i : ℕ) (h : i < (xTicks n).length) : (xTicks n)[i] = (i : ℝ) * (1 / ((n : ℝ) - 1)) := by
  rw [xTicks_length] at h
  unfold xTicks
  split_ifs with h1
  · subst h1
    have : i = 0 := by omega
    subst this
    simp
  · simp

theorem pyAt_get {α : Type} {l : List α} {n : ℕ} (h : n < l.length) : pyAt l n = .ok l[n] := by
  unfold pyAt
  rw [List.getElem?_eq_getElem h]

/-- The plot of one dataset. -/
noncomputable def boxPlotOf (dataset : String) (methods : List String) (p o : List (List ℝ)) : BoxPlot where
  dataset := dataset
  ticks := (xTicks methods.length).zip methods
  position := List.zipWith (fun t v => ⟨t - 0.3 / methods.length, 0.3 / methods.length, v⟩) (xTicks methods.length) p
  orientation := List.zipWith (fun t v => ⟨t + 0.3 / methods.length, 0.3 / methods.length, v⟩)
    (xTicks methods.length) o
  xlim := (0 - 2.5 * (0.3 / methods.length), ((methods.length - 1 : ℕ) : ℝ) * (1 / ((methods.length : ℝ) - 1)) +
    2.5 * (0.3 / methods.length))

theorem generateBoxPlot_ok (dataset : String) (methods : List String) (p o : List (List ℝ)) (hn : methods.length ≠ 0) :
    generateBoxPlot dataset methods p o = .ok (boxPlotOf dataset methods p o) := by
  unfold generateBoxPlot boxPlotOf
  have h0 : 0 < (xTicks methods.length).length := by rw [xTicks_length]; omega
  have h1 : (xTicks methods.length).length - 1 < (xTicks methods.length).length := by omega
  dsimp only
  rw [pyAt_get h0, pyAt_get h1, xTicks_get, xTicks_get]
  simp only [pyRequire, if_pos hn, Py.ok_bind, Py.pure_eq]
  rw [xTicks_length]
  simp

theorem generateBoxPlot_none (dataset : String) (p o : List (List ℝ)) :
    generateBoxPlot dataset [] p o = .error .zeroDivision := by
  simp [generateBoxPlot, pyRequire]

theorem zipWith_values {f : ℝ → List ℝ → Box} (hf : ∀ t v, (f t v).values = v) (ts : List ℝ) (vs : List (List ℝ))
    (h : ts.length = vs.length) : (List.zipWith f ts vs).map (·.values) = vs := by
  induction ts generalizing vs with
  | nil => cases vs with
    | nil => rfl
    | cons v vs => simp at h
  | cons t ts ih => cases vs with
    | nil => simp at h
    | cons v vs => simp [hf, ih vs (by simpa using h)]

/-- The boxes of one dataset in the plot of the runtimes, once their values are known. -/
noncomputable def timeGroup (num_methods num_datasets i : ℕ) (dataset color : String) (values : List (List ℝ)) :
    TimeBoxes :=
  ⟨dataset, color, List.zipWith (fun t v => ⟨t + ((i : ℝ) - num_datasets / 2 + 0.5) *
    (0.4 / num_methods / num_datasets) * 2, 0.6 / num_methods / num_datasets, v⟩) (xTicks num_methods) values⟩

theorem timeBoxes_ok {methods : List String} {D : ℕ} {d : NestedDict} {colors : List String} {i : ℕ} {dataset : String}
    {v : List (List ℝ)} (hv : d.boxes methods dataset = .ok v) (hi : i < colors.length) :
    timeBoxes methods D d colors i dataset = .ok (timeGroup methods.length D i dataset colors[i] v) := by
  unfold timeBoxes timeGroup
  dsimp only
  rw [hv, Py.ok_bind, pyAt_get hi, Py.ok_bind, Py.pure_eq]

theorem timeBoxesFrom_ok {methods : List String} {D : ℕ} {d : NestedDict} {colors : List String}
    {values : String → List (List ℝ)} (datasets : List String)
    (hv : ∀ ds ∈ datasets, d.boxes methods ds = .ok (values ds)) (i : ℕ) (hi : i + datasets.length ≤ colors.length) :
    timeBoxesFrom methods D d colors i datasets = .ok ((datasets.zip ((List.range datasets.length).map (i + ·))).map
      fun p => timeGroup methods.length D p.2 p.1 (colors.getD p.2 "") (values p.1)) := by
  induction datasets generalizing i with
  | nil => rfl
  | cons ds datasets ih =>
    simp only [List.length_cons] at hi
    have hlt : i < colors.length := by omega
    rw [timeBoxesFrom, timeBoxes_ok (hv ds (by simp)) hlt, Py.ok_bind,
      ih (fun x hx => hv x (by simp [hx])) (i + 1) (by omega), Py.ok_bind, Py.pure_eq, List.length_cons,
      List.range_succ_eq_map, List.map_cons, List.zip_cons_cons, List.map_cons, List.map_map]
    have : ((i + ·) ∘ Nat.succ) = (i + 1 + ·) := by
      funext k
      simp only [Function.comp, Nat.succ_eq_add_one]
      omega
    rw [this, Nat.add_zero]
    congr 2
    simp [List.getD_eq_getElem?_getD, List.getElem?_eq_getElem hlt]

/-- The plot of the runtimes, once the values are known. -/
noncomputable def timePlotOf (methods datasets colors : List String) (values : String → List (List ℝ)) : TimePlot where
  ticks := (xTicks methods.length).zip methods
  groups := (datasets.zip (List.range datasets.length)).map fun p =>
    timeGroup methods.length datasets.length p.2 p.1 (colors.getD p.2 "") (values p.1)
  xlim := (0 - 2.5 * (0.4 / methods.length / datasets.length) * datasets.length,
    ((methods.length - 1 : ℕ) : ℝ) * (1 / ((methods.length : ℝ) - 1)) +
      2.5 * (0.4 / methods.length / datasets.length) * datasets.length)

theorem generateTimePlot_ok {methods datasets : List String} {d : NestedDict} {colors : List String}
    {values : String → List (List ℝ)} (hv : ∀ ds ∈ datasets, d.boxes methods ds = .ok (values ds))
    (hc : datasets.length ≤ colors.length) (hn : methods.length ≠ 0) (hd : datasets.length ≠ 0) :
    generateTimePlot methods datasets d colors = .ok (timePlotOf methods datasets colors values) := by
  unfold generateTimePlot timePlotOf
  have h0 : 0 < (xTicks methods.length).length := by rw [xTicks_length]; omega
  have h1 : (xTicks methods.length).length - 1 < (xTicks methods.length).length := by omega
  have hr : (List.range datasets.length).map (0 + ·) = List.range datasets.length := by simp
  dsimp only
  rw [timeBoxesFrom_ok datasets hv 0 (by omega), pyAt_get h0, pyAt_get h1, hr, xTicks_get, xTicks_get]
  simp only [pyRequire, if_pos hn, if_pos hd, Py.ok_bind, Py.pure_eq]
  rw [xTicks_length]
  simp

theorem timeBoxesFrom_colors {methods : List String} {D : ℕ} {d : NestedDict} {colors : List String}
    (datasets : List String) (hv : ∀ ds ∈ datasets, ∃ v, d.boxes methods ds = .ok v) (i : ℕ)
    (hi : i ≤ colors.length) (hlen : colors.length < i + datasets.length) :
    timeBoxesFrom methods D d colors i datasets = .error .index := by
  induction datasets generalizing i with
  | nil => simp at hlen; omega
  | cons ds datasets ih =>
    simp only [List.length_cons] at hlen
    obtain ⟨v, hv0⟩ := hv ds (by simp)
    rw [timeBoxesFrom]
    by_cases hlt : i < colors.length
    · rw [timeBoxes_ok hv0 hlt, Py.ok_bind, ih (fun x hx => hv x (by simp [hx])) (i + 1) (by omega) (by omega),
        Py.error_bind]
    · have : timeBoxes methods D d colors i ds = .error .index := by
        unfold timeBoxes
        dsimp only
        have hn : pyAt colors i = .error .index := by
          unfold pyAt
          rw [List.getElem?_eq_none (by omega)]
        rw [hv0, Py.ok_bind, hn, Py.error_bind]
      rw [this, Py.error_bind]

theorem timeBoxesFrom_inv {methods : List String} {D : ℕ} {d : NestedDict} {colors : List String}
    (datasets : List String) (i : ℕ) (gs : List TimeBoxes)
    (h : timeBoxesFrom methods D d colors i datasets = .ok gs) (k : ℕ) (g : TimeBoxes) (hk : gs[k]? = some g) :
    k < datasets.length ∧ ∃ ds color v, g = timeGroup methods.length D (i + k) ds color v := by
  induction datasets generalizing i gs k with
  | nil =>
    cases h
    simp at hk
  | cons ds datasets ih =>
    rw [timeBoxesFrom] at h
    obtain ⟨b, hb, h⟩ := Py.bind_eq_ok.mp h
    obtain ⟨bs, hbs, h⟩ := Py.bind_eq_ok.mp h
    cases h
    cases k with
    | zero =>
      simp only [List.getElem?_cons_zero, Option.some.injEq] at hk
      subst hk
      refine ⟨by simp, ?_⟩
      unfold timeBoxes at hb
      dsimp only at hb
      obtain ⟨v, _, hb⟩ := Py.bind_eq_ok.mp hb
      obtain ⟨color, _, hb⟩ := Py.bind_eq_ok.mp hb
      cases hb
      exact ⟨ds, color, v, rfl⟩
    | succ k =>
      rw [List.getElem?_cons_succ] at hk
      obtain ⟨h1, h2⟩ := ih (i + 1) bs hbs k hk
      refine ⟨by simp [h1], ?_⟩
      rw [show i + (k + 1) = i + 1 + k by omega]
      exact h2

theorem generateTimePlot_inv {methods datasets : List String} {d : NestedDict} {colors : List String} {plot : TimePlot}
    (h : generateTimePlot methods datasets d colors = .ok plot) :
    methods.length ≠ 0 ∧ datasets.length ≠ 0 ∧
    timeBoxesFrom methods datasets.length d colors 0 datasets = .ok plot.groups ∧
    plot.xlim = ((0 : ℝ) - 2.5 * (0.4 / methods.length / datasets.length) * datasets.length,
      ((methods.length - 1 : ℕ) : ℝ) * (1 / ((methods.length : ℝ) - 1)) +
        2.5 * (0.4 / methods.length / datasets.length) * datasets.length) := by
  by_cases hn : methods.length = 0
  · exfalso
    unfold generateTimePlot at h
    simp [hn, pyRequire] at h
  by_cases hd : datasets.length = 0
  · exfalso
    unfold generateTimePlot at h
    simp [hn, hd, pyRequire] at h
  refine ⟨hn, hd, ?_⟩
  unfold generateTimePlot at h
  have h0 : 0 < (xTicks methods.length).length := by rw [xTicks_length]; omega
  have h1 : (xTicks methods.length).length - 1 < (xTicks methods.length).length := by omega
  dsimp only at h
  rw [pyAt_get h0, pyAt_get h1, xTicks_get, xTicks_get] at h
  simp only [pyRequire, ne_eq, hn, hd, not_false_eq_true, if_true, Py.ok_bind, Py.pure_eq] at h
  obtain ⟨gs, hgs, h⟩ := Py.bind_eq_ok.mp h
  cases h
  refine ⟨hgs, ?_⟩
  dsimp only
  rw [xTicks_length]
  simp

end HandEye
