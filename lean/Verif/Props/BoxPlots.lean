import Verif.Lemmas.Plots
import Verif.Props.Collect

/-!
# C77: the box plots show the results of each algorithm on each dataset

`goodRows` are the rows that count (successful and well-conditioned).
-/

namespace HandEye

namespace Spec

/-- The datasets of the rows that count, in the order of their first row. -/
def datasets (rows : List ResultRow) : List String := ((goodRows rows).map (·.dataset)).eraseDups

/-- The algorithms of the rows that count, in the order of their first row. -/
def algorithms (rows : List ResultRow) : List String := ((goodRows rows).map (·.method)).eraseDups

/-- The rows that count of an algorithm on a dataset. -/
def runs (rows : List ResultRow) (dataset algorithm : String) : List ResultRow :=
  (goodRows rows).filter fun r => r.dataset = dataset ∧ r.method = algorithm

/-- Every algorithm has a row that counts on every dataset. -/
def Complete (rows : List ResultRow) : Prop :=
  ∀ d ∈ datasets rows, ∀ a ∈ algorithms rows, runs rows d a ≠ []

/-- For each algorithm the values of its runs on the dataset. -/
def perAlgorithm (rows : List ResultRow) (dataset : String) (value : ResultRow → ℝ) : List (List ℝ) :=
  (algorithms rows).map fun a => (runs rows dataset a).map value

end Spec

theorem methods_forall₂ {rows : List ResultRow} {c : Collected} (h : collectData rows = .ok c) :
    List.Forall₂ (fun m a => methodNames.lookup a = some m) c.methods (Spec.algorithms rows) := by
  have h1 := (C59_methods rows c h).2.2
  have h2 : List.Forall₂ Eq (c.methods.map some) ((Spec.algorithms rows).map fun a => methodNames.lookup a) := by
    rw [List.forall₂_eq_eq_eq]
    exact h1
  rw [List.forall₂_map_left_iff, List.forall₂_map_right_iff] at h2
  exact h2.imp fun _ _ => Eq.symm

theorem perDataset_at {rows : List ResultRow} {c : Collected} (h : collectData rows = .ok c) (d a m : String)
    (ha : methodNames.lookup a = some m) :
    (c.position_rmses_per_method.at d m = if Spec.runs rows d a = [] then .error .key else
      .ok ((Spec.runs rows d a).map (·.position_rmse))) ∧
    (c.orientation_rmses_per_method.at d m = if Spec.runs rows d a = [] then .error .key else
      .ok ((Spec.runs rows d a).map (·.orientation_rmse))) ∧
    (c.runtimes_per_method.at d m = if Spec.runs rows d a = [] then .error .key else
      .ok ((Spec.runs rows d a).map fun r => r.runtime + r.runtime_optimization)) := by
  obtain ⟨h1, h2, h3⟩ := C59_per_dataset rows c h d a m ha (Spec.runs rows d a) rfl
  simp only [NestedDict.at_of_get, h1, h2, h3]
  by_cases hr : Spec.runs rows d a = []
  · simp only [if_pos hr, and_self]
  · simp only [if_neg hr, and_self]

/-- The list comprehensions of lines 318, 319 and 76. -/
theorem boxes_outcome {rows : List ResultRow} {methods : List String} {d : String} {dict : NestedDict}
    {value : ResultRow → ℝ}
    (hm : List.Forall₂ (fun m a => methodNames.lookup a = some m) methods (Spec.algorithms rows))
    (hat : ∀ a m, methodNames.lookup a = some m → dict.at d m = if Spec.runs rows d a = [] then .error .key else
      .ok ((Spec.runs rows d a).map value)) :
    ((∀ a ∈ Spec.algorithms rows, Spec.runs rows d a ≠ []) →
      dict.boxes methods d = .ok (Spec.perAlgorithm rows d value)) ∧
    ((∃ a ∈ Spec.algorithms rows, Spec.runs rows d a = []) → dict.boxes methods d = .error .key) := by
  constructor
  · intro h
    unfold NestedDict.boxes Spec.perAlgorithm
    rw [Py.mapM_eq_ok, List.forall₂_map_right_iff]
    rw [List.forall₂_iff_get] at hm ⊢
    refine ⟨hm.1, fun i h1 h2 => ?_⟩
    rw [hat _ _ (hm.2 i h1 h2), if_neg (h _ (List.get_mem _ _))]
  · rintro ⟨a, ha, hr⟩
    unfold NestedDict.boxes
    rw [List.forall₂_iff_get] at hm
    refine Py.mapM_error ?_ ?_
    · intro m hmem
      obtain ⟨i, hi⟩ := List.mem_iff_get.mp hmem
      have := hm.2 i.1 i.2 (by rw [← hm.1]; exact i.2)
      rw [← hi, hat _ _ this]
      split_ifs
      · exact Or.inr rfl
      · exact Or.inl ⟨_, rfl⟩
    · obtain ⟨i, hi⟩ := List.mem_iff_get.mp ha
      have := hm.2 i.1 (by rw [hm.1]; exact i.2) i.2
      refine ⟨methods.get ⟨i.1, by rw [hm.1]; exact i.2⟩, List.get_mem _ _, ?_⟩
      rw [hat _ _ this]
      exact if_pos (by rw [← hi] at hr; exact hr)

theorem ticks_names {ticks : List ℝ} {methods : List String} (h : ticks.length = methods.length) :
    (ticks.zip methods).map (fun t => some t.2) = methods.map some := by
  have : (fun t : ℝ × String => some t.2) = some ∘ Prod.snd := rfl
  rw [this, ← List.map_map, List.map_snd_zip (le_of_eq h.symm)]

theorem no_methods {rows : List ResultRow} {c : Collected} (h : collectData rows = .ok c) (hg : goodRows rows ≠ []) :
    c.methods.length ≠ 0 := by
  rw [(methods_forall₂ h).length_eq]
  obtain ⟨r, hr⟩ := List.exists_mem_of_ne_nil _ hg
  have : r.method ∈ Spec.algorithms rows := List.mem_eraseDups.mpr (List.mem_map_of_mem hr)
  exact List.length_pos_iff.mpr (List.ne_nil_of_mem this) |>.ne'

theorem datasets_mem {rows : List ResultRow} {d : String} (h : d ∈ Spec.datasets rows) : goodRows rows ≠ [] := by
  intro h0
  simp [Spec.datasets, h0] at h

/-- If every algorithm has a row that counts on every dataset, then there is one plot for each dataset.  It has a tick
for each algorithm, with its short name.  The boxes at that tick are of the position errors and of the orientation
errors of exactly the rows of this algorithm on this dataset.  Missing: results that are not complete. -/
theorem C77_boxes_partial (rows : List ResultRow) (c : Collected) (h : collectData rows = .ok c)
    (hc : Spec.Complete rows) :
    ∃ plots, boxPlots c = .ok plots ∧ plots.map (·.dataset) = Spec.datasets rows ∧
      ∀ p ∈ plots, p.ticks.map (fun t => some t.2) = (Spec.algorithms rows).map (fun a => methodNames.lookup a) ∧
        p.position.map (·.values) = Spec.perAlgorithm rows p.dataset (·.position_rmse) ∧
        p.orientation.map (·.values) = Spec.perAlgorithm rows p.dataset (·.orientation_rmse) := by
  have hm := methods_forall₂ h
  have hds : c.datasets = Spec.datasets rows := (C59_methods rows c h).2.1
  have hn : ∀ d ∈ c.datasets, c.methods.length ≠ 0 := fun d hd => no_methods h (datasets_mem (hds ▸ hd))
  have hp : ∀ d ∈ c.datasets, c.position_rmses_per_method.boxes c.methods d =
      .ok (Spec.perAlgorithm rows d (·.position_rmse)) := fun d hd =>
    (boxes_outcome hm fun a m ha => (perDataset_at h d a m ha).1).1 (hc d (hds ▸ hd))
  have ho : ∀ d ∈ c.datasets, c.orientation_rmses_per_method.boxes c.methods d =
      .ok (Spec.perAlgorithm rows d (·.orientation_rmse)) := fun d hd =>
    (boxes_outcome hm fun a m ha => (perDataset_at h d a m ha).2.1).1 (hc d (hds ▸ hd))
  refine ⟨c.datasets.map fun d => boxPlotOf d c.methods (Spec.perAlgorithm rows d (·.position_rmse))
    (Spec.perAlgorithm rows d (·.orientation_rmse)), Py.mapM_ok fun d hd => ?_, ?_, ?_⟩
  · rw [hp d hd, Py.ok_bind, ho d hd, Py.ok_bind, generateBoxPlot_ok _ _ _ _ (hn d hd)]
  · rw [List.map_map, ← hds]
    exact List.map_id' _
  · intro p hp
    obtain ⟨d, hd, rfl⟩ := List.mem_map.mp hp
    have hl : (xTicks c.methods.length).length = c.methods.length := xTicks_length _
    have hl' : ∀ f, (xTicks c.methods.length).length = (Spec.perAlgorithm rows d f).length := by
      intro f
      rw [hl, hm.length_eq, Spec.perAlgorithm, List.length_map]
    refine ⟨?_, zipWith_values (fun _ _ => rfl) _ _ (hl' _), zipWith_values (fun _ _ => rfl) _ _ (hl' _)⟩
    exact (ticks_names hl).trans (C59_methods rows c h).2.2

/-- The plot of the runtimes: for at most seven datasets there is a group of boxes for each dataset, with the runtimes
(with optimization) of exactly the rows of each algorithm on it, and different datasets have different colours. -/
theorem C77_times_partial (rows : List ResultRow) (c : Collected) (h : collectData rows = .ok c)
    (hg : goodRows rows ≠ []) (hc : Spec.Complete rows) (h7 : (Spec.datasets rows).length ≤ 7) :
    ∃ plot, generateTimePlot c.methods c.datasets c.runtimes_per_method plotColors = .ok plot ∧
      plot.groups.map (·.dataset) = Spec.datasets rows ∧ (plot.groups.map (·.color)).Nodup ∧
      plot.ticks.map (fun t => some t.2) = (Spec.algorithms rows).map (fun a => methodNames.lookup a) ∧
      ∀ g ∈ plot.groups, g.boxes.map (·.values) =
        Spec.perAlgorithm rows g.dataset (fun r => r.runtime + r.runtime_optimization) := by
  have hm := methods_forall₂ h
  have hds : c.datasets = Spec.datasets rows := (C59_methods rows c h).2.1
  have hn := no_methods h hg
  have hd0 : c.datasets.length ≠ 0 := by
    obtain ⟨r, hr⟩ := List.exists_mem_of_ne_nil _ hg
    have : r.dataset ∈ c.datasets := hds ▸ List.mem_eraseDups.mpr (List.mem_map_of_mem hr)
    exact List.length_pos_iff.mpr (List.ne_nil_of_mem this) |>.ne'
  have hv : ∀ d ∈ c.datasets, c.runtimes_per_method.boxes c.methods d =
      .ok (Spec.perAlgorithm rows d fun r => r.runtime + r.runtime_optimization) := fun d hd =>
    (boxes_outcome hm fun a m ha => (perDataset_at h d a m ha).2.2).1 (hc d (hds ▸ hd))
  have hcol : c.datasets.length ≤ plotColors.length := hds ▸ h7
  refine ⟨_, generateTimePlot_ok hv hcol hn hd0, ?_⟩
  have hlen : c.datasets.length = (List.range c.datasets.length).length := by simp
  refine ⟨?_, ?_, ?_, ?_⟩
  · unfold timePlotOf
    dsimp only
    rw [List.map_map, ← hds]
    exact List.map_fst_zip (le_of_eq hlen)
  · unfold timePlotOf
    dsimp only
    rw [List.map_map]
    have : ((fun g : TimeBoxes => g.color) ∘ fun p : String × ℕ => timeGroup c.methods.length c.datasets.length p.2 p.1
        (plotColors.getD p.2 "") (Spec.perAlgorithm rows p.1 fun r => r.runtime + r.runtime_optimization)) =
        (fun i => plotColors.getD i "") ∘ Prod.snd := rfl
    rw [this, ← List.map_map, List.map_snd_zip (le_of_eq hlen.symm)]
    refine List.Nodup.map_on ?_ List.nodup_range
    intro i hi j hj
    have hi : i < 7 := (List.mem_range.mp hi).trans_le hcol
    have hj : j < 7 := (List.mem_range.mp hj).trans_le hcol
    have key : ∀ i < 7, ∀ j < 7, plotColors.getD i "" = plotColors.getD j "" → i = j := by decide
    exact key i hi j hj
  · have hl : (xTicks c.methods.length).length = c.methods.length := xTicks_length _
    exact (ticks_names hl).trans (C59_methods rows c h).2.2
  · intro g hgm
    obtain ⟨p, _, rfl⟩ := List.mem_map.mp hgm
    refine zipWith_values (fun _ _ => rfl) _ _ ?_
    rw [xTicks_length, hm.length_eq]
    exact (List.length_map _).symm

/-- The left and the right edge of a box. -/
noncomputable def Spec.left (b : Box) : ℝ := b.position - b.width / 2

@[inherit_doc Spec.left] noncomputable def Spec.right (b : Box) : ℝ := b.position + b.width / 2

theorem zipWith_get {f : ℝ → List ℝ → Box} {ts : List ℝ} {vs : List (List ℝ)} {i : ℕ} {b : Box}
    (h : (List.zipWith f ts vs)[i]? = some b) : ∃ (hi : i < ts.length) (v : List ℝ), b = f ts[i] v := by
  obtain ⟨hi, rfl⟩ := List.getElem?_eq_some_iff.mp h
  rw [List.length_zipWith] at hi
  exact ⟨by omega, vs[i]'(by omega), by rw [List.getElem_zipWith]⟩

theorem tick_gap {n i j : ℕ} (hij : i < j) (hj : j < n) :
    (i : ℝ) * (1 / ((n : ℝ) - 1)) + 1 / n ≤ (j : ℝ) * (1 / ((n : ℝ) - 1)) := by
  have hn : (2 : ℝ) ≤ n := by exact_mod_cast (by omega : 2 ≤ n)
  have h1 : (1 : ℝ) / n ≤ 1 / ((n : ℝ) - 1) := one_div_le_one_div_of_le (by linarith) (by linarith)
  have h2 : (i : ℝ) + 1 ≤ j := by exact_mod_cast hij
  have h3 : 0 < 1 / ((n : ℝ) - 1) := one_div_pos.mpr (by linarith)
  nlinarith

theorem tick_range {n i : ℕ} (hi : i < n) :
    0 ≤ (i : ℝ) * (1 / ((n : ℝ) - 1)) ∧
      (i : ℝ) * (1 / ((n : ℝ) - 1)) ≤ ((n - 1 : ℕ) : ℝ) * (1 / ((n : ℝ) - 1)) := by
  have h3 : 0 ≤ 1 / ((n : ℝ) - 1) := one_div_nonneg.mpr (by
    have : (1 : ℝ) ≤ n := by exact_mod_cast (by omega : 1 ≤ n)
    linarith)
  refine ⟨mul_nonneg (Nat.cast_nonneg _) h3, mul_le_mul_of_nonneg_right ?_ h3⟩
  exact_mod_cast (by omega : i ≤ n - 1)

/-- In a box plot no two boxes overlap: at each tick the position is left of the orientation, both are left of what
belongs to the next ticks, and everything is within the limits of the axis. -/
theorem C77_layout (dataset : String) (methods : List String) (p o : List (List ℝ)) (plot : BoxPlot)
    (h : generateBoxPlot dataset methods p o = .ok plot) :
    (∀ (i : ℕ) (a b : Box), plot.position[i]? = some a → plot.orientation[i]? = some b → Spec.right a < Spec.left b) ∧
    (∀ (i j : ℕ) (a b : Box), i < j → (plot.position[i]? = some a ∨ plot.orientation[i]? = some a) →
      (plot.position[j]? = some b ∨ plot.orientation[j]? = some b) → Spec.right a < Spec.left b) ∧
    ∀ a ∈ plot.position ++ plot.orientation, plot.xlim.1 < Spec.left a ∧ Spec.right a < plot.xlim.2 := by
  by_cases hn : methods.length = 0
  · rw [List.length_eq_zero_iff.mp hn, generateBoxPlot_none] at h
    cases h
  rw [generateBoxPlot_ok _ _ _ _ hn] at h
  cases h
  have hu : (0 : ℝ) < 1 / methods.length := one_div_pos.mpr (by exact_mod_cast Nat.pos_of_ne_zero hn)
  have h03 : (0.3 : ℝ) / methods.length = 0.3 * (1 / methods.length) := by ring
  have hpos : ∀ (i : ℕ) (a : Box), (boxPlotOf dataset methods p o).position[i]? = some a → i < methods.length ∧
      Spec.left a = (i : ℝ) * (1 / ((methods.length : ℝ) - 1)) - 0.45 * (1 / methods.length) ∧
      Spec.right a = (i : ℝ) * (1 / ((methods.length : ℝ) - 1)) - 0.15 * (1 / methods.length) := by
    intro i a ha
    obtain ⟨hi, v, rfl⟩ := zipWith_get ha
    rw [xTicks_get]
    refine ⟨by rwa [xTicks_length] at hi, ?_, ?_⟩
    · simp only [Spec.left, h03]; ring
    · simp only [Spec.right, h03]; ring
  have hor : ∀ (i : ℕ) (a : Box), (boxPlotOf dataset methods p o).orientation[i]? = some a → i < methods.length ∧
      Spec.left a = (i : ℝ) * (1 / ((methods.length : ℝ) - 1)) + 0.15 * (1 / methods.length) ∧
      Spec.right a = (i : ℝ) * (1 / ((methods.length : ℝ) - 1)) + 0.45 * (1 / methods.length) := by
    intro i a ha
    obtain ⟨hi, v, rfl⟩ := zipWith_get ha
    rw [xTicks_get]
    refine ⟨by rwa [xTicks_length] at hi, ?_, ?_⟩
    · simp only [Spec.left, h03]; ring
    · simp only [Spec.right, h03]; ring
  have hlim : (boxPlotOf dataset methods p o).xlim = (-(0.75 * (1 / (methods.length : ℝ))),
      ((methods.length - 1 : ℕ) : ℝ) * (1 / ((methods.length : ℝ) - 1)) + 0.75 * (1 / methods.length)) := by
    unfold boxPlotOf
    simp only [h03]
    ext
    · simp only []; ring
    · simp only []; ring
  refine ⟨?_, ?_, ?_⟩
  · intro i a b ha hb
    rw [(hpos i a ha).2.2, (hor i b hb).2.1]
    linarith
  · intro i j a b hij ha hb
    have hj : j < methods.length := hb.elim (fun h => (hpos j b h).1) fun h => (hor j b h).1
    have hgap := tick_gap hij hj
    have h1 : Spec.right a ≤ (i : ℝ) * (1 / ((methods.length : ℝ) - 1)) + 0.45 * (1 / methods.length) := by
      rcases ha with ha | ha
      · rw [(hpos i a ha).2.2]; linarith
      · rw [(hor i a ha).2.2]
    have h2 : (j : ℝ) * (1 / ((methods.length : ℝ) - 1)) - 0.45 * (1 / methods.length) ≤ Spec.left b := by
      rcases hb with hb | hb
      · rw [(hpos j b hb).2.1]
      · rw [(hor j b hb).2.1]; linarith
    linarith
  · intro a ha
    rw [hlim]
    rcases List.mem_append.mp ha with ha | ha
    · obtain ⟨i, hi⟩ := List.mem_iff_getElem?.mp ha
      obtain ⟨h0, h1, h2⟩ := hpos i a hi
      obtain ⟨h3, h4⟩ := tick_range h0
      rw [h1, h2]
      dsimp only
      constructor <;> linarith
    · obtain ⟨i, hi⟩ := List.mem_iff_getElem?.mp ha
      obtain ⟨h0, h1, h2⟩ := hor i a hi
      obtain ⟨h3, h4⟩ := tick_range h0
      rw [h1, h2]
      dsimp only
      constructor <;> linarith

/-- In the plot of the runtimes no two boxes overlap: at each tick the datasets follow from left to right, all of them
are left of what belongs to the next ticks, and everything is within the limits of the axis. -/
theorem C77_layout_times (methods datasets : List String) (runtimes : NestedDict) (colors : List String)
    (plot : TimePlot) (h : generateTimePlot methods datasets runtimes colors = .ok plot) (k l : ℕ) (g g' : TimeBoxes)
    (hg : plot.groups[k]? = some g) (hg' : plot.groups[l]? = some g') (i j : ℕ) (a b : Box)
    (ha : g.boxes[i]? = some a) (hb : g'.boxes[j]? = some b) :
    (i < j ∨ i = j ∧ k < l → Spec.right a < Spec.left b) ∧ plot.xlim.1 < Spec.left a ∧
      Spec.right a < plot.xlim.2 := by
  obtain ⟨hn, hd, hgs, hlim⟩ := generateTimePlot_inv h
  obtain ⟨hk, ds, col, v, rfl⟩ := timeBoxesFrom_inv _ _ _ hgs k g hg
  obtain ⟨hl, ds', col', v', rfl⟩ := timeBoxesFrom_inv _ _ _ hgs l g' hg'
  obtain ⟨hi, va, rfl⟩ := zipWith_get ha
  obtain ⟨hj, vb, rfl⟩ := zipWith_get hb
  rw [xTicks_get, xTicks_get, hlim]
  rw [xTicks_length] at hi hj
  have hD : (0 : ℝ) < datasets.length := by exact_mod_cast Nat.pos_of_ne_zero hd
  have hN : (0 : ℝ) < methods.length := by exact_mod_cast Nat.pos_of_ne_zero hn
  obtain ⟨hi0, hi1⟩ := tick_range hi
  have hgap : i < j → _ := fun hij => tick_gap hij hj
  simp only [Spec.left, Spec.right, Nat.zero_add]
  have hk : (k : ℝ) + 1 ≤ datasets.length := by exact_mod_cast hk
  have hl : (l : ℝ) + 1 ≤ datasets.length := by exact_mod_cast hl
  have hk0 : (0 : ℝ) ≤ k := Nat.cast_nonneg _
  have hl0 : (0 : ℝ) ≤ l := Nat.cast_nonneg _
  have hkl : k < l → (k : ℝ) + 1 ≤ l := fun h => by exact_mod_cast h
  generalize hw : 1 / ((methods.length : ℝ) * datasets.length) = w
  have hw0 : 0 < w := by rw [← hw]; positivity
  have e1 : (0.4 : ℝ) / methods.length / datasets.length = 0.4 * w := by rw [← hw]; field_simp
  have e2 : (0.6 : ℝ) / methods.length / datasets.length = 0.6 * w := by rw [← hw]; field_simp
  have e3 : (1 : ℝ) / methods.length = datasets.length * w := by rw [← hw]; field_simp
  rw [e3] at hgap
  rw [e1, e2]
  have hij' : i = j → (i : ℝ) * (1 / ((methods.length : ℝ) - 1)) = (j : ℝ) * (1 / ((methods.length : ℝ) - 1)) :=
    fun h => by rw [h]
  generalize (i : ℝ) * (1 / ((methods.length : ℝ) - 1)) = xi at *
  generalize (j : ℝ) * (1 / ((methods.length : ℝ) - 1)) = xj at *
  generalize ((methods.length - 1 : ℕ) : ℝ) * (1 / ((methods.length : ℝ) - 1)) = xn at *
  generalize (datasets.length : ℝ) = D at *
  have m1 : ((k : ℝ) + 1) * w ≤ D * w := mul_le_mul_of_nonneg_right hk hw0.le
  have m2 : ((l : ℝ) + 1) * w ≤ D * w := mul_le_mul_of_nonneg_right hl hw0.le
  have m3 : 0 ≤ (k : ℝ) * w := mul_nonneg hk0 hw0.le
  have m4 : 0 ≤ (l : ℝ) * w := mul_nonneg hl0 hw0.le
  refine ⟨?_, ?_, ?_⟩
  · rintro (hij | ⟨hij, hkl'⟩)
    · have := hgap hij
      nlinarith
    · have m5 : ((k : ℝ) + 1) * w ≤ l * w := mul_le_mul_of_nonneg_right (hkl hkl') hw0.le
      have := hij' hij
      nlinarith
  · nlinarith
  · nlinarith

theorem boxPlots_incomplete {rows : List ResultRow} {c : Collected} (h : collectData rows = .ok c)
    (hc : ¬ Spec.Complete rows) : boxPlots c = .error .key := by
  have hm := methods_forall₂ h
  have hds : c.datasets = Spec.datasets rows := (C59_methods rows c h).2.1
  refine Py.mapM_error ?_ ?_
  · intro d hd
    have hp := boxes_outcome hm fun a m ha => (perDataset_at h d a m ha).1
    have ho := boxes_outcome hm fun a m ha => (perDataset_at h d a m ha).2.1
    by_cases hx : ∃ a ∈ Spec.algorithms rows, Spec.runs rows d a = []
    · rw [hp.2 hx]
      exact Or.inr rfl
    · push Not at hx
      rw [hp.1 hx, ho.1 hx, Py.ok_bind, Py.ok_bind,
        generateBoxPlot_ok _ _ _ _ (no_methods h (datasets_mem (hds ▸ hd)))]
      exact Or.inl ⟨_, rfl⟩
  · unfold Spec.Complete at hc
    push Not at hc
    obtain ⟨d, hd, a, ha, hr⟩ := hc
    refine ⟨d, hds ▸ hd, ?_⟩
    rw [(boxes_outcome hm fun a m ha => (perDataset_at h d a m ha).1).2 ⟨a, ha, hr⟩]
    rfl

/-- If some algorithm has no row that counts on some dataset, for instance because all its runs failed, then the script
raises KeyError. -/
theorem C77_incomplete (rows : List ResultRow) (order : String) (n : ℕ)
    (hk : ∀ r ∈ rows, ∃ short, methodNames.lookup r.method = some short) (hc : ¬ Spec.Complete rows) :
    generatePlots order n rows = .error .key := by
  obtain ⟨c, h⟩ := (C59_outcome rows).1 hk
  unfold generatePlots
  rw [h, Py.ok_bind, boxPlots_incomplete h hc, Py.error_bind]

/-- Without a row that counts the script raises ZeroDivisionError. -/
theorem C77_no_rows (rows : List ResultRow) (order : String) (n : ℕ)
    (hk : ∀ r ∈ rows, ∃ short, methodNames.lookup r.method = some short) (hg : goodRows rows = []) :
    generatePlots order n rows = .error .zeroDivision := by
  obtain ⟨c, h⟩ := (C59_outcome rows).1 hk
  have hm : c.methods = [] := by
    have := (methods_forall₂ h).length_eq
    simpa [Spec.algorithms, hg] using this
  have hds : c.datasets = [] := by
    rw [(C59_methods rows c h).2.1, hg]
    rfl
  unfold generatePlots
  have hb : boxPlots c = .ok [] := by unfold boxPlots; rw [hds]; rfl
  have ht : generateTimePlot c.methods c.datasets c.runtimes_per_method plotColors = .error .zeroDivision := by
    unfold generateTimePlot
    rw [hm]
    simp [pyRequire]
  rw [h, Py.ok_bind, hb, Py.ok_bind, ht, Py.error_bind]

/-- There are colours for seven datasets only: with more of them the script raises IndexError, after it has shown the
box plots. -/
theorem C77_colors (rows : List ResultRow) (order : String) (n : ℕ)
    (hk : ∀ r ∈ rows, ∃ short, methodNames.lookup r.method = some short) (hc : Spec.Complete rows)
    (h7 : 7 < (Spec.datasets rows).length) : generatePlots order n rows = .error .index := by
  obtain ⟨c, h⟩ := (C59_outcome rows).1 hk
  have hm := methods_forall₂ h
  have hds : c.datasets = Spec.datasets rows := (C59_methods rows c h).2.1
  have hg : goodRows rows ≠ [] := by
    obtain ⟨d, hd⟩ := List.exists_mem_of_length_pos (l := Spec.datasets rows) (by omega)
    exact datasets_mem hd
  have hn := no_methods h hg
  obtain ⟨plots, hb, _⟩ := C77_boxes_partial rows c h hc
  have hv : ∀ d ∈ c.datasets, ∃ v, c.runtimes_per_method.boxes c.methods d = .ok v := fun d hd =>
    ⟨_, (boxes_outcome hm fun a m ha => (perDataset_at h d a m ha).2.2).1 (hc d (hds ▸ hd))⟩
  have hd0 : c.datasets.length ≠ 0 := by rw [hds]; omega
  have ht : generateTimePlot c.methods c.datasets c.runtimes_per_method plotColors = .error .index := by
    unfold generateTimePlot
    dsimp only
    have hl : plotColors.length < 0 + c.datasets.length := by
      rw [hds, Nat.zero_add]
      exact h7
    rw [timeBoxesFrom_colors c.datasets hv 0 (Nat.zero_le _) hl]
    simp only [pyRequire, if_pos hn, if_pos hd0, Py.ok_bind, Py.error_bind]
  unfold generatePlots
  rw [h, Py.ok_bind, hb, Py.ok_bind, ht, Py.error_bind]

/-- A row for the examples. -/
def boxRow (method dataset : String) (success : Bool) (e : ℝ) : ResultRow :=
  ⟨method, success, e, 2 * e, 1, 0, 0, false, e, 0, 0, 0, dataset⟩

/-- Two algorithms on two datasets, the second one failed on the second dataset. -/
def failedOnce (success : Bool) : List ResultRow :=
  [boxRow "EC_opt" "lab" true 1, boxRow "ES_opt" "lab" true 2, boxRow "EC_opt" "lab" true 3,
   boxRow "EC_opt" "yard" true 4, boxRow "ES_opt" "yard" success 5]

theorem failedOnce_known (b : Bool) : ∀ r ∈ failedOnce b, ∃ short, methodNames.lookup r.method = some short := by
  intro r hr
  simp only [failedOnce, List.mem_cons, List.not_mem_nil, or_false] at hr
  rcases hr with rfl | rfl | rfl | rfl | rfl
  · exact ⟨"PF_EC_O", rfl⟩
  · exact ⟨"PF_ES_O", rfl⟩
  · exact ⟨"PF_EC_O", rfl⟩
  · exact ⟨"PF_EC_O", rfl⟩
  · exact ⟨"PF_ES_O", rfl⟩

/-- The plots are not always shown: one failed run is enough to lose all of them. -/
theorem C77_boxes_refuted : ¬ ∀ rows : List ResultRow,
    (∀ r ∈ rows, ∃ short, methodNames.lookup r.method = some short) → goodRows rows ≠ [] →
    ∀ c, collectData rows = .ok c → ∃ plots, boxPlots c = .ok plots := by
  intro h
  have hk := failedOnce_known false
  obtain ⟨c, hc⟩ := (C59_outcome (failedOnce false)).1 hk
  obtain ⟨plots, hp⟩ := h (failedOnce false) hk (by simp [goodRows, failedOnce, boxRow]) c hc
  have hinc : ¬ Spec.Complete (failedOnce false) := by
    intro hcomp
    refine hcomp "yard" (by decide) "ES_opt" (by decide) ?_
    simp [Spec.runs, goodRows, failedOnce, boxRow]
  rw [boxPlots_incomplete hc hinc] at hp
  cases hp

example : generatePlots "translation_time_angle" 60 (failedOnce false) = .error .key :=
  C77_incomplete _ _ _ (failedOnce_known false) fun hcomp => by
    refine hcomp "yard" (by decide) "ES_opt" (by decide) ?_
    simp [Spec.runs, goodRows, failedOnce, boxRow]

/-- Without the failure there are two plots, and the first one shows two runs of the first algorithm. -/
example : ∃ c p q, collectData (failedOnce true) = .ok c ∧ boxPlots c = .ok [p, q] ∧ p.dataset = "lab" ∧
    p.position.map (·.values) = [[1, 3], [2]] ∧ q.dataset = "yard" ∧
    q.orientation.map (·.values) = [[2 * 4], [2 * 5]] := by
  obtain ⟨c, hc⟩ := (C59_outcome (failedOnce true)).1 (failedOnce_known true)
  have hd : Spec.datasets (failedOnce true) = ["lab", "yard"] := by decide
  have ha : Spec.algorithms (failedOnce true) = ["EC_opt", "ES_opt"] := by decide
  obtain ⟨plots, h1, h2, h3⟩ := C77_boxes_partial (failedOnce true) c hc (by
    intro d hd' a ha'
    rw [hd] at hd'
    rw [ha] at ha'
    simp only [List.mem_cons, List.not_mem_nil, or_false] at hd' ha'
    rcases hd' with rfl | rfl <;> rcases ha' with rfl | rfl <;> simp [Spec.runs, goodRows, failedOnce, boxRow])
  rw [hd] at h2
  obtain ⟨p, q, rfl⟩ : ∃ p q, plots = [p, q] := List.length_eq_two.mp (by simpa using congrArg List.length h2)
  · simp only [List.map_cons, List.map_nil, List.cons.injEq, and_true] at h2
    refine ⟨c, p, q, hc, h1, h2.1, ?_, h2.2, ?_⟩
    · rw [(h3 p (by simp)).2.1, h2.1, Spec.perAlgorithm, ha]
      simp [Spec.runs, goodRows, failedOnce, boxRow]
    · rw [(h3 q (by simp)).2.2, h2.2, Spec.perAlgorithm, ha]
      simp [Spec.runs, goodRows, failedOnce, boxRow]

/-- Three algorithms on one dataset, boxes of width 0.1. -/
example : ∃ plot, generateBoxPlot "lab" ["PF_EC", "B", "RC"] [[1, 2], [3], [5]] [[1, 2], [3], [7]] = .ok plot ∧
    plot.position.map (·.values) = [[1, 2], [3], [5]] := by
  refine ⟨_, generateBoxPlot_ok _ _ _ _ (by simp), ?_⟩
  exact zipWith_values (fun _ _ => rfl) _ _ (by simp [xTicks_length])

end HandEye
