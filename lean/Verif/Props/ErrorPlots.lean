import Verif.Lemmas.ErrorPlot
import Verif.Props.Collect

/-!
# C78: the error plots show the mean error for each size of the perturbation

The name of an order says what is plotted: `"translation_time_angle"` is one figure for each bin of the translation,
the bins of the time from top to bottom, the bins of the angle from left to right.
-/

namespace HandEye

namespace Spec

open Classical in
/-- The rows that count with the three parts of the perturbation in the given bins. -/
noncomputable def cell (grid : Quantity → MinMaxStep) (x y plot : Quantity) (rows : List ResultRow) (k j i : ℕ) :
    List ResultRow :=
  (goodRows rows).filter fun r =>
    InBin (grid plot) k (plot.size r) ∧ InBin (grid y) j (y.size r) ∧ InBin (grid x) i (x.size r)

/-- The orders for which there is a plot. -/
def plotOrders : List String := ["translation_time_angle", "angle_time_translation", "time_translation_angle"]

/-- The name of an order. -/
def orderName (x y plot : Quantity) : String := plot.name ++ "_" ++ y.name ++ "_" ++ x.name

/-- A grid is usable. -/
def UsableGrid (s : MinMaxStep) : Prop := 0 < s.step ∧ s.start ≤ s.end

end Spec

open Spec

/-- The rows as the loop sees them. -/
def spoiledOf (x y plot : Quantity) (r : ResultRow) : SpoiledError :=
  ⟨x.pick r.initial_guess_time r.initial_guess_translation_norm r.initial_guess_angle,
    y.pick r.initial_guess_time r.initial_guess_translation_norm r.initial_guess_angle,
    plot.pick r.initial_guess_time r.initial_guess_translation_norm r.initial_guess_angle,
    r.loop_error_position_m, r.loop_error_orientation_deg⟩

theorem size_eq (q : Quantity) (r : ResultRow) :
    q.size r = |q.pick r.initial_guess_time r.initial_guess_translation_norm r.initial_guess_angle| := by
  cases q <;> rfl

theorem orders_cases {x y plot : Quantity} (h : orderName x y plot ∈ plotOrders) :
    (x = .angle ∧ y = .time ∧ plot = .translation) ∨ (x = .translation ∧ y = .time ∧ plot = .angle) ∨
    (x = .angle ∧ y = .translation ∧ plot = .time) := by
  revert h
  cases x <;> cases y <;> cases plot <;> decide

theorem generateErrorPlot_eq {times translation angle : MinMaxStep} {grid : Quantity → MinMaxStep}
    (hgrid : grid = Quantity.pick times translation angle) (hu : ∀ q, UsableGrid (grid q)) {N : Quantity → ℕ}
    (hN : ∀ q, BinCount (grid q) (N q)) {x y plot : Quantity} (ho : orderName x y plot ∈ plotOrders)
    {rows : List ResultRow} {c : Collected} (h : collectData rows = .ok c) (n : ℕ) :
    generateErrorPlot times translation angle c (orderName x y plot) n = (do
      let bins ← binRows (edges (grid x) (N x)) (edges (grid y) (N y)) (edges (grid plot) (N plot))
        ((goodRows rows).map (spoiledOf x y plot))
        (binsOf (N plot + 1) (N y + 1) (N x + 1) fun _ _ _ => [], binsOf (N plot + 1) (N y + 1) (N x + 1) fun _ _ _ => [])
      errorMatrices (edges (grid x) (N x)) (edges (grid y) (N y)) (edges (grid plot) (N plot)) n bins) := by
  obtain ⟨h1, h2, h3, h4, h5⟩ := C59_spoiled rows c h
  have g1 : times.grid = .ok (edges (grid .time) (N .time)) := by
    have := grid_edges (hu .time).1 (hu .time).2 (hN .time)
    rw [hgrid] at this ⊢
    exact this
  have g2 : translation.grid = .ok (edges (grid .translation) (N .translation)) := by
    have := grid_edges (hu .translation).1 (hu .translation).2 (hN .translation)
    rw [hgrid] at this ⊢
    exact this
  have g3 : angle.grid = .ok (edges (grid .angle) (N .angle)) := by
    have := grid_edges (hu .angle).1 (hu .angle).2 (hN .angle)
    rw [hgrid] at this ⊢
    exact this
  unfold generateErrorPlot
  rw [pyAssert_pos (by rw [h1, h2]; simp), Py.ok_bind, g1, Py.ok_bind, g2, Py.ok_bind, g3, Py.ok_bind]
  rcases orders_cases ho with ⟨rfl, rfl, rfl⟩ | ⟨rfl, rfl, rfl⟩ | ⟨rfl, rfl, rfl⟩
  · have e : plotAxes (orderName .angle .time .translation) (edges (grid .time) (N .time))
        (edges (grid .translation) (N .translation)) (edges (grid .angle) (N .angle)) c =
        .ok ⟨edges (grid .angle) (N .angle), edges (grid .time) (N .time), edges (grid .translation) (N .translation),
          c.spoiled_initial_guess_angle_offsets, c.spoiled_initial_guess_time_offsets,
          c.spoiled_initial_guess_translation_norm_offsets⟩ := by
      unfold plotAxes
      rw [if_pos (by decide)]
    rw [e, Py.ok_bind]
    dsimp only
    rw [h1, h2, h3, h4, h5, zipSpoils_map, emptyBins_eq, edges_length, edges_length, edges_length]
    rfl
  · have e : plotAxes (orderName .translation .time .angle) (edges (grid .time) (N .time))
        (edges (grid .translation) (N .translation)) (edges (grid .angle) (N .angle)) c =
        .ok ⟨edges (grid .translation) (N .translation), edges (grid .time) (N .time), edges (grid .angle) (N .angle),
          c.spoiled_initial_guess_translation_norm_offsets, c.spoiled_initial_guess_time_offsets,
          c.spoiled_initial_guess_angle_offsets⟩ := by
      unfold plotAxes
      rw [if_neg (by decide), if_pos (by decide)]
    rw [e, Py.ok_bind]
    dsimp only
    rw [h1, h2, h3, h4, h5, zipSpoils_map, emptyBins_eq, edges_length, edges_length, edges_length]
    rfl
  · have e : plotAxes (orderName .angle .translation .time) (edges (grid .time) (N .time))
        (edges (grid .translation) (N .translation)) (edges (grid .angle) (N .angle)) c =
        .ok ⟨edges (grid .angle) (N .angle), edges (grid .translation) (N .translation), edges (grid .time) (N .time),
          c.spoiled_initial_guess_angle_offsets, c.spoiled_initial_guess_translation_norm_offsets,
          c.spoiled_initial_guess_time_offsets⟩ := by
      unfold plotAxes
      rw [if_neg (by decide), if_neg (by decide), if_pos (by decide)]
    rw [e, Py.ok_bind]
    dsimp only
    rw [h1, h2, h3, h4, h5, zipSpoils_map, emptyBins_eq, edges_length, edges_length, edges_length]
    rfl

/-- The row has all three parts of the perturbation in some bin. -/
def Spec.Covered (grid : Quantity → MinMaxStep) (N : Quantity → ℕ) (r : ResultRow) : Prop :=
  ∀ q : Quantity, ∃ i < N q, InBin (grid q) i (q.size r)

theorem within_iff {grid : Quantity → MinMaxStep} {N : Quantity → ℕ} {x y plot : Quantity}
    (ho : orderName x y plot ∈ plotOrders) (r : ResultRow) :
    Within (grid x) (grid y) (grid plot) (N x) (N y) (N plot) (spoiledOf x y plot r) ↔ Covered grid N r := by
  unfold Within Covered spoiledOf
  dsimp only
  rw [← size_eq, ← size_eq, ← size_eq]
  constructor
  · rintro ⟨h1, h2, h3⟩ q
    rcases orders_cases ho with ⟨rfl, rfl, rfl⟩ | ⟨rfl, rfl, rfl⟩ | ⟨rfl, rfl, rfl⟩ <;> cases q <;> assumption
  · exact fun h => ⟨h x, h y, h plot⟩

theorem cellRows_map (grid : Quantity → MinMaxStep) (x y plot : Quantity) (rows : List ResultRow) (k j i : ℕ) :
    cellRows (grid x) (grid y) (grid plot) ((goodRows rows).map (spoiledOf x y plot)) k j i =
      (cell grid x y plot rows k j i).map (spoiledOf x y plot) := by
  classical
  unfold cellRows cell
  rw [List.filter_map]
  congr 1
  apply List.filter_congr
  intro r _
  simp only [Function.comp, size_eq]
  rfl

/-- If each row that counts lies in the grids, and each cell has the expected number of rows, then there is one figure
for each bin of the first part of the name, with a row for each bin of the second part and a column for each bin of the
third part.  The entries are the mean position error and the mean orientation error of exactly the rows in these bins.
Missing: the other results, for which there is an AssertionError. -/
theorem C78_matrices_partial (times translation angle : MinMaxStep) (grid : Quantity → MinMaxStep)
    (hgrid : grid = Quantity.pick times translation angle) (hu : ∀ q, UsableGrid (grid q)) (N : Quantity → ℕ)
    (hN : ∀ q, BinCount (grid q) (N q)) (x y plot : Quantity) (ho : orderName x y plot ∈ plotOrders)
    (rows : List ResultRow) (c : Collected) (h : collectData rows = .ok c) (n : ℕ) (hn : n ≠ 0)
    (hin : ∀ r ∈ goodRows rows, Covered grid N r)
    (hcount : ∀ k < N plot, ∀ j < N y, ∀ i < N x, (cell grid x y plot rows k j i).length = n) :
    ∃ m, generateErrorPlot times translation angle c (orderName x y plot) n = .ok m ∧ m.length = N plot ∧
      ∀ k (hk : k < m.length), m[k].length = N y ∧ ∀ j (hj : j < m[k].length), m[k][j].length = N x ∧
        ∀ i (hi : i < m[k][j].length), m[k][j][i] =
          (mean ((cell grid x y plot rows k j i).map (·.loop_error_position_m)),
           mean ((cell grid x y plot rows k j i).map (·.loop_error_orientation_deg))) := by
  rw [generateErrorPlot_eq hgrid hu hN ho h,
    binRows_in (hu x).1 (hu y).1 (hu plot).1 _ (by
      intro r hr
      obtain ⟨r', hr', rfl⟩ := List.mem_map.mp hr
      exact (within_iff ho r').mpr (hin r' hr')), Py.ok_bind]
  unfold errorMatrices
  rw [edges_length, edges_length, edges_length, Nat.add_sub_cancel, Nat.add_sub_cancel, Nat.add_sub_cancel]
  refine ⟨(List.range (N plot)).map fun k => (List.range (N y)).map fun j => (List.range (N x)).map fun i =>
    (mean ((cell grid x y plot rows k j i).map (·.loop_error_position_m)),
     mean ((cell grid x y plot rows k j i).map (·.loop_error_orientation_deg))), ?_, by simp, ?_⟩
  · refine Py.mapM_ok fun k hk => Py.mapM_ok fun j hj => Py.mapM_ok fun i hi => ?_
    rw [List.mem_range] at hk hj hi
    have hl := hcount k hk j hj i hi
    rw [meanErrors_ok hn (by omega) (by omega) (by omega)]
    · rw [cellRows_map]
      simp only [List.nil_append, List.map_map]
      rfl
    · rw [cellRows_map]
      simpa using hl
    · rw [cellRows_map]
      simpa using hl
  · intro k hk
    refine ⟨by simp, fun j hj => ⟨by simp, fun i hi => by simp⟩⟩

/-- If a row that counts has a part of its perturbation outside of the grid, also if it is exactly at the end of it, then
there is an AssertionError. -/
theorem C78_outside (times translation angle : MinMaxStep) (grid : Quantity → MinMaxStep)
    (hgrid : grid = Quantity.pick times translation angle) (hu : ∀ q, UsableGrid (grid q)) (N : Quantity → ℕ)
    (hN : ∀ q, BinCount (grid q) (N q)) (x y plot : Quantity) (ho : orderName x y plot ∈ plotOrders)
    (rows : List ResultRow) (c : Collected) (h : collectData rows = .ok c) (n : ℕ) (r : ResultRow)
    (hr : r ∈ goodRows rows) (q : Quantity)
    (hq : q.size r < (grid q).start ∨ (grid q).start + N q * (grid q).step ≤ q.size r) :
    generateErrorPlot times translation angle c (orderName x y plot) n = .error .assertion := by
  rw [generateErrorPlot_eq hgrid hu hN ho h,
    binRows_out (hu x).1 (hu y).1 (hu plot).1 _ ⟨_, List.mem_map_of_mem hr, ?_⟩, Py.error_bind]
  rw [within_iff ho]
  intro hc
  obtain ⟨i, hi, h1, h2⟩ := hc q
  have hs := (hu q).1
  have h3 : (i : ℝ) + 1 ≤ N q := by exact_mod_cast hi
  have h4 : (0 : ℝ) ≤ i := Nat.cast_nonneg _
  rcases hq with hq | hq
  · nlinarith
  · nlinarith

/-- If the rows lie in the grids but some cell has another number of rows than expected, then there is an
AssertionError. -/
theorem C78_count (times translation angle : MinMaxStep) (grid : Quantity → MinMaxStep)
    (hgrid : grid = Quantity.pick times translation angle) (hu : ∀ q, UsableGrid (grid q)) (N : Quantity → ℕ)
    (hN : ∀ q, BinCount (grid q) (N q)) (x y plot : Quantity) (ho : orderName x y plot ∈ plotOrders)
    (rows : List ResultRow) (c : Collected) (h : collectData rows = .ok c) (n : ℕ) (hn : n ≠ 0)
    (hin : ∀ r ∈ goodRows rows, Covered grid N r) (k j i : ℕ) (hk : k < N plot) (hj : j < N y) (hi : i < N x)
    (hcount : (cell grid x y plot rows k j i).length ≠ n) :
    generateErrorPlot times translation angle c (orderName x y plot) n = .error .assertion := by
  rw [generateErrorPlot_eq hgrid hu hN ho h,
    binRows_in (hu x).1 (hu y).1 (hu plot).1 _ (by
      intro r hr
      obtain ⟨r', hr', rfl⟩ := List.mem_map.mp hr
      exact (within_iff ho r').mpr (hin r' hr')), Py.ok_bind]
  unfold errorMatrices
  rw [edges_length, edges_length, edges_length, Nat.add_sub_cancel, Nat.add_sub_cancel, Nat.add_sub_cancel]
  have key : ∀ k ∈ List.range (N plot), ∀ j ∈ List.range (N y), ∀ i ∈ List.range (N x), ∀ res,
      res = meanErrors n (binsOf (N plot + 1) (N y + 1) (N x + 1) fun k j i =>
          [] ++ (cellRows (grid x) (grid y) (grid plot) ((goodRows rows).map (spoiledOf x y plot)) k j i).map
            (·.loop_error_position_m),
        binsOf (N plot + 1) (N y + 1) (N x + 1) fun k j i =>
          [] ++ (cellRows (grid x) (grid y) (grid plot) ((goodRows rows).map (spoiledOf x y plot)) k j i).map
            (·.loop_error_orientation_deg)) k j i →
      ((cell grid x y plot rows k j i).length = n → ∃ b, res = .ok b) ∧
      ((cell grid x y plot rows k j i).length ≠ n → res = .error .assertion) := by
    intro k hk j hj i hi res hres
    rw [List.mem_range] at hk hj hi
    subst hres
    constructor
    · intro hl
      rw [meanErrors_ok hn (by omega) (by omega) (by omega)]
      · exact ⟨_, rfl⟩
      · rw [cellRows_map]
        simpa using hl
      · rw [cellRows_map]
        simpa using hl
    · intro hl
      rw [meanErrors_count (by omega) (by omega) (by omega)]
      rw [cellRows_map]
      simpa using hl
  have step : ∀ {α β : Type} (l : List α) (f : α → Py β), (∀ a ∈ l, (∃ b, f a = .ok b) ∨ f a = .error .assertion) →
      (∃ b, List.mapM f l = .ok b) ∨ List.mapM f l = .error .assertion := by
    intro α β l f hf
    by_cases hx : ∃ a ∈ l, f a = .error .assertion
    · exact Or.inr (Py.mapM_error hf hx)
    · left
      push Not at hx
      induction l with
      | nil => exact ⟨[], rfl⟩
      | cons a l ih =>
        obtain ⟨b, hb⟩ := (hf a (by simp)).resolve_right (hx a (by simp))
        obtain ⟨bs, hbs⟩ := ih (fun x h => hf x (by simp [h])) fun x h => hx x (by simp [h])
        exact ⟨b :: bs, by rw [Py.mapM_cons, hb, Py.ok_bind, hbs, Py.ok_bind, Py.pure_eq]⟩
  have one : ∀ k ∈ List.range (N plot), ∀ j ∈ List.range (N y), ∀ i ∈ List.range (N x), ∀ res : Py (ℝ × ℝ), _ →
      (∃ b, res = Except.ok b) ∨ res = Except.error PyErr.assertion := fun k hk j hj i hi res hres =>
    (em ((cell grid x y plot rows k j i).length = n)).elim (fun h => Or.inl ((key k hk j hj i hi res hres).1 h)) fun h =>
      Or.inr ((key k hk j hj i hi res hres).2 h)
  refine Py.mapM_error (fun k hk => step _ _ fun j hj => step _ _ fun i hi => one k hk j hj i hi _ rfl)
    ⟨k, List.mem_range.mpr hk, Py.mapM_error (fun j hj => step _ _ fun i hi =>
      one k (List.mem_range.mpr hk) j hj i hi _ rfl) ⟨j, List.mem_range.mpr hj, Py.mapM_error (fun i hi =>
        one k (List.mem_range.mpr hk) j (List.mem_range.mpr hj) i hi _ rfl) ⟨i, List.mem_range.mpr hi, ?_⟩⟩⟩
  exact (key k (List.mem_range.mpr hk) j (List.mem_range.mpr hj) i (List.mem_range.mpr hi) _ rfl).2 hcount

/-- The grids of the script for the name of an order: the number of bins and the width of a bin.  For the last name the
order of the plot is `"time_translation_angle"`. -/
noncomputable def Spec.scriptGrids : List (String × String × (Quantity → ℕ × ℝ)) :=
  [("translation_time_angle", "translation_time_angle", Quantity.pick (8, 0.03) (1, 0.1) (8, 15 / 180 * Real.pi)),
   ("angle_time_translation", "angle_time_translation", Quantity.pick (8, 0.03) (8, 0.1) (1, 15 / 180 * Real.pi)),
   ("time_translation_angle", "time_translation_angle", Quantity.pick (1, 0.03) (8, 0.1) (8, 15 / 180 * Real.pi)),
   ("time_translation_angle_max", "time_translation_angle",
     Quantity.pick (1, 0.1) (10, 0.1) (12, 15 / 180 * Real.pi))]

theorem binCount_of {s : MinMaxStep} {N : ℕ} (hs : 0 < s.step) (h1 : s.end ≤ s.start + N * s.step)
    (h2 : s.start + ((N : ℝ) - 1) * s.step < s.end) : BinCount s N := by
  refine ⟨h1, fun M hM => ?_⟩
  by_contra hlt
  have h3 : (M : ℝ) + 1 ≤ N := by exact_mod_cast (not_le.mp hlt)
  have h4 : s.end ≤ s.start + M * s.step := hM
  nlinarith

/-- For each name the script has a usable grid for each part of the perturbation.  It starts at zero and has the listed
number of bins of the listed width.  For another name there is a NameError. -/
theorem C78_grids :
    (∀ e ∈ Spec.scriptGrids, ∃ s, plotSettings e.1 = .ok s ∧ s.plot_order = e.2.1 ∧ ∀ q : Quantity,
      UsableGrid (q.pick s.times s.translation s.angle) ∧ (q.pick s.times s.translation s.angle).start = 0 ∧
      (q.pick s.times s.translation s.angle).step = (e.2.2 q).2 ∧
      BinCount (q.pick s.times s.translation s.angle) (e.2.2 q).1) ∧
    ∀ order, (∀ e ∈ Spec.scriptGrids, order ≠ e.1) → plotSettings order = .error .name := by
  have hpi := Real.pi_pos
  have key : ∀ (s : MinMaxStep) (N : ℕ) (w : ℝ), s.start = 0 → s.step = w → 0 < w → s.end ≤ N * w →
      ((N : ℝ) - 1) * w < s.end → 0 ≤ s.end → UsableGrid s ∧ s.start = 0 ∧ s.step = w ∧ BinCount s N := by
    intro s N w h0 hw hpos h1 h2 h3
    subst hw
    refine ⟨⟨hpos, by rw [h0]; exact h3⟩, h0, rfl, binCount_of hpos ?_ ?_⟩
    · rw [h0, zero_add]; exact h1
    · rw [h0, zero_add]; exact h2
  constructor
  · intro e he
    simp only [Spec.scriptGrids, List.mem_cons, List.not_mem_nil, or_false] at he
    rcases he with rfl | rfl | rfl | rfl
    · refine ⟨_, by unfold plotSettings; rw [if_pos rfl], rfl, fun q => ?_⟩
      cases q
      all_goals
        apply key <;> simp only [Quantity.pick] <;> norm_num
      all_goals linarith
    · refine ⟨_, by unfold plotSettings; rw [if_neg (by decide), if_pos rfl], rfl, fun q => ?_⟩
      cases q
      all_goals
        apply key <;> simp only [Quantity.pick] <;> norm_num
      all_goals linarith
    · refine ⟨_, by unfold plotSettings; rw [if_neg (by decide), if_neg (by decide), if_pos rfl], rfl, fun q => ?_⟩
      cases q
      all_goals
        apply key <;> simp only [Quantity.pick] <;> norm_num
      all_goals linarith
    · refine ⟨_, by unfold plotSettings; rw [if_neg (by decide), if_neg (by decide), if_neg (by decide), if_pos rfl], rfl,
        fun q => ?_⟩
      cases q
      all_goals
        apply key <;> simp only [Quantity.pick] <;> norm_num
      all_goals linarith
  · intro order h
    simp only [Spec.scriptGrids, List.mem_cons, List.not_mem_nil, or_false, forall_eq_or_imp, forall_eq] at h
    unfold plotSettings
    rw [if_neg h.1, if_neg h.2.1, if_neg h.2.2.1, if_neg h.2.2.2]

/-- A row for the examples: perturbed by an angle only. -/
def spoiledRow (angle error : ℝ) : ResultRow :=
  ⟨"optimization_w_spoiled_init_calibration", true, 0, 0, 1, error, 10 * error, false, 1, angle, 0, 0, "lab"⟩

/-- Two bins for the angle, one for the others. -/
noncomputable def demoGrid : Quantity → MinMaxStep := Quantity.pick ⟨0, 1, 1⟩ ⟨0, 1, 1⟩ ⟨0, 2, 1⟩

theorem demoGrid_usable (q : Quantity) : UsableGrid (demoGrid q) := by
  cases q <;> constructor <;> norm_num [demoGrid, Quantity.pick]

theorem demoGrid_count (q : Quantity) : BinCount (demoGrid q) (q.pick 1 1 2) := by
  cases q <;> apply binCount_of <;> norm_num [demoGrid, Quantity.pick]

theorem demo_collect (l : List (ℝ × ℝ)) : ∃ c, collectData (l.map fun p => spoiledRow p.1 p.2) = .ok c := by
  refine (C59_outcome _).1 ?_
  intro r hr
  obtain ⟨p, _, rfl⟩ := List.mem_map.mp hr
  exact ⟨"S_PF_ES_O", rfl⟩

theorem demo_good (l : List (ℝ × ℝ)) :
    goodRows (l.map fun p => spoiledRow p.1 p.2) = l.map fun p => spoiledRow p.1 p.2 := by
  unfold goodRows
  rw [List.filter_eq_self]
  intro r hr
  obtain ⟨p, _, rfl⟩ := List.mem_map.mp hr
  rfl

/-- Four runs, two of them with an angle in the first bin: one figure with one row of two entries. -/
example : ∃ c, collectData ([(0.5, 1), (1.5, 5), (1, 7), (0, 3)].map fun p => spoiledRow p.1 p.2) = .ok c ∧
    generateErrorPlot ⟨0, 1, 1⟩ ⟨0, 1, 1⟩ ⟨0, 2, 1⟩ c "translation_time_angle" 2 = .ok [[[(2, 20), (6, 60)]]] := by
  obtain ⟨c, hc⟩ := demo_collect [(0.5, 1), (1.5, 5), (1, 7), (0, 3)]
  have hcell : ∀ i, cell demoGrid .angle .time .translation
      ([(0.5, 1), (1.5, 5), (1, 7), (0, 3)].map fun p => spoiledRow p.1 p.2) 0 0 i =
      if i = 0 then [spoiledRow 0.5 1, spoiledRow 0 3] else if i = 1 then [spoiledRow 1.5 5, spoiledRow 1 7] else [] := by
    intro i
    unfold cell
    rw [demo_good]
    rcases i with _ | _ | i
    · norm_num [List.filter_cons, spoiledRow, InBin, demoGrid, Quantity.pick, Quantity.size, abs_of_pos]
    · norm_num [List.filter_cons, spoiledRow, InBin, demoGrid, Quantity.pick, Quantity.size, abs_of_pos]
    · have h0 : (0 : ℝ) ≤ i := Nat.cast_nonneg _
      rw [if_neg (by omega), if_neg (by omega), List.filter_eq_nil_iff]
      intro r hr
      simp only [List.map_cons, List.map_nil, List.mem_cons, List.not_mem_nil, or_false] at hr
      simp only [decide_eq_true_eq]
      rintro ⟨_, _, h, _⟩
      simp only [demoGrid, Quantity.pick, Quantity.size, zero_add, mul_one] at h
      push_cast at h
      rcases hr with rfl | rfl | rfl | rfl <;> norm_num [spoiledRow, abs_of_pos] at h <;> linarith
  obtain ⟨m, h1, h2, h3⟩ := C78_matrices_partial ⟨0, 1, 1⟩ ⟨0, 1, 1⟩ ⟨0, 2, 1⟩ demoGrid rfl demoGrid_usable
    (Quantity.pick 1 1 2) demoGrid_count .angle .time .translation (by decide) _ c hc 2 (by norm_num) (by
      rw [demo_good]
      intro r hr q
      simp only [List.map_cons, List.map_nil, List.mem_cons, List.not_mem_nil, or_false] at hr
      cases q
      · refine ⟨0, by decide, ?_⟩
        rcases hr with rfl | rfl | rfl | rfl <;> norm_num [spoiledRow, InBin, demoGrid, Quantity.pick, Quantity.size]
      · refine ⟨0, by decide, ?_⟩
        rcases hr with rfl | rfl | rfl | rfl <;> norm_num [spoiledRow, InBin, demoGrid, Quantity.pick, Quantity.size]
      · rcases hr with rfl | rfl | rfl | rfl
        · exact ⟨0, by decide, by norm_num [spoiledRow, InBin, demoGrid, Quantity.pick, Quantity.size, abs_of_pos]⟩
        · exact ⟨1, by decide, by norm_num [spoiledRow, InBin, demoGrid, Quantity.pick, Quantity.size, abs_of_pos]⟩
        · exact ⟨1, by decide, by norm_num [spoiledRow, InBin, demoGrid, Quantity.pick, Quantity.size, abs_of_pos]⟩
        · exact ⟨0, by decide, by norm_num [spoiledRow, InBin, demoGrid, Quantity.pick, Quantity.size, abs_of_pos]⟩) (by
      intro k hk j hj i hi
      simp only [Quantity.pick, Nat.lt_one_iff] at hk hj hi
      subst hk hj
      rw [hcell]
      interval_cases i <;> rfl)
  refine ⟨c, hc, h1.trans (congrArg Except.ok ?_)⟩
  apply List.ext_getElem (by simp [h2, Quantity.pick])
  intro k hk1 hk2
  have hk : k = 0 := by simpa using hk2
  subst hk
  apply List.ext_getElem (by simp [(h3 0 hk1).1, Quantity.pick])
  intro j hj1 hj2
  have hj : j = 0 := by simpa using hj2
  subst hj
  apply List.ext_getElem (by simp [((h3 0 hk1).2 0 hj1).1, Quantity.pick])
  intro i hi1 hi2
  rw [((h3 0 hk1).2 0 hj1).2 i hi1, hcell]
  have hi : i < 2 := by simpa using hi2
  interval_cases i <;> norm_num [spoiledRow, mean]

end HandEye
