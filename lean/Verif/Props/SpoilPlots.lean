import Verif.Props.SpoilExperiments

/-! # C79: the plots of the experiments with spoiled initial guesses -/

namespace HandEye

namespace Spec

/-- Which plot shows which experiments: the name of the ranges, the name of the order, and what the columns, the rows and
the figures are. -/
def fitting : List (String × String × Quantity × Quantity × Quantity) :=
  [("time_angle", "translation_time_angle", .angle, .time, .translation),
   ("time_translation", "angle_time_translation", .translation, .time, .angle),
   ("angle_translation", "time_translation_angle", .angle, .translation, .time),
   ("angle_translation_complete", "time_translation_angle_max", .angle, .translation, .time)]

/-- An entry of one of the matrices. -/
def entry (m : List (List (List (ℝ × ℝ)))) (figure row column : ℕ) : Option (ℝ × ℝ) :=
  (m[figure]?.bind fun f => f[row]?).bind fun l => l[column]?

/-- Block number `b` of the rows, for blocks of `n` rows. -/
def block (rows : List ResultRow) (n b : ℕ) : List ResultRow := (rows.drop (b * n)).take n

end Spec

open Spec

theorem adjacent_inBin {s : MinMaxStep} (h0 : s.start = 0) {w : ℝ} (hw : s.step = w) (hpos : 0 < w) {n i : ℕ}
    {r : ℝ × ℝ} (h : some r = (adjacent w n)[i]?) {v : ℝ} (hv : InRange r v) : InBin s i v := by
  obtain ⟨hi, rfl⟩ := adjacent_get h
  obtain ⟨h1, h2⟩ := hv
  dsimp only at h1 h2
  unfold InBin
  rw [h0, hw, zero_add, zero_add]
  refine ⟨h1, ?_⟩
  rcases h2 with h2 | h2
  · exact h2
  · rw [h2]
    nlinarith

theorem adjacent_fits {s : MinMaxStep} {w : ℝ} {n : ℕ} (h : UsableGrid s) (h0 : s.start = 0) (hw : s.step = w)
    (hc : BinCount s n) (hpos : 0 < w) : UsableGrid s ∧ BinCount s (adjacent w n).length ∧
      ∀ (i : ℕ) (rr : ℝ × ℝ), some rr = (adjacent w n)[i]? → ∀ v, InRange rr v → InBin s i v :=
  ⟨h, by rw [adjacent_length]; exact hc, fun _ _ hr _ hv => adjacent_inBin h0 hw hpos hr hv⟩

/-- The ranges of the experiments are the bins of the plot. -/
theorem fitting_grid {f : String × String × Quantity × Quantity × Quantity} (hf : f ∈ fitting) :
    ∃ (r : OffsetRanges) (s : PlotSettings), (f.1, r) ∈ rangeTable ∧ plotSettings f.2.1 = .ok s ∧
      s.plot_order = orderName f.2.2.1 f.2.2.2.1 f.2.2.2.2 ∧ orderName f.2.2.1 f.2.2.2.1 f.2.2.2.2 ∈ plotOrders ∧
      ∀ q : Quantity, UsableGrid (q.pick s.times s.translation s.angle) ∧
        BinCount (q.pick s.times s.translation s.angle) (q.pick r.times r.translations r.angles).length ∧
        ∀ (i : ℕ) (rr : ℝ × ℝ), some rr = (q.pick r.times r.translations r.angles)[i]? → ∀ v, InRange rr v →
          InBin (q.pick s.times s.translation s.angle) i v := by
  have hpi := Real.pi_pos
  have hw : 0 < 15 / 180 * Real.pi := by positivity
  obtain ⟨hg, -⟩ := C78_grids
  simp only [fitting, List.mem_cons, List.not_mem_nil, or_false] at hf
  rcases hf with rfl | rfl | rfl | rfl
  · obtain ⟨s, hs, ho, hq⟩ := hg ("translation_time_angle", "translation_time_angle",
      Quantity.pick (8, 0.03) (1, 0.1) (8, 15 / 180 * Real.pi)) (by simp [scriptGrids])
    refine ⟨⟨adjacent 0.03 8, adjacent (15 / 180 * Real.pi) 8, adjacent 0.1 1⟩, s, by simp [rangeTable], hs,
      by rw [ho]; decide, by decide, ?_⟩
    intro q
    obtain ⟨q1, q2, q3, q4⟩ := hq q
    cases q
    · exact adjacent_fits q1 q2 q3 q4 (by norm_num)
    · exact adjacent_fits q1 q2 q3 q4 (by norm_num)
    · exact adjacent_fits q1 q2 q3 q4 hw
  · obtain ⟨s, hs, ho, hq⟩ := hg ("angle_time_translation", "angle_time_translation",
      Quantity.pick (8, 0.03) (8, 0.1) (1, 15 / 180 * Real.pi)) (by simp [scriptGrids])
    refine ⟨⟨adjacent 0.03 8, adjacent (15 / 180 * Real.pi) 1, adjacent 0.1 8⟩, s, by simp [rangeTable], hs,
      by rw [ho]; decide, by decide, ?_⟩
    intro q
    obtain ⟨q1, q2, q3, q4⟩ := hq q
    cases q
    · exact adjacent_fits q1 q2 q3 q4 (by norm_num)
    · exact adjacent_fits q1 q2 q3 q4 (by norm_num)
    · exact adjacent_fits q1 q2 q3 q4 hw
  · obtain ⟨s, hs, ho, hq⟩ := hg ("time_translation_angle", "time_translation_angle",
      Quantity.pick (1, 0.03) (8, 0.1) (8, 15 / 180 * Real.pi)) (by simp [scriptGrids])
    refine ⟨⟨adjacent 0.03 1, adjacent (15 / 180 * Real.pi) 8, adjacent 0.1 8⟩, s, by simp [rangeTable], hs,
      by rw [ho]; decide, by decide, ?_⟩
    intro q
    obtain ⟨q1, q2, q3, q4⟩ := hq q
    cases q
    · exact adjacent_fits q1 q2 q3 q4 (by norm_num)
    · exact adjacent_fits q1 q2 q3 q4 (by norm_num)
    · exact adjacent_fits q1 q2 q3 q4 hw
  · obtain ⟨s, hs, ho, hq⟩ := hg ("time_translation_angle_max", "time_translation_angle",
      Quantity.pick (1, 0.1) (10, 0.1) (12, 15 / 180 * Real.pi)) (by simp [scriptGrids])
    refine ⟨⟨[(0, 0)], adjacent (15 / 180 * Real.pi) 12, adjacent 0.1 10⟩, s, by simp [rangeTable], hs,
      by rw [ho]; decide, by decide, ?_⟩
    intro q
    obtain ⟨q1, q2, q3, q4⟩ := hq q
    cases q
    · refine ⟨q1, q4, fun i rr h v hv => ?_⟩
      have h' : i = 0 ∧ rr = (0, 0) := by
        cases i with
        | zero => exact ⟨rfl, by simpa [Quantity.pick] using h⟩
        | succ i => simp [Quantity.pick] at h
      obtain ⟨rfl, rfl⟩ := h'
      obtain ⟨h1, h2⟩ := hv
      dsimp only at h1 h2
      have hv0 : v = 0 := by rcases h2 with h2 | h2 <;> linarith
      unfold InBin
      rw [q2, q3, hv0]
      norm_num [Quantity.pick]
    · exact adjacent_fits q1 q2 q3 q4 (by norm_num)
    · exact adjacent_fits q1 q2 q3 q4 hw

theorem split_index {M k r : ℕ} (h : r < M * k) : ∃ u < M, ∃ v < k, r = u * k + v := by
  have hk : 0 < k := by
    rcases Nat.eq_zero_or_pos k with h0 | h0
    · rw [h0] at h
      omega
    · exact h0
  exact ⟨r / k, (Nat.div_lt_iff_lt_mul hk).mpr h, r % k, Nat.mod_lt _ hk, by rw [mul_comm]; exact (Nat.div_add_mod r k).symm⟩

theorem index_eq_iff {u u' k v v' : ℕ} (hv : v < k) (hv' : v' < k) : u * k + v = u' * k + v' ↔ u = u' ∧ v = v' := by
  constructor
  · intro h
    have h1 : (u * k + v) / k = u := by
      rw [mul_comm, Nat.mul_add_div (by omega), Nat.div_eq_of_lt hv, Nat.add_zero]
    have h2 : (u' * k + v') / k = u' := by
      rw [mul_comm, Nat.mul_add_div (by omega), Nat.div_eq_of_lt hv', Nat.add_zero]
    have h3 : u = u' := by rw [← h1, ← h2, h]
    subst h3
    exact ⟨rfl, by omega⟩
  · rintro ⟨rfl, rfl⟩
    rfl

/-- What is needed of the rows. -/
theorem rows_bins {optimizer : SpoilOptimizer} {pairs : List PairGuess} (hp : ∀ g ∈ pairs, Calibrated g) {sets : ℕ}
    {draws : ℕ → ℕ → SpoilDraws} (hd : ∀ e i, ValidDraws (draws e i)) {type : String} {r : OffsetRanges}
    (hr : (type, r) ∈ rangeTable) {n : ℕ} (hn : 0 < n) {rows : List ResultRow}
    (h : optimizationExperiments optimizer pairs sets draws type n = .ok rows) {j : ℕ} {row : ResultRow}
    (hj : rows[j]? = some row) :
    ∃ t a x v, ∃ (ht : t < r.times.length) (ha : a < r.angles.length) (hx : x < r.translations.length),
      v < n * pairs.length ∧
      j = ((t * r.angles.length + a) * r.translations.length + x) * (n * pairs.length) + v ∧
      row.success = true ∧ row.bad_singular_values = false ∧ row.method = "optimization_w_spoiled_init_calibration" ∧
      InRange r.times[t] |row.initial_guess_time| ∧ InRange r.angles[a] |row.initial_guess_angle| ∧
      InRange r.translations[x] |row.initial_guess_translation_norm| := by
  obtain ⟨hlen, hrow⟩ := C79_rows optimizer pairs hp sets draws hd (type, r) hr n hn rows h
  obtain ⟨hlen', hrow'⟩ := experiments_rows (C79_ranges.1 _ hr) hn h
  dsimp only at hlen hrow hrow'
  have hjl : j < rows.length := by
    by_contra hc
    rw [List.getElem?_eq_none (by omega)] at hj
    cases hj
  rw [hlen] at hjl
  obtain ⟨u1, hu1, p, hpl, rfl⟩ := split_index hjl
  obtain ⟨u2, hu2, i, hi, rfl⟩ := split_index hu1
  obtain ⟨u3, hu3, x, hx, rfl⟩ := split_index hu2
  obtain ⟨t, ht, a, ha, rfl⟩ := split_index hu3
  refine ⟨t, a, x, i * pairs.length + p, ht, ha, hx, ?_, by ring, ?_⟩
  · have := Nat.mul_le_mul_right pairs.length (Nat.succ_le_of_lt hi)
    rw [Nat.succ_mul] at this
    omega
  · obtain ⟨row', h1, -, -, h2, h3, h4⟩ := hrow t a x i p ht ha hx hi hpl
    rw [hj, Option.some.injEq] at h1
    subst h1
    obtain ⟨input, g, row', -, -, -, g4, g5, ⟨o, -, -, loop, hrw⟩⟩ := hrow' t a x i p ht ha hx hi hpl
    rw [hj, Option.some.injEq] at g5
    subst g5
    have hg : g ∈ pairs := List.mem_of_getElem? g4
    exact ⟨by rw [hrw]; exact (hp g hg).1, by rw [hrw]; exact (hp g hg).2.1, by rw [hrw]; rfl, h2, h3, h4⟩

/-- The rows in the bins of the plot are the blocks of the experiments. -/
theorem fitting_cells {optimizer : SpoilOptimizer} {pairs : List PairGuess} (hp : ∀ g ∈ pairs, Calibrated g)
    {sets : ℕ} {draws : ℕ → ℕ → SpoilDraws} (hd : ∀ e i, ValidDraws (draws e i))
    {f : String × String × Quantity × Quantity × Quantity} (hf : f ∈ fitting) {n : ℕ} (hn : 0 < n)
    {rows : List ResultRow} (h : optimizationExperiments optimizer pairs sets draws f.1 n = .ok rows) :
    ∃ r s c, (f.1, r) ∈ rangeTable ∧ plotSettings f.2.1 = .ok s ∧ collectData rows = .ok c ∧
      s.plot_order = orderName f.2.2.1 f.2.2.2.1 f.2.2.2.2 ∧ orderName f.2.2.1 f.2.2.2.1 f.2.2.2.2 ∈ plotOrders ∧
      (∀ q : Quantity, UsableGrid (q.pick s.times s.translation s.angle) ∧
        BinCount (q.pick s.times s.translation s.angle) (q.pick r.times r.translations r.angles).length) ∧
      goodRows rows = rows ∧
      (∀ row ∈ rows, Covered (Quantity.pick s.times s.translation s.angle)
        (fun q => (q.pick r.times r.translations r.angles).length) row) ∧
      ∀ t a x, t < r.times.length → a < r.angles.length → x < r.translations.length →
        cell (Quantity.pick s.times s.translation s.angle) f.2.2.1 f.2.2.2.1 f.2.2.2.2 rows (f.2.2.2.2.pick t x a)
          (f.2.2.2.1.pick t x a) (f.2.2.1.pick t x a) =
          block rows (n * pairs.length) ((t * r.angles.length + a) * r.translations.length + x) ∧
        (block rows (n * pairs.length) ((t * r.angles.length + a) * r.translations.length + x)).length =
          n * pairs.length := by
  obtain ⟨r, s, hr, hs, ho, ho', hq⟩ := fitting_grid hf
  obtain ⟨hlen, -⟩ := C79_rows optimizer pairs hp sets draws hd (f.1, r) hr n hn rows h
  have hb := fun j row (hj : rows[j]? = some row) => rows_bins hp hd hr hn h hj
  have hgood : goodRows rows = rows := by
    unfold goodRows
    rw [List.filter_eq_self]
    intro row hrow
    obtain ⟨j, hj⟩ := List.getElem?_of_mem hrow
    obtain ⟨t, a, x, v, _, _, _, _, _, h1, h2, _⟩ := hb j row hj
    simp [h1, h2]
  obtain ⟨c, hc⟩ := (C59_outcome rows).1 (by
    intro row hrow
    obtain ⟨j, hj⟩ := List.getElem?_of_mem hrow
    obtain ⟨t, a, x, v, _, _, _, _, _, _, _, h3, _⟩ := hb j row hj
    rw [h3]
    exact ⟨"S_PF_ES_O", by decide⟩)
  have hin : ∀ row t a x (ht : t < r.times.length) (ha : a < r.angles.length) (hx : x < r.translations.length),
      InRange r.times[t] |row.initial_guess_time| → InRange r.angles[a] |row.initial_guess_angle| →
      InRange r.translations[x] |row.initial_guess_translation_norm| →
      ∀ q : Quantity, InBin (q.pick s.times s.translation s.angle) (q.pick t x a) (q.size row) := by
    intro row t a x ht ha hx h1 h2 h3 q
    cases q
    · exact (hq .time).2.2 t _ (List.getElem?_eq_getElem ht).symm _ h1
    · exact (hq .translation).2.2 x _ (List.getElem?_eq_getElem hx).symm _ h3
    · exact (hq .angle).2.2 a _ (List.getElem?_eq_getElem ha).symm _ h2
  have hcell : ∀ t a x, t < r.times.length → a < r.angles.length → x < r.translations.length →
      cell (Quantity.pick s.times s.translation s.angle) f.2.2.1 f.2.2.2.1 f.2.2.2.2 rows (f.2.2.2.2.pick t x a)
        (f.2.2.2.1.pick t x a) (f.2.2.1.pick t x a) =
        block rows (n * pairs.length) ((t * r.angles.length + a) * r.translations.length + x) := by
    intro t a x ht ha hx
    unfold cell block
    rw [hgood]
    apply filter_interval
    intro j row hj
    obtain ⟨t', a', x', v, ht', ha', hx', hv, hj', _, _, _, i1, i2, i3⟩ := hb j row hj
    have hbin := hin row t' a' x' ht' ha' hx' i1 i2 i3
    have hu : ∀ q i, InBin (Quantity.pick s.times s.translation s.angle q) i (q.size row) ↔ q.pick t' x' a' = i :=
      fun q i => ⟨fun hi => inBin_unique (hq q).1.1 (hbin q) hi, fun hi => hi ▸ hbin q⟩
    simp only [decide_eq_true_eq, hu]
    have hall : (f.2.2.2.2.pick t' x' a' = f.2.2.2.2.pick t x a ∧ f.2.2.2.1.pick t' x' a' = f.2.2.2.1.pick t x a ∧
        f.2.2.1.pick t' x' a' = f.2.2.1.pick t x a) ↔ (t' = t ∧ a' = a) ∧ x' = x := by
      rcases orders_cases ho' with ⟨e1, e2, e3⟩ | ⟨e1, e2, e3⟩ | ⟨e1, e2, e3⟩ <;> rw [e1, e2, e3] <;>
        simp only [Quantity.pick] <;> tauto
    rw [hall, ← index_eq_iff ha' ha, ← index_eq_iff hx' hx, hj']
    generalize (t' * r.angles.length + a') * r.translations.length + x' = B'
    generalize (t * r.angles.length + a) * r.translations.length + x = B
    generalize n * pairs.length = k at hv
    constructor
    · rintro rfl
      omega
    · rintro ⟨l1, l2⟩
      rcases lt_trichotomy B' B with hlt | heq | hlt
      · have := Nat.mul_le_mul_right k (Nat.succ_le_of_lt hlt)
        rw [Nat.succ_mul] at this
        omega
      · exact heq
      · have := Nat.mul_le_mul_right k (Nat.succ_le_of_lt hlt)
        rw [Nat.succ_mul] at this
        omega
  refine ⟨r, s, c, hr, hs, hc, ho, ho', fun q => ⟨(hq q).1, (hq q).2.1⟩, hgood, ?_, ?_⟩
  · intro row hrow
    obtain ⟨j, hj⟩ := List.getElem?_of_mem hrow
    obtain ⟨t, a, x, v, ht, ha, hx, hv, hj', _, _, _, i1, i2, i3⟩ := hb j row hj
    have hbin := hin row t a x ht ha hx i1 i2 i3
    intro q
    refine ⟨q.pick t x a, ?_, hbin q⟩
    cases q
    · exact ht
    · exact hx
    · exact ha
  · intro t a x ht ha hx
    refine ⟨hcell t a x ht ha hx, ?_⟩
    unfold block
    rw [List.length_take, List.length_drop, hlen]
    have hB : (t * r.angles.length + a) * r.translations.length + x + 1 ≤
        r.times.length * r.angles.length * r.translations.length := by
      have b1 := Nat.mul_le_mul_right r.angles.length (Nat.succ_le_of_lt ht)
      rw [Nat.succ_mul] at b1
      have b2 := Nat.mul_le_mul_right r.translations.length (show t * r.angles.length + a + 1 ≤
        r.times.length * r.angles.length by omega)
      rw [Nat.add_mul, Nat.one_mul] at b2
      omega
    have hB' := Nat.mul_le_mul_right (n * pairs.length) hB
    rw [Nat.add_mul, Nat.one_mul] at hB'
    rw [Nat.mul_assoc _ n]
    dsimp only
    omega

/-- If plot and experiments fit together, all initial guesses were found and the expected number of rows is the number of
iterations times the number of pairs, then there is an error plot, whatever the optimizer does.  Each entry is the mean
of the loop errors of all runs with the perturbations in the three ranges that belong to it.  Missing: these include the
runs whose optimization failed, see `C79_failed_refuted`. -/
theorem C79_error_plot_partial (optimizer : SpoilOptimizer) (pairs : List PairGuess) (hp : ∀ g ∈ pairs, Calibrated g)
    (hne : pairs ≠ []) (sets : ℕ) (draws : ℕ → ℕ → SpoilDraws) (hd : ∀ e i, ValidDraws (draws e i))
    (f : String × String × Quantity × Quantity × Quantity) (hf : f ∈ fitting) (n : ℕ) (hn : 0 < n)
    (rows : List ResultRow) (h : optimizationExperiments optimizer pairs sets draws f.1 n = .ok rows) :
    ∃ r s c m, (f.1, r) ∈ rangeTable ∧ plotSettings f.2.1 = .ok s ∧ collectData rows = .ok c ∧
      generateErrorPlot s.times s.translation s.angle c s.plot_order (n * pairs.length) = .ok m ∧
      ∀ t a x, t < r.times.length → a < r.angles.length → x < r.translations.length →
        entry m (f.2.2.2.2.pick t x a) (f.2.2.2.1.pick t x a) (f.2.2.1.pick t x a) =
          some (mean ((block rows (n * pairs.length) ((t * r.angles.length + a) * r.translations.length + x)).map
              (·.loop_error_position_m)),
            mean ((block rows (n * pairs.length) ((t * r.angles.length + a) * r.translations.length + x)).map
              (·.loop_error_orientation_deg))) := by
  obtain ⟨r, s, c, hr, hs, hc, ho, ho', hq, hgood, hcov, hcell⟩ := fitting_cells hp hd hf hn h
  have hP : 0 < pairs.length := List.length_pos_iff.mpr hne
  obtain ⟨m, hm, hm1, hm2⟩ := C78_matrices_partial s.times s.translation s.angle _ rfl (fun q => (hq q).1)
    (fun q => (q.pick r.times r.translations r.angles).length) (fun q => (hq q).2) f.2.2.1 f.2.2.2.1 f.2.2.2.2 ho'
    rows c hc (n * pairs.length) (by positivity) (by rw [hgood]; exact hcov) (by
      intro k hk j hj i hi
      obtain ⟨t, a, x, ht, ha, hx, rfl, rfl, rfl⟩ : ∃ t a x, t < r.times.length ∧ a < r.angles.length ∧
          x < r.translations.length ∧ f.2.2.2.2.pick t x a = k ∧ f.2.2.2.1.pick t x a = j ∧
          f.2.2.1.pick t x a = i := by
        rcases orders_cases ho' with ⟨e1, e2, e3⟩ | ⟨e1, e2, e3⟩ | ⟨e1, e2, e3⟩ <;> rw [e1] at hi ⊢ <;>
          rw [e2] at hj ⊢ <;> rw [e3] at hk ⊢
        · exact ⟨j, i, k, hj, hi, hk, rfl, rfl, rfl⟩
        · exact ⟨j, k, i, hj, hk, hi, rfl, rfl, rfl⟩
        · exact ⟨k, i, j, hk, hi, hj, rfl, rfl, rfl⟩
      rw [(hcell t a x ht ha hx).1, (hcell t a x ht ha hx).2])
  refine ⟨r, s, c, m, hr, hs, hc, by rw [ho]; exact hm, ?_⟩
  intro t a x ht ha hx
  have hk : f.2.2.2.2.pick t x a < m.length := by
    rw [hm1]
    cases f.2.2.2.2
    · exact ht
    · exact hx
    · exact ha
  obtain ⟨hy, hm2⟩ := hm2 _ hk
  have hj : f.2.2.2.1.pick t x a < m[f.2.2.2.2.pick t x a].length := by
    rw [hy]
    cases f.2.2.2.1
    · exact ht
    · exact hx
    · exact ha
  obtain ⟨hz, hm2⟩ := hm2 _ hj
  have hi : f.2.2.1.pick t x a < m[f.2.2.2.2.pick t x a][f.2.2.2.1.pick t x a].length := by
    rw [hz]
    cases f.2.2.1
    · exact ht
    · exact hx
    · exact ha
  have hmi := hm2 _ hi
  rw [(hcell t a x ht ha hx).1] at hmi
  unfold entry
  rw [List.getElem?_eq_getElem hk, Option.bind_some, List.getElem?_eq_getElem hj, Option.bind_some,
    List.getElem?_eq_getElem hi, hmi]

/-! ## The script ends normally -/

theorem all_of_sum (l : List (Option DQuat × Bool)) (h : (l.map fun r => if r.2 then 1 else 0).sum = l.length) :
    ∀ r ∈ l, r.2 = true := by
  have hle : ∀ m : List (Option DQuat × Bool), (m.map fun r => if r.2 then 1 else 0).sum ≤ m.length := by
    intro m
    induction m with
    | nil => simp
    | cons r m ih =>
      rw [List.map_cons, List.sum_cons, List.length_cons]
      split <;> omega
  induction l with
  | nil => simp
  | cons r l ih =>
    rw [List.map_cons, List.sum_cons, List.length_cons] at h
    have := hle l
    cases hr : r.2 with
    | false =>
      rw [hr] at h
      simp at h
      omega
    | true =>
      rw [hr] at h
      simp at h
      intro x hx
      rcases List.mem_cons.mp hx with rfl | hx
      · exact hr
      · exact ih (by omega) x hx

theorem loopErrorIfAll_ok (stored : List (Option DQuat × Bool)) (n : ℕ) (hn : 2 ≤ n)
    (hl : stored.length = (Spec.pairs (List.range n)).length)
    (h : ∀ r ∈ stored, r.2 = true → ∃ d, r.1 = some d ∧ Spec.IsUnit d) : ∃ e, loopErrorIfAll stored n = .ok e := by
  unfold loopErrorIfAll
  split
  · rename_i hs
    have hall := all_of_sum stored hs
    have hmap : stored.map Prod.fst = (stored.map fun r => r.1.getD DQuat.identity).map some := by
      rw [List.map_map]
      apply List.map_congr_left
      intro r hr
      obtain ⟨d, hd, _⟩ := h r hr (hall r hr)
      simp [hd]
    obtain ⟨e, he⟩ := computeLoopErrorOpt_ok (stored.map fun r => r.1.getD DQuat.identity) n hn (by simpa using hl) (by
      intro d hd
      obtain ⟨r, hr, rfl⟩ := List.mem_map.mp hd
      obtain ⟨d, hd, hdu⟩ := h r hr (hall r hr)
      rw [hd]
      exact hdu)
    rw [hmap, he]
    exact ⟨some e, rfl⟩
  · exact ⟨none, rfl⟩

/-- What the optimizer finds is a unit dual quaternion (it is read from a file with a unit quaternion). -/
def Spec.GivesUnit (optimizer : SpoilOptimizer) : Prop :=
  ∀ e i s o, optimizer e i s = some o → Spec.IsUnit o.dq_H_E

theorem runPair_ok {optimizer : SpoilOptimizer} (ho : GivesUnit optimizer) {input : ExperimentInput}
    (hr : RangesOk input.angle_offset_range input.translation_offset_range input.time_offset_range) {i : ℕ}
    {g : PairGuess} (hg : Calibrated g) {d : SpoilDraws} (hd : ValidDraws d) :
    ∃ o, runPair optimizer input i g d = .ok o ∧
      (o.optimization_success = true → ∃ dq, o.dq_H_E = some dq ∧ Spec.IsUnit dq) ∧
      (optimizer input.experiment_progress.1 i o.spoiled = none → o.optimization_success = false) := by
  obtain ⟨-, -, dq, hdq, hu⟩ := hg
  obtain ⟨s, hs, hsu, -⟩ := spoil_inRange (t := g.time_offset) hu hr hd
  unfold runPair spoilOpt
  rw [hdq]
  dsimp only
  rw [hs, Py.ok_bind]
  unfold Extrinsic.writeJson
  dsimp only
  rw [DQuat.toPose_unit (DQuat.IsUnit.rot hsu)]
  simp only [Py.ok_bind, Py.pure_eq]
  cases hopt : optimizer input.experiment_progress.1 i s with
  | none => exact ⟨_, rfl, by simp, by simp⟩
  | some out =>
    unfold pairOutcome
    dsimp only
    rw [DQuat.toPose_unit (DQuat.IsUnit.rot (ho _ _ _ _ hopt)), Py.ok_bind]
    exact ⟨_, rfl, fun _ => ⟨_, rfl, ho _ _ _ _ hopt⟩, fun h => by rw [hopt] at h; cases h⟩

theorem runPairs_succeeds {optimizer : SpoilOptimizer} (ho : GivesUnit optimizer) {input : ExperimentInput}
    (hr : RangesOk input.angle_offset_range input.translation_offset_range input.time_offset_range) (i : ℕ)
    {gs : List PairGuess} (hg : ∀ g ∈ gs, Calibrated g) {draws : ℕ → SpoilDraws} (hd : ∀ i, ValidDraws (draws i)) :
    ∃ os, runPairs optimizer input draws i gs = .ok os ∧
      ∀ o ∈ os, o.optimization_success = true → ∃ dq, o.dq_H_E = some dq ∧ Spec.IsUnit dq := by
  induction gs generalizing i with
  | nil => exact ⟨[], rfl, by simp⟩
  | cons g gs ih =>
    obtain ⟨o, ho', hou, -⟩ := runPair_ok ho hr (i := i) (hg g List.mem_cons_self) (hd i)
    obtain ⟨os, hos, hosu⟩ := ih (i + 1) fun g hg' => hg g (List.mem_cons_of_mem _ hg')
    refine ⟨o :: os, ?_, ?_⟩
    · unfold runPairs
      rw [ho', Py.ok_bind, hos]
      rfl
    · intro o' ho''
      rcases List.mem_cons.mp ho'' with rfl | h
      · exact hou
      · exact hosu o' h

/-- If the initial guesses of all pairs were found, then the script ends normally, whether the optimizations fail or
not. -/
theorem C79_runs (optimizer : SpoilOptimizer) (ho : GivesUnit optimizer) (pairs : List PairGuess)
    (hp : ∀ g ∈ pairs, Calibrated g) (sets : ℕ) (hsets : 2 ≤ sets)
    (hlen : pairs.length = (Spec.pairs (List.range sets)).length) (draws : ℕ → ℕ → SpoilDraws)
    (hd : ∀ e i, ValidDraws (draws e i)) (e : String × OffsetRanges) (he : e ∈ rangeTable) (n : ℕ) (hn : 0 < n) :
    ∃ rows, optimizationExperiments optimizer pairs sets draws e.1 n = .ok rows := by
  obtain ⟨inputs, hin, hil, hget⟩ := C79_inputs e.2 n hn
  unfold optimizationExperiments
  rw [C79_ranges.1 e he, Py.ok_bind, hin, Py.ok_bind]
  have hrun : ∀ input ∈ inputs, ∃ rows,
      runOptimizationExperiment optimizer pairs sets (draws input.experiment_progress.1) input = .ok rows := by
    intro input hinput
    obtain ⟨j, hj⟩ := List.getElem?_of_mem hinput
    have hjl : j < inputs.length := by
      by_contra hc
      rw [List.getElem?_eq_none (by omega)] at hj
      cases hj
    rw [hil] at hjl
    obtain ⟨u2, hu2, i, hi, rfl⟩ := split_index hjl
    obtain ⟨u3, hu3, x, hx, rfl⟩ := split_index hu2
    obtain ⟨t, ht, a, ha, rfl⟩ := split_index hu3
    have hg := hget t a x i ht ha hx hi
    rw [hj, Option.map_some, Option.some.injEq] at hg
    simp only [Prod.mk.injEq] at hg
    have hr := rangeTable_ok he hg.1 hg.2.1 hg.2.2.1
    obtain ⟨os, hos, hosu⟩ := runPairs_succeeds ho hr 0 hp (hd input.experiment_progress.1)
    have hol := (runPairs_ok hos).1
    obtain ⟨loop, hloop⟩ := loopErrorIfAll_ok (os.map fun o => (o.dq_H_E, o.optimization_success)) sets hsets
      (by rw [List.length_map, hol, hlen]) (by
        intro r hr
        obtain ⟨o, ho', rfl⟩ := List.mem_map.mp hr
        exact hosu o ho')
    unfold runOptimizationExperiment
    rw [hos, Py.ok_bind, hloop]
    exact ⟨_, rfl⟩
  have : ∃ out, inputs.mapM (fun input =>
      runOptimizationExperiment optimizer pairs sets (draws input.experiment_progress.1) input) = .ok out := by
    clear hin hil hget
    induction inputs with
    | nil => exact ⟨[], rfl⟩
    | cons a l ih =>
      obtain ⟨rows, h1⟩ := hrun a List.mem_cons_self
      obtain ⟨out, h2⟩ := ih fun b hb => hrun b (List.mem_cons_of_mem _ hb)
      refine ⟨rows :: out, ?_⟩
      rw [Py.mapM_cons, h1, Py.ok_bind, h2]
      rfl
  obtain ⟨out, hout⟩ := this
  rw [hout]
  exact ⟨_, rfl⟩

/-- If the initial guess of some pair was not found, then no row is written. -/
theorem C79_no_guess (optimizer : SpoilOptimizer) (pairs : List PairGuess) (g : PairGuess) (hg : g ∈ pairs)
    (hnone : g.dq_H_E = none) (sets : ℕ) (draws : ℕ → ℕ → SpoilDraws) (e : String × OffsetRanges) (he : e ∈ rangeTable)
    (n : ℤ) : ¬ ∃ rows, optimizationExperiments optimizer pairs sets draws e.1 n = .ok rows := by
  rintro ⟨rows, h⟩
  have hne : 0 < e.2.times.length ∧ 0 < e.2.angles.length ∧ 0 < e.2.translations.length := by
    simp only [rangeTable, List.mem_cons, List.not_mem_nil, or_false] at he
    rcases he with rfl | rfl | rfl | rfl <;> simp [adjacent_length]
  rcases le_or_gt n 0 with hn | hn
  · unfold optimizationExperiments at h
    rw [C79_ranges.1 e he, Py.ok_bind, C79_no_iterations e.2 n hn (List.length_pos_iff.mp hne.1)
      (List.length_pos_iff.mp hne.2.1) (List.length_pos_iff.mp hne.2.2)] at h
    cases h
  · obtain ⟨m, rfl⟩ := Int.eq_ofNat_of_zero_le hn.le
    have hm : 0 < m := by exact_mod_cast hn
    obtain ⟨p, hp, rfl⟩ := List.getElem_of_mem hg
    obtain ⟨-, hrow⟩ := experiments_rows (C79_ranges.1 e he) hm h
    obtain ⟨input, g, row, -, -, -, g4, -, ⟨o, ho, -⟩⟩ := hrow 0 0 0 0 p hne.1 hne.2.1 hne.2.2 hm hp
    rw [List.getElem?_eq_getElem hp, Option.some.injEq] at g4
    subst g4
    unfold spoilOpt at ho
    rw [hnone] at ho
    dsimp only at ho
    obtain ⟨_, _, ho⟩ := Py.bind_eq_ok.mp ho
    obtain ⟨_, _, ho⟩ := Py.bind_eq_ok.mp ho
    cases ho

/-! ## All plots of the script -/

/-- If plot and experiments fit together, the whole script `generate_plots.py` ends normally with these error plots, for at
most seven datasets.  Missing as above. -/
theorem C79_figures_partial (optimizer : SpoilOptimizer) (pairs : List PairGuess) (hp : ∀ g ∈ pairs, Calibrated g)
    (hne : pairs ≠ []) (h7 : (pairs.map (·.dataset)).eraseDups.length ≤ 7) (sets : ℕ) (draws : ℕ → ℕ → SpoilDraws)
    (hd : ∀ e i, ValidDraws (draws e i)) (f : String × String × Quantity × Quantity × Quantity) (hf : f ∈ fitting)
    (n : ℕ) (hn : 0 < n) (rows : List ResultRow)
    (h : optimizationExperiments optimizer pairs sets draws f.1 n = .ok rows) :
    ∃ r fig, (f.1, r) ∈ rangeTable ∧ generatePlots f.2.1 (n * pairs.length) rows = .ok fig ∧
      ∀ t a x, t < r.times.length → a < r.angles.length → x < r.translations.length →
        entry fig.errors (f.2.2.2.2.pick t x a) (f.2.2.2.1.pick t x a) (f.2.2.1.pick t x a) =
          some (mean ((block rows (n * pairs.length) ((t * r.angles.length + a) * r.translations.length + x)).map
              (·.loop_error_position_m)),
            mean ((block rows (n * pairs.length) ((t * r.angles.length + a) * r.translations.length + x)).map
              (·.loop_error_orientation_deg))) := by
  obtain ⟨r, s, c, m, hr, hs, hc, hm, hent⟩ := C79_error_plot_partial optimizer pairs hp hne sets draws hd f hf n hn rows h
  obtain ⟨_, _, _, _, _, _, _, _, _, hgood, _, _⟩ := fitting_cells hp hd hf hn h
  obtain ⟨hlen, hrow⟩ := experiments_rows (C79_ranges.1 _ hr) hn h
  have hmeth : ∀ row ∈ rows, row.method = "optimization_w_spoiled_init_calibration" := by
    intro row hrow
    obtain ⟨j, hj⟩ := List.getElem?_of_mem hrow
    obtain ⟨t, a, x, v, _, _, _, _, _, _, _, h3, _⟩ := rows_bins hp hd hr hn h hj
    exact h3
  have hdata : ∀ row ∈ rows, row.dataset ∈ pairs.map (·.dataset) := by
    intro row hrow'
    obtain ⟨j, hj⟩ := List.getElem?_of_mem hrow'
    have hjl : j < rows.length := by
      by_contra hcon
      rw [List.getElem?_eq_none (by omega)] at hj
      cases hj
    rw [hlen] at hjl
    obtain ⟨u1, hu1, p, hpl, rfl⟩ := split_index hjl
    obtain ⟨u2, hu2, i, hi, rfl⟩ := split_index hu1
    obtain ⟨u3, hu3, x, hx, rfl⟩ := split_index hu2
    obtain ⟨t, ht, a, ha, rfl⟩ := split_index hu3
    obtain ⟨input, g, row', -, -, -, g4, g5, ⟨o, -, -, loop, hrw⟩⟩ := hrow t a x i p ht ha hx hi hpl
    rw [hj, Option.some.injEq] at g5
    subst g5
    rw [hrw]
    exact List.mem_map.mpr ⟨g, List.mem_of_getElem? g4, rfl⟩
  have hcomp : Complete rows := by
    intro d hdm a ha
    unfold datasets at hdm
    unfold algorithms at ha
    rw [hgood, List.mem_eraseDups, List.mem_map] at hdm ha
    obtain ⟨row, hrow, rfl⟩ := hdm
    obtain ⟨row', hrow', rfl⟩ := ha
    have : row ∈ runs rows row.dataset row'.method := by
      unfold runs
      rw [hgood, List.mem_filter]
      exact ⟨hrow, by simp [hmeth row hrow, hmeth row' hrow']⟩
    exact List.ne_nil_of_mem this
  have hrows : goodRows rows ≠ [] := by
    rw [hgood]
    intro h0
    rw [h0] at hlen
    have h1 : 0 < r.times.length ∧ 0 < r.angles.length ∧ 0 < r.translations.length := by
      simp only [rangeTable, List.mem_cons, List.not_mem_nil, or_false, Prod.mk.injEq] at hr
      rcases hr with ⟨-, rfl⟩ | ⟨-, rfl⟩ | ⟨-, rfl⟩ | ⟨-, rfl⟩ <;> simp [adjacent_length]
    have h2 : 0 < pairs.length := List.length_pos_iff.mpr hne
    have : 0 < r.times.length * r.angles.length * r.translations.length * n * pairs.length := by
      obtain ⟨_, _, _⟩ := h1
      positivity
    rw [← hlen] at this
    simp at this
  have h7' : (datasets rows).length ≤ 7 := by
    refine le_trans ?_ h7
    refine (List.subperm_of_subset (eraseDups_nodup _) ?_).length_le
    intro d hdm
    rw [List.mem_eraseDups] at hdm ⊢
    rw [hgood, List.mem_map] at hdm
    obtain ⟨row, hrow, rfl⟩ := hdm
    exact hdata row hrow
  obtain ⟨boxes, hbox, -⟩ := C77_boxes_partial rows c hc hcomp
  obtain ⟨times, htime, -⟩ := C77_times_partial rows c hc hrows hcomp h7'
  refine ⟨r, ⟨boxes, times, m⟩, hr, ?_, hent⟩
  unfold generatePlots
  rw [hc, Py.ok_bind, hbox, Py.ok_bind, htime, Py.ok_bind, hs, Py.ok_bind, hm]
  rfl

/-- For another expected number of rows there is no plot. -/
theorem C79_count (optimizer : SpoilOptimizer) (pairs : List PairGuess) (hp : ∀ g ∈ pairs, Calibrated g) (sets : ℕ)
    (draws : ℕ → ℕ → SpoilDraws) (hd : ∀ e i, ValidDraws (draws e i))
    (f : String × String × Quantity × Quantity × Quantity) (hf : f ∈ fitting) (n : ℕ) (hn : 0 < n)
    (rows : List ResultRow) (h : optimizationExperiments optimizer pairs sets draws f.1 n = .ok rows) (count : ℕ)
    (hcount : count ≠ 0) (hne : count ≠ n * pairs.length) : ¬ ∃ fig, generatePlots f.2.1 count rows = .ok fig := by
  rintro ⟨fig, hfig⟩
  obtain ⟨r, s, c, hr, hs, hc, ho, ho', hq, hgood, hcov, hcell⟩ := fitting_cells hp hd hf hn h
  have hpos : ∀ q : Quantity, 0 < (q.pick r.times r.translations r.angles).length := by
    simp only [rangeTable, List.mem_cons, List.not_mem_nil, or_false, Prod.mk.injEq] at hr
    intro q
    rcases hr with ⟨-, rfl⟩ | ⟨-, rfl⟩ | ⟨-, rfl⟩ | ⟨-, rfl⟩ <;> cases q <;> simp [Quantity.pick, adjacent_length]
  have h0 := hcell 0 0 0 (hpos .time) (hpos .angle) (hpos .translation)
  have hpick : ∀ q : Quantity, q.pick 0 0 0 = 0 := by intro q; cases q <;> rfl
  rw [hpick, hpick, hpick] at h0
  have herr := C78_count s.times s.translation s.angle _ rfl (fun q => (hq q).1)
    (fun q => (q.pick r.times r.translations r.angles).length) (fun q => (hq q).2) f.2.2.1 f.2.2.2.1 f.2.2.2.2 ho'
    rows c hc count hcount (by rw [hgood]; exact hcov) 0 0 0 (hpos _) (hpos _) (hpos _)
    (by rw [h0.1, h0.2]; exact hne.symm)
  unfold generatePlots at hfig
  rw [hc, Py.ok_bind] at hfig
  obtain ⟨_, _, hfig⟩ := Py.bind_eq_ok.mp hfig
  obtain ⟨_, _, hfig⟩ := Py.bind_eq_ok.mp hfig
  rw [hs, Py.ok_bind, ho, herr] at hfig
  cases hfig

/-- The default number of two iterations never fits the 60 rows that are expected in each bin. -/
theorem C79_sixty_refuted (optimizer : SpoilOptimizer) (pairs : List PairGuess) (hp : ∀ g ∈ pairs, Calibrated g)
    (sets : ℕ) (hlen : 2 * pairs.length = sets * (sets - 1)) (draws : ℕ → ℕ → SpoilDraws)
    (hd : ∀ e i, ValidDraws (draws e i)) (f : String × String × Quantity × Quantity × Quantity) (hf : f ∈ fitting)
    (rows : List ResultRow) (h : optimizationExperiments optimizer pairs sets draws f.1 2 = .ok rows) :
    ¬ ∃ fig, generatePlots f.2.1 60 rows = .ok fig := by
  refine C79_count optimizer pairs hp sets draws hd f hf 2 (by norm_num) rows h 60 (by norm_num) ?_
  rw [hlen]
  intro h60
  rcases Nat.lt_or_ge sets 9 with hs | hs
  · have : sets * (sets - 1) ≤ 8 * 7 := Nat.mul_le_mul (by omega) (by omega)
    omega
  · have : 9 * 8 ≤ sets * (sets - 1) := Nat.mul_le_mul (by omega) (by omega)
    omega

/-- The ranges that are set in the one script do not fit the plot that is set in the other script: there is no plot, for
any number of iterations and any expected number of rows. -/
theorem C79_defaults_refuted (optimizer : SpoilOptimizer) (pairs : List PairGuess) (hp : ∀ g ∈ pairs, Calibrated g)
    (hne : pairs ≠ []) (sets : ℕ) (draws : ℕ → ℕ → SpoilDraws) (hd : ∀ e i, ValidDraws (draws e i)) (n : ℕ) (hn : 0 < n)
    (rows : List ResultRow)
    (h : optimizationExperiments optimizer pairs sets draws "angle_translation_complete" n = .ok rows) (count : ℕ) :
    ¬ ∃ fig, generatePlots "translation_time_angle" count rows = .ok fig := by
  rintro ⟨fig, hfig⟩
  have hf : ("angle_translation_complete", "time_translation_angle_max", Quantity.angle, Quantity.translation,
    Quantity.time) ∈ fitting := by decide
  obtain ⟨_, _, c, _, _, hc, _, _, _, hgood, _, _⟩ := fitting_cells hp hd hf hn h
  have he : ("angle_translation_complete", (⟨[(0, 0)], adjacent (15 / 180 * Real.pi) 12, adjacent 0.1 10⟩ : OffsetRanges)) ∈
    rangeTable := by simp [rangeTable]
  obtain ⟨-, hrow⟩ := C79_rows optimizer pairs hp sets draws hd _ he n hn rows h
  obtain ⟨row, hr, -, -, -, -, hx⟩ := hrow 0 0 9 0 0 (by simp) (by simp [adjacent_length]) (by simp [adjacent_length]) hn
    (List.length_pos_iff.mpr hne)
  have hmem : row ∈ rows := List.mem_of_getElem? hr
  obtain ⟨s, hs, ho, hq⟩ := C78_grids.1 ("translation_time_angle", "translation_time_angle",
    Quantity.pick (8, 0.03) (1, 0.1) (8, 15 / 180 * Real.pi)) (by simp [scriptGrids])
  have hbig : (0.9 : ℝ) ≤ |row.initial_guess_translation_norm| := by
    have h9 : 9 < (adjacent 0.1 10).length := by simp [adjacent_length]
    have this : (adjacent 0.1 10)[9].1 ≤ |row.initial_guess_translation_norm| := hx.1
    rw [(adjacent_get (List.getElem?_eq_getElem h9).symm).2] at this
    norm_num at this ⊢
    exact this
  have herr := C78_outside s.times s.translation s.angle _ rfl (fun q => (hq q).1) _ (fun q => (hq q).2.2.2) .angle .time
    .translation (by decide) rows c hc count row (by rw [hgood]; exact hmem) .translation (by
      right
      obtain ⟨-, h1, h2, -⟩ := hq .translation
      rw [h1, h2]
      simp only [Quantity.pick, Quantity.size]
      norm_num at hbig ⊢
      linarith)
  unfold generatePlots at hfig
  rw [hc, Py.ok_bind] at hfig
  obtain ⟨_, _, hfig⟩ := Py.bind_eq_ok.mp hfig
  obtain ⟨_, _, hfig⟩ := Py.bind_eq_ok.mp hfig
  dsimp only at hs ho
  have ho2 : s.plot_order = orderName .angle .time .translation := by rw [ho]; decide
  rw [hs, Py.ok_bind, ho2, herr] at hfig
  cases hfig

/-! ## Failed optimizations -/

theorem failed_rows {pairs : List PairGuess} {sets : ℕ} {draws : ℕ → SpoilDraws}
    {input : ExperimentInput} {optimizer : SpoilOptimizer} {i : ℕ} (hi : i < pairs.length)
    (hfail : ∀ s, optimizer input.experiment_progress.1 i s = none) {rows : List ResultRow}
    (h : runOptimizationExperiment optimizer pairs sets draws input = .ok rows) :
    ∀ row ∈ rows, row.loop_error_position_m = -1 ∧ row.loop_error_orientation_deg = -1 := by
  unfold runOptimizationExperiment at h
  obtain ⟨os, hos, h⟩ := Py.bind_eq_ok.mp h
  obtain ⟨hl, hj⟩ := runPairs_ok hos
  have hil : i < os.length := by omega
  have ho := hj i pairs[i] os[i] (List.getElem?_eq_getElem hi) (List.getElem?_eq_getElem hil)
  rw [Nat.zero_add] at ho
  have hout := (runPair_spoiled ho).2
  rw [hfail] at hout
  have hf : os[i].optimization_success = false := by
    unfold pairOutcome at hout
    rw [Except.ok.injEq] at hout
    rw [← hout]
  have hnone : loopErrorIfAll (os.map fun o => (o.dq_H_E, o.optimization_success)) sets = .ok none := by
    unfold loopErrorIfAll
    rw [if_neg]
    · rfl
    · intro hs
      have := all_of_sum _ hs (os[i].dq_H_E, os[i].optimization_success)
        (List.mem_map.mpr ⟨os[i], List.getElem_mem hil, rfl⟩)
      rw [hf] at this
      cases this
  rw [hnone, Py.ok_bind] at h
  cases h
  intro row hrow
  obtain ⟨p, _, rfl⟩ := List.mem_map.mp hrow
  exact ⟨rfl, rfl⟩

/-- The rows of an experiment in which an optimization failed count as well: with an optimizer that always fails, all mean
errors that are plotted are -1. -/
theorem C79_failed_refuted (pairs : List PairGuess) (hp : ∀ g ∈ pairs, Calibrated g) (hne : pairs ≠ [])
    (h7 : (pairs.map (·.dataset)).eraseDups.length ≤ 7) (sets : ℕ) (hsets : 2 ≤ sets)
    (hlen : pairs.length = (Spec.pairs (List.range sets)).length) (draws : ℕ → ℕ → SpoilDraws)
    (hd : ∀ e i, ValidDraws (draws e i)) (f : String × String × Quantity × Quantity × Quantity) (hf : f ∈ fitting)
    (n : ℕ) (hn : 0 < n) :
    ∃ r rows fig, (f.1, r) ∈ rangeTable ∧
      optimizationExperiments (fun _ _ _ => none) pairs sets draws f.1 n = .ok rows ∧
      generatePlots f.2.1 (n * pairs.length) rows = .ok fig ∧
      ∀ t a x, t < r.times.length → a < r.angles.length → x < r.translations.length →
        entry fig.errors (f.2.2.2.2.pick t x a) (f.2.2.2.1.pick t x a) (f.2.2.1.pick t x a) = some (-1, -1) := by
  obtain ⟨r0, s0, hr0, -⟩ := fitting_grid hf
  obtain ⟨rows, hrows⟩ := C79_runs (fun _ _ _ => none) (by intro e i s o h; cases h) pairs hp sets hsets hlen draws hd
    (f.1, r0) hr0 n hn
  obtain ⟨r, fig, hr, hfig, hent⟩ := C79_figures_partial (fun _ _ _ => none) pairs hp hne h7 sets draws hd f hf n hn rows hrows
  have hall : ∀ row ∈ rows, row.loop_error_position_m = -1 ∧ row.loop_error_orientation_deg = -1 := by
    have h := hrows
    unfold optimizationExperiments at h
    obtain ⟨_, _, h⟩ := Py.bind_eq_ok.mp h
    obtain ⟨inputs, _, h⟩ := Py.bind_eq_ok.mp h
    obtain ⟨out, hout, h⟩ := Py.bind_eq_ok.mp h
    cases h
    intro row hrow
    obtain ⟨b, hb, hrow⟩ := List.mem_flatten.mp hrow
    rw [Py.mapM_eq_ok, List.forall₂_iff_get] at hout
    obtain ⟨k, hk, rfl⟩ := List.getElem_of_mem hb
    exact failed_rows (List.length_pos_iff.mpr hne) (fun _ => rfl) (hout.2 k (by rw [hout.1]; exact hk) hk) row hrow
  have hmean : ∀ (l : List ResultRow) (g : ResultRow → ℝ), l ≠ [] → (∀ row ∈ l, g row = -1) → mean (l.map g) = -1 := by
    intro l g hl hg
    have hm : l.map g = List.replicate l.length (-1) := by
      rw [List.eq_replicate_iff]
      refine ⟨by simp, ?_⟩
      intro b hb
      obtain ⟨row, hrow, rfl⟩ := List.mem_map.mp hb
      exact hg row hrow
    have hpos : (0 : ℝ) < l.length := by exact_mod_cast List.length_pos_iff.mpr hl
    unfold mean
    rw [hm, List.sum_replicate, List.length_replicate, nsmul_eq_mul, mul_neg_one, neg_div, div_self hpos.ne']
  obtain ⟨r', s', c', hr', _, _, _, _, _, _, _, hcell⟩ := fitting_cells hp hd hf hn hrows
  have hrr : r' = r := by
    have h1 := C79_ranges.1 _ hr
    have h2 := C79_ranges.1 _ hr'
    dsimp only at h1 h2
    rw [h1] at h2
    cases h2
    rfl
  subst hrr
  refine ⟨r', rows, fig, hr, hrows, hfig, ?_⟩
  intro t a x ht ha hx
  have hbl := (hcell t a x ht ha hx).2
  have hne' : block rows (n * pairs.length) ((t * r'.angles.length + a) * r'.translations.length + x) ≠ [] := by
    intro h0
    rw [h0] at hbl
    have : 0 < n * pairs.length := Nat.mul_pos hn (List.length_pos_iff.mpr hne)
    rw [← hbl] at this
    cases this
  have hsub : ∀ row ∈ block rows (n * pairs.length) ((t * r'.angles.length + a) * r'.translations.length + x),
      row ∈ rows := fun row hrow => List.mem_of_mem_drop (List.mem_of_mem_take hrow)
  rw [hent t a x ht ha hx, hmean _ _ hne' fun row hrow => (hall row (hsub row hrow)).1,
    hmean _ _ hne' fun row hrow => (hall row (hsub row hrow)).2]

/-! ## Example: one pair of sensors, 60 iterations -/

/-- The initial guess is the identity. -/
noncomputable def demoPair : PairGuess := ⟨some DQuat.identity, 0, true, false, 1, "demo"⟩

/-- All numbers in the middle. -/
noncomputable def demoDraws : SpoilDraws := ⟨1 / 2, false, ⟨1, 0, 0⟩, 1 / 2, ⟨0, 0, 1⟩, 1 / 2⟩

theorem demoDraws_valid : ValidDraws demoDraws :=
  ⟨by simp [demoDraws], by simp [demoDraws], by norm_num [demoDraws], by norm_num [demoDraws], by norm_num [demoDraws]⟩

theorem demoPair_calibrated : ∀ g ∈ [demoPair], Calibrated g := by
  intro g hg
  rw [List.mem_singleton] at hg
  subst hg
  exact ⟨rfl, rfl, _, rfl, DQuat.isUnit_one⟩

/-- An optimizer that always returns the truth. -/
noncomputable def demoOptimizer : SpoilOptimizer := fun _ _ _ => some ⟨DQuat.identity, (0, 0), 10, 1⟩

example : ∃ rows r fig, optimizationExperiments demoOptimizer [demoPair] 2 (fun _ _ => demoDraws) "time_angle" 60 = .ok rows ∧
    rows.length = 8 * 8 * 1 * 60 * 1 ∧ ("time_angle", r) ∈ rangeTable ∧
    generatePlots "translation_time_angle" 60 rows = .ok fig := by
  have he : ("time_angle", (⟨adjacent 0.03 8, adjacent (15 / 180 * Real.pi) 8, adjacent 0.1 1⟩ : OffsetRanges)) ∈
    rangeTable := by simp [rangeTable]
  obtain ⟨rows, hrows⟩ := C79_runs demoOptimizer (by
    intro e i s o h
    unfold demoOptimizer at h
    cases h
    exact DQuat.isUnit_one) [demoPair] demoPair_calibrated 2 le_rfl (by decide) (fun _ _ => demoDraws)
    (fun _ _ => demoDraws_valid) _ he 60 (by norm_num)
  obtain ⟨hl, -⟩ := C79_rows demoOptimizer [demoPair] demoPair_calibrated 2 (fun _ _ => demoDraws)
    (fun _ _ => demoDraws_valid) _ he 60 (by norm_num) rows hrows
  obtain ⟨r, fig, hr, hfig, -⟩ := C79_figures_partial demoOptimizer [demoPair] demoPair_calibrated (by simp) (by decide) 2
    (fun _ _ => demoDraws) (fun _ _ => demoDraws_valid)
    ("time_angle", "translation_time_angle", Quantity.angle, Quantity.time, Quantity.translation) (by decide) 60
    (by norm_num) rows hrows
  exact ⟨rows, r, fig, hrows, by rw [hl]; simp [adjacent_length], hr, hfig⟩

end HandEye
