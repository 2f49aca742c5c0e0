import Verif.Lemmas.SpoilExperiments
import Verif.Props.Spoil
import Verif.Props.ErrorPlots
import Verif.Props.BoxPlots
import Verif.Props.ExperimentLoop

/-!
# C79: the experiments with spoiled initial guesses, and their plots

The script `optimization_experiments.py` spoils the initial guesses by perturbations of all combinations of given
ranges, `generate_plots.py` shows the mean errors for each range.
-/

namespace HandEye

namespace Spec

/-- The value is in the range: at least the lower end, and less than the upper end (unless both are the same). -/
def InRange (r : ℝ × ℝ) (v : ℝ) : Prop := r.1 ≤ v ∧ (v < r.2 ∨ v = r.1)

/-- What the random generators give: numbers from [0, 1) and vectors that are not zero. -/
structure ValidDraws (d : SpoilDraws) : Prop where
  direction : d.direction ≠ ⟨0, 0, 0⟩
  axis : d.axis ≠ ⟨0, 0, 0⟩
  time : 0 ≤ d.time ∧ d.time < 1
  length : 0 ≤ d.length ∧ d.length < 1
  angle : 0 ≤ d.angle ∧ d.angle < 1

/-- The initial guess of the pair was found, and its results count. -/
def Calibrated (g : PairGuess) : Prop :=
  g.success = true ∧ g.bad_singular_values = false ∧ ∃ dq, g.dq_H_E = some dq ∧ IsUnit dq

/-- Adjacent ranges of width `w`, beginning with 0. -/
noncomputable def adjacent (w : ℝ) (n : ℕ) : List (ℝ × ℝ) := (List.range n).map fun i : ℕ => ((i : ℝ) * w, ((i : ℝ) + 1) * w)

/-- The ranges of the experiments: time, angle, translation. -/
noncomputable def rangeTable : List (String × OffsetRanges) :=
  [("time_angle", ⟨adjacent 0.03 8, adjacent (15 / 180 * Real.pi) 8, adjacent 0.1 1⟩),
   ("time_translation", ⟨adjacent 0.03 8, adjacent (15 / 180 * Real.pi) 1, adjacent 0.1 8⟩),
   ("angle_translation", ⟨adjacent 0.03 1, adjacent (15 / 180 * Real.pi) 8, adjacent 0.1 8⟩),
   ("angle_translation_complete", ⟨[(0, 0)], adjacent (15 / 180 * Real.pi) 12, adjacent 0.1 10⟩)]

end Spec

open Spec

/-- Each name stands for adjacent ranges that begin with 0; other names are rejected. -/
theorem C79_ranges : (∀ e ∈ rangeTable, offsetRanges e.1 = .ok e.2) ∧
    ∀ name, (∀ e ∈ rangeTable, name ≠ e.1) → offsetRanges name = .error .assertion := by
  have h1 : adjacent 0.03 8 = eightTimes := by
    unfold adjacent eightTimes
    norm_num [List.range_succ]
  have h2 : adjacent 0.1 8 = eightTranslations := by
    unfold adjacent eightTranslations
    norm_num [List.range_succ]
  have h2' : adjacent 0.1 10 = eightTranslations ++ [(0.8, 0.9), (0.9, 1)] := by
    unfold adjacent eightTranslations
    norm_num [List.range_succ]
  have h3 : adjacent (15 / 180 * Real.pi) 8 = eightAngles.map fun a : ℝ × ℝ => (a.1 / 180 * Real.pi, a.2 / 180 * Real.pi) := by
    unfold adjacent eightAngles
    simp only [List.range_succ, List.range_zero, List.nil_append, List.cons_append, List.map_cons, List.map_nil,
      List.cons.injEq, Prod.mk.injEq, and_true]
    push_cast
    and_intros <;> ring
  have h3' : adjacent (15 / 180 * Real.pi) 12 = (eightAngles ++ [(120, 135), (135, 150), (150, 165), (165, 180)]).map
      fun a : ℝ × ℝ => (a.1 / 180 * Real.pi, a.2 / 180 * Real.pi) := by
    unfold adjacent eightAngles
    simp only [List.range_succ, List.range_zero, List.nil_append, List.cons_append, List.map_cons, List.map_nil,
      List.cons.injEq, Prod.mk.injEq, and_true]
    push_cast
    and_intros <;> ring
  have h4 : adjacent 0.1 1 = [(0, 0.1)] := by
    unfold adjacent
    norm_num [List.range_succ]
  have h5 : adjacent 0.03 1 = [(0, 0.03)] := by
    unfold adjacent
    norm_num [List.range_succ]
  have h6 : adjacent (15 / 180 * Real.pi) 1 = [((0 : ℝ), (15 : ℝ))].map fun a : ℝ × ℝ =>
      (a.1 / 180 * Real.pi, a.2 / 180 * Real.pi) := by
    unfold adjacent
    simp
  constructor
  · intro e he
    simp only [rangeTable, List.mem_cons, List.not_mem_nil, or_false] at he
    unfold offsetRanges offsetRangesDeg
    rcases he with rfl | rfl | rfl | rfl
    · rw [if_pos rfl, Py.ok_bind, h1, h3, h4]
      rfl
    · rw [if_neg (by decide), if_pos rfl, Py.ok_bind, h1, h6, h2]
      rfl
    · rw [if_neg (by decide), if_neg (by decide), if_pos rfl, Py.ok_bind, h5, h3, h2]
      rfl
    · rw [if_neg (by decide), if_neg (by decide), if_neg (by decide), if_pos rfl, Py.ok_bind, h3', h2']
      rfl
  · intro name hne
    unfold offsetRanges offsetRangesDeg
    simp only [rangeTable, List.mem_cons, List.not_mem_nil, or_false, forall_eq_or_imp, forall_eq] at hne
    rw [if_neg hne.1, if_neg hne.2.1, if_neg hne.2.2.1, if_neg hne.2.2.2]
    rfl

/-- Each combination of three ranges and an iteration is run exactly once; the experiments are numbered in the order of
the nested loops. -/
theorem C79_inputs (r : OffsetRanges) (n : ℕ) (hn : 0 < n) :
    ∃ inputs, experimentInputs r n = .ok inputs ∧
      inputs.length = r.times.length * r.angles.length * r.translations.length * n ∧
      ∀ t a x i, t < r.times.length → a < r.angles.length → x < r.translations.length → i < n →
        inputs[((t * r.angles.length + a) * r.translations.length + x) * n + i]?.map (fun e =>
          (some e.time_offset_range, some e.angle_offset_range, some e.translation_offset_range, e.iteration,
            e.experiment_progress)) =
          some (r.times[t]?, r.angles[a]?, r.translations[x]?, i,
            ((t * r.angles.length + a) * r.translations.length + x) * n + i, (inputs.length : ℤ)) := by
  refine ⟨_, experimentInputs_ok r n hn, ?_, ?_⟩
  · rw [numbered_length, rangeCombinations_length]
    ring
  · intro t a x i ht ha hx hi
    rw [numbered_get, rangeCombinations_get _ _ _ _ _ _ _ _ ha hx hi, numbered_length, rangeCombinations_length,
      List.getElem?_eq_getElem ht, List.getElem?_eq_getElem ha, List.getElem?_eq_getElem hx]
    simp [mkInput]

/-- Without iterations there is an AssertionError. -/
theorem C79_no_iterations (r : OffsetRanges) (n : ℤ) (hn : n ≤ 0) (ht : r.times ≠ []) (ha : r.angles ≠ [])
    (hx : r.translations ≠ []) : experimentInputs r n = .error .assertion := by
  obtain ⟨t, ts, ht⟩ := List.exists_cons_of_ne_nil ht
  obtain ⟨a, as, ha⟩ := List.exists_cons_of_ne_nil ha
  obtain ⟨x, xs, hx⟩ := List.exists_cons_of_ne_nil hx
  unfold experimentInputs
  dsimp only
  rw [ht, ha, hx]
  simp only [forIdx]
  rw [pyAssert_neg (by omega)]
  rfl

theorem runPairs_ok {optimizer : SpoilOptimizer} {input : ExperimentInput} {draws : ℕ → SpoilDraws} {i : ℕ}
    {gs : List PairGuess} {os : List PairOutcome} (h : runPairs optimizer input draws i gs = .ok os) :
    os.length = gs.length ∧ ∀ (j : ℕ) (g : PairGuess) (o : PairOutcome), gs[j]? = some g → os[j]? = some o →
      runPair optimizer input (i + j) g (draws (i + j)) = .ok o := by
  induction gs generalizing i os with
  | nil =>
    cases h
    exact ⟨rfl, by simp⟩
  | cons g gs ih =>
    unfold runPairs at h
    obtain ⟨o, ho, h⟩ := Py.bind_eq_ok.mp h
    obtain ⟨os', hos, h⟩ := Py.bind_eq_ok.mp h
    cases h
    obtain ⟨hl, hj⟩ := ih hos
    refine ⟨by rw [List.length_cons, List.length_cons, hl], ?_⟩
    intro j g' o' hg ho'
    cases j with
    | zero =>
      rw [List.getElem?_cons_zero, Option.some.injEq] at hg ho'
      subst hg ho'
      exact ho
    | succ j =>
      rw [List.getElem?_cons_succ] at hg ho'
      rw [show i + (j + 1) = i + 1 + j by ring]
      exact hj j g' o' hg ho'

theorem runPair_spoiled {optimizer : SpoilOptimizer} {input : ExperimentInput} {d : SpoilDraws} {i : ℕ}
    {g : PairGuess} {o : PairOutcome} (h : runPair optimizer input i g d = .ok o) :
    spoilOpt g input d = .ok o.spoiled ∧ pairOutcome o.spoiled (optimizer input.experiment_progress.1 i o.spoiled) = .ok o := by
  unfold runPair at h
  obtain ⟨s, hs, h⟩ := Py.bind_eq_ok.mp h
  obtain ⟨_, _, h⟩ := Py.bind_eq_ok.mp h
  have : o.spoiled = s := by
    cases hopt : optimizer input.experiment_progress.1 i s with
    | none =>
      rw [hopt] at h
      cases h
      rfl
    | some out =>
      rw [hopt] at h
      unfold pairOutcome at h
      obtain ⟨⟨p, dq⟩, _, h⟩ := Py.bind_eq_ok.mp h
      cases h
      rfl
  rw [this]
  exact ⟨hs, h⟩

/-- What is known of a row. -/
structure RowOf (optimizer : SpoilOptimizer) (draws : ℕ → ℕ → SpoilDraws) (input : ExperimentInput) (e i : ℕ)
    (g : PairGuess) (row : ResultRow) : Prop where
  outcome : ∃ o : PairOutcome, spoilOpt g input (draws e i) = .ok o.spoiled ∧
    pairOutcome o.spoiled (optimizer e i o.spoiled) = .ok o ∧
    ∃ loop, row = spoilRow g o loop

theorem experiment_rows {optimizer : SpoilOptimizer} {pairs : List PairGuess} {sets : ℕ} {draws : ℕ → ℕ → SpoilDraws}
    {input : ExperimentInput} {e : ℕ} (he : input.experiment_progress.1 = e) {rows : List ResultRow}
    (h : runOptimizationExperiment optimizer pairs sets (draws e) input = .ok rows) :
    rows.length = pairs.length ∧ ∀ (i : ℕ) (g : PairGuess) (row : ResultRow), pairs[i]? = some g →
      rows[i]? = some row → RowOf optimizer draws input e i g row := by
  subst he
  unfold runOptimizationExperiment at h
  obtain ⟨os, hos, h⟩ := Py.bind_eq_ok.mp h
  obtain ⟨loop, _, h⟩ := Py.bind_eq_ok.mp h
  cases h
  obtain ⟨hl, hj⟩ := runPairs_ok hos
  refine ⟨by simp [hl], ?_⟩
  intro i g row hg hrow
  rw [List.getElem?_map, Option.map_eq_some_iff] at hrow
  obtain ⟨⟨g', o⟩, hz, rfl⟩ := hrow
  rw [List.getElem?_zip_eq_some] at hz
  have : g' = g := by
    have := hz.1
    rw [hg, Option.some.injEq] at this
    exact this.symm
  subst this
  have := hj i g' o hg hz.2
  rw [Nat.zero_add] at this
  exact ⟨o, (runPair_spoiled this).1, (runPair_spoiled this).2, _, rfl⟩

/-- All rows. -/
theorem experiments_rows {optimizer : SpoilOptimizer} {pairs : List PairGuess} {sets : ℕ}
    {draws : ℕ → ℕ → SpoilDraws} {type : String} {r : OffsetRanges} (hr : offsetRanges type = .ok r) {n : ℕ}
    (hn : 0 < n) {rows : List ResultRow}
    (h : optimizationExperiments optimizer pairs sets draws type n = .ok rows) :
    rows.length = r.times.length * r.angles.length * r.translations.length * n * pairs.length ∧
    ∀ t a x i p, t < r.times.length → a < r.angles.length → x < r.translations.length → i < n → p < pairs.length →
      ∃ (input : ExperimentInput) (g : PairGuess) (row : ResultRow),
        some input.time_offset_range = r.times[t]? ∧ some input.angle_offset_range = r.angles[a]? ∧
        some input.translation_offset_range = r.translations[x]? ∧ pairs[p]? = some g ∧
        rows[(((t * r.angles.length + a) * r.translations.length + x) * n + i) * pairs.length + p]? = some row ∧
        RowOf optimizer draws input (((t * r.angles.length + a) * r.translations.length + x) * n + i) p g row := by
  unfold optimizationExperiments at h
  rw [hr, Py.ok_bind] at h
  obtain ⟨inputs, hin, hlen, hget⟩ := C79_inputs r n hn
  rw [hin, Py.ok_bind] at h
  obtain ⟨output, hout, h⟩ := Py.bind_eq_ok.mp h
  cases h
  rw [Py.mapM_eq_ok, List.forall₂_iff_get] at hout
  obtain ⟨hl, hrun⟩ := hout
  have hP : ∀ b ∈ output, b.length = pairs.length := by
    intro b hb
    obtain ⟨e, he, rfl⟩ := List.getElem_of_mem hb
    exact (experiment_rows rfl (hrun e (hl ▸ he) he)).1
  have hflat : output.flatten = output.flatMap id := by rw [List.flatMap_id]
  refine ⟨by rw [hflat, length_flatMap_const id _ _ hP, ← hl, hlen], ?_⟩
  intro t a x i p ht ha hx hi hp
  have hg := hget t a x i ht ha hx hi
  generalize ((t * r.angles.length + a) * r.translations.length + x) * n + i = e at hg
  rw [Option.map_eq_some_iff] at hg
  obtain ⟨input, hie, hg⟩ := hg
  simp only [Prod.mk.injEq] at hg
  obtain ⟨g1, g2, g3, g4, g5⟩ := hg
  have he : e < inputs.length := by
    by_contra hc
    rw [List.getElem?_eq_none (by omega)] at hie
    cases hie
  have hie' : inputs.get ⟨e, he⟩ = input := by
    rw [List.getElem?_eq_getElem he, Option.some.injEq] at hie
    exact hie
  have hre := hrun e he (hl ▸ he)
  rw [hie', g5] at hre
  obtain ⟨hrl, hrow⟩ := experiment_rows (by rw [g5]) hre
  refine ⟨input, pairs[p], (output.get ⟨e, hl ▸ he⟩)[p], g1, g2, g3, List.getElem?_eq_getElem hp, ?_,
    hrow p _ _ (List.getElem?_eq_getElem hp) (List.getElem?_eq_getElem (by rw [hrl]; exact hp))⟩
  rw [hflat, get_flatMap_const id _ _ hP _ _ hp, List.getElem?_eq_getElem (hl ▸ he)]
  exact List.getElem?_eq_getElem _

/-- The assumptions of C60 on the ranges. -/
structure RangesOk (ar tr ti : ℝ × ℝ) : Prop where
  angle : ar.1 = 0 ∨ 1e-4 ≤ ar.1
  angle_le : ar.1 ≤ ar.2
  angle_turn : ar.2 ≤ 2 * Real.pi
  translation : 0 ≤ tr.1
  translation_le : tr.1 ≤ tr.2
  time : 0 ≤ ti.1
  time_le : ti.1 ≤ ti.2

theorem uniform_inRange {r : ℝ × ℝ} (hr : r.1 ≤ r.2) {u : ℝ} (h : 0 ≤ u ∧ u < 1) : InRange r (uniform r.1 r.2 u) := by
  obtain ⟨h0, h1⟩ := h
  unfold InRange uniform
  refine ⟨by nlinarith, ?_⟩
  rcases hr.eq_or_lt with h | h
  · right
    rw [h]
    ring
  · left
    nlinarith

theorem spoil_inRange {t : ℝ} {dq : DQuat} (hdq : Spec.IsUnit dq) {ar tr ti : ℝ × ℝ} (hr : RangesOk ar tr ti)
    {d : SpoilDraws} (hd : ValidDraws d) :
    ∃ s, spoilInitialGuess t dq ar tr ti d = .ok s ∧ Spec.IsUnit s.dq_H_E ∧ InRange ti |s.time_offset_offset| ∧
      InRange tr |s.translation_offset.norm| ∧ InRange ar |s.angle_offset| := by
  obtain ⟨s, hs, h1, h2, h3, h4, h5, h6, -⟩ := C60_spoil_partial t dq hdq ar tr ti d hd.direction hd.axis hr.angle
    hr.angle_le hr.angle_turn hr.translation hr.translation_le hr.time hr.time_le ⟨hd.time.1, hd.time.2.le⟩
    ⟨hd.length.1, hd.length.2.le⟩ ⟨hd.angle.1, hd.angle.2.le⟩
  obtain ⟨u, n, v, hu, hn, hq, hv, hv0, hv2, hv', hs'⟩ := spoil_eq t hdq ar tr ti d hd.direction hd.axis
  have ha := uniform_inRange hr.angle_le hd.angle
  have hl := uniform_inRange hr.translation_le hd.length
  have ht := uniform_inRange hr.time_le hd.time
  have har0 : 0 ≤ ar.1 := by rcases hr.angle with h | h <;> linarith
  have hle := (uniform_mem hr.angle_le hd.angle.1 hd.angle.2.le)
  have harc : 2 * Real.arccos (Real.cos (uniform ar.1 ar.2 d.angle / 2)) = uniform ar.1 ar.2 d.angle := by
    rw [Real.arccos_cos (by linarith [hle.1]) (by linarith [hle.2, hr.angle_turn])]
    ring
  rw [harc] at hv'
  rw [hs'] at hs
  obtain ⟨_, _, hs⟩ := Py.bind_eq_ok.mp hs
  obtain ⟨_, hge, hs⟩ := Py.bind_eq_ok.mp hs
  obtain ⟨_, _, hs⟩ := Py.bind_eq_ok.mp hs
  obtain ⟨_, _, hs⟩ := Py.bind_eq_ok.mp hs
  have hge := pyAssert_eq_ok.mp hge
  refine ⟨s, by rw [hs']; assumption, h6, ?_, ?_, ?_⟩
  · cases hs
    dsimp only
    rw [abs_mul, abs_of_nonneg (by linarith [ht.1, hr.time] : 0 ≤ uniform ti.1 ti.2 d.time)]
    cases d.negative <;> simpa using ht
  · cases hs
    dsimp only
    have hlen : (uniform tr.1 tr.2 d.length • u).norm = |uniform tr.1 tr.2 d.length| := by
      rw [Vec3.norm, ← Real.sqrt_sq_eq_abs]
      congr 1
      have := Vec3.norm_eq_one.mp hu
      simp only [Vec3.dot] at this ⊢
      simp
      linear_combination uniform tr.1 tr.2 d.length ^ 2 * this
    rw [hlen, abs_abs, abs_of_nonneg (by linarith [hl.1, hr.translation])]
    exact hl
  · cases hs
    dsimp only
    rw [abs_of_nonneg hv0]
    rcases hv' with h | ⟨h, -, -⟩
    · rw [h]
      exact ha
    · exact ⟨hge, Or.inr (by linarith)⟩

/-- All ranges of a name are usable. -/
theorem adjacent_get {w : ℝ} {n i : ℕ} {r : ℝ × ℝ} (h : some r = (adjacent w n)[i]?) :
    i < n ∧ r = (i * w, ((i : ℝ) + 1) * w) := by
  unfold adjacent at h
  rw [List.getElem?_map] at h
  by_cases hi : i < n
  · rw [List.getElem?_range hi] at h
    exact ⟨hi, by simpa using h⟩
  · rw [List.getElem?_eq_none (by simpa using hi)] at h
    cases h

theorem adjacent_length (w : ℝ) (n : ℕ) : (adjacent w n).length = n := by
  unfold adjacent
  simp

theorem adjacent_bounds {w : ℝ} (hw : 1e-4 ≤ w) {n i : ℕ} {r : ℝ × ℝ} (h : some r = (adjacent w n)[i]?) :
    (r.1 = 0 ∨ 1e-4 ≤ r.1) ∧ 0 ≤ r.1 ∧ r.1 ≤ r.2 ∧ r.2 ≤ n * w := by
  obtain ⟨hi, rfl⟩ := adjacent_get h
  dsimp only
  have hi' : (i : ℝ) + 1 ≤ n := by exact_mod_cast hi
  refine ⟨?_, by positivity, by nlinarith, by nlinarith⟩
  rcases Nat.eq_zero_or_pos i with h0 | h0
  · left
    simp [h0]
  · right
    have : (1 : ℝ) ≤ i := by exact_mod_cast h0
    nlinarith

theorem rangeTable_ok {e : String × OffsetRanges} (he : e ∈ rangeTable) {t a x : ℕ} {ar tr ti : ℝ × ℝ}
    (h1 : some ti = e.2.times[t]?) (h2 : some ar = e.2.angles[a]?) (h3 : some tr = e.2.translations[x]?) :
    RangesOk ar tr ti := by
  have hpi := Real.pi_pos
  have hpi3 := Real.two_le_pi
  have key : ∀ {wt wa wx : ℝ} {nt na nx : ℕ}, 1e-4 ≤ wt → 1e-4 ≤ wa → 1e-4 ≤ wx → na * wa ≤ 2 * Real.pi →
      some ti = (adjacent wt nt)[t]? → some ar = (adjacent wa na)[a]? → some tr = (adjacent wx nx)[x]? →
      RangesOk ar tr ti := by
    intro wt wa wx nt na nx ht ha hx hle h1 h2 h3
    have b1 := adjacent_bounds ht h1
    have b2 := adjacent_bounds ha h2
    have b3 := adjacent_bounds hx h3
    exact ⟨b2.1, b2.2.2.1, by linarith [b2.2.2.2], b3.2.1, b3.2.2.1, b1.2.1, b1.2.2.1⟩
  have hw : (1e-4 : ℝ) ≤ 15 / 180 * Real.pi := by linarith
  simp only [rangeTable, List.mem_cons, List.not_mem_nil, or_false] at he
  rcases he with rfl | rfl | rfl | rfl
  · exact key (by norm_num) hw (by norm_num) (by push_cast; linarith) h1 h2 h3
  · exact key (by norm_num) hw (by norm_num) (by push_cast; linarith) h1 h2 h3
  · exact key (by norm_num) hw (by norm_num) (by push_cast; linarith) h1 h2 h3
  · have b2 := adjacent_bounds hw h2
    have b3 := adjacent_bounds (by norm_num) h3
    dsimp only at h1
    have h1' : ti = (0, 0) := by
      cases t with
      | zero => simpa using h1
      | succ t => simp at h1
    subst h1'
    have : ((12 : ℕ) : ℝ) * (15 / 180 * Real.pi) ≤ 2 * Real.pi := by push_cast; linarith
    exact ⟨b2.1, b2.2.2.1, by linarith [b2.2.2.2], b3.2.1, b3.2.2.1, le_rfl, le_rfl⟩

/-- If the initial guesses of all pairs were found, and the script ends normally, whatever the optimizer does, then for
each combination of ranges, each iteration and each pair there is exactly one row, at the place given by the nested
loops, and the recorded perturbation is inside the ranges. -/
theorem C79_rows (optimizer : SpoilOptimizer) (pairs : List PairGuess) (hp : ∀ g ∈ pairs, Calibrated g) (sets : ℕ)
    (draws : ℕ → ℕ → SpoilDraws) (hd : ∀ e i, ValidDraws (draws e i)) (e : String × OffsetRanges) (he : e ∈ rangeTable)
    (n : ℕ) (hn : 0 < n) (rows : List ResultRow)
    (h : optimizationExperiments optimizer pairs sets draws e.1 n = .ok rows) :
    rows.length = e.2.times.length * e.2.angles.length * e.2.translations.length * n * pairs.length ∧
    ∀ t a x i p, (ht : t < e.2.times.length) → (ha : a < e.2.angles.length) → (hx : x < e.2.translations.length) →
      i < n → (hp : p < pairs.length) → ∃ row,
        rows[(((t * e.2.angles.length + a) * e.2.translations.length + x) * n + i) * pairs.length + p]? = some row ∧
        row.dataset = pairs[p].dataset ∧ row.runtime = pairs[p].runtime ∧
        InRange e.2.times[t] |row.initial_guess_time| ∧
        InRange e.2.angles[a] |row.initial_guess_angle| ∧
        InRange e.2.translations[x] |row.initial_guess_translation_norm| := by
  obtain ⟨hl, hrow⟩ := experiments_rows (C79_ranges.1 e he) hn h
  refine ⟨hl, ?_⟩
  intro t a x i p ht ha hx hi hpl
  obtain ⟨input, g, row, g1, g2, g3, g4, g5, ⟨o, ho, -, loop, rfl⟩⟩ := hrow t a x i p ht ha hx hi hpl
  have hg : pairs[p] = g := by
    rw [List.getElem?_eq_getElem hpl, Option.some.injEq] at g4
    exact g4
  obtain ⟨-, -, dq, hdq, hu⟩ := hp g (hg ▸ List.getElem_mem hpl)
  obtain ⟨s, hs, -, r1, r2, r3⟩ := spoil_inRange (t := g.time_offset) hu (rangeTable_ok he g1 g2 g3)
    (hd (((t * e.2.angles.length + a) * e.2.translations.length + x) * n + i) p)
  unfold spoilOpt at ho
  rw [hdq] at ho
  dsimp only at ho
  rw [hs] at ho
  cases ho
  rw [List.getElem?_eq_getElem ht, Option.some.injEq] at g1
  rw [List.getElem?_eq_getElem ha, Option.some.injEq] at g2
  rw [List.getElem?_eq_getElem hx, Option.some.injEq] at g3
  rw [← g1, ← g2, ← g3, hg]
  exact ⟨_, g5, rfl, rfl, r1, r3, r2⟩

end HandEye
