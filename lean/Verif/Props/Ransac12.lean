import Verif.Props.Ransac11
import Verif.Lemmas.Chance
import Mathlib.Topology.Order.Basic
import Mathlib.Order.Filter.AtTopBot.Basic

/-! # Property C108: with which probability the random search of RANSAC has ended, and how soon -/

namespace HandEye

/-- The loop, if it is known which samples become candidates and after how many of them it is to end. -/
theorem loop_course {svd : Svd} {cfg : HandEyeConfig} {rng : ℕ → List ℕ} {bs ws bf wf : List DQuat}
    (hex : cfg.enable_exhaustive_search = false) (G : ℕ → Prop) [DecidablePred G] (hfl : cfg.ransac_sample_size ≤ wf.length)
    (hev : ∀ k, ∃ o, evaluateSample svd cfg bs ws bf wf (rng k) = .ok o ∧ ((∃ c, o = .candidate c) ↔ G k)) (A : ℕ → Prop)
    (hab : ∀ k, ∃ b, earlyAbort cfg k = .ok b ∧ (b = true ↔ A k)) (hmax : 0 < cfg.ransac_max_number_iterations) (m : ℕ)
    (hm : IsLeast {j | 0 < j ∧ (cfg.ransac_max_number_iterations ≤ j ∨ A j)} m) (fuel : ℕ) (st : LoopState) (hst : st.full_iterations < m) :
    (m ≤ st.full_iterations + ((List.range fuel).countP fun j => decide (G (st.sample_number + j))) →
      ∃ st', ransacLoop svd cfg rng bs ws bf wf fuel st = .ok (some st')) ∧
    (st.full_iterations + ((List.range fuel).countP fun j => decide (G (st.sample_number + j))) < m →
      ransacLoop svd cfg rng bs ws bf wf fuel st = .ok none) := by
  have hlt : ∀ st : LoopState, st.full_iterations < m → st.full_iterations < cfg.ransac_max_number_iterations := by
    intro st h
    by_contra hc
    exact absurd (hm.2 ⟨lt_of_lt_of_le hmax (not_lt.mp hc), Or.inl (not_lt.mp hc)⟩) (not_le.mpr h)
  induction fuel generalizing st with
  | zero =>
    refine ⟨fun h => ?_, fun _ => ?_⟩
    · simp at h; omega
    · rw [ransacLoop, if_pos]
      unfold loopCondition
      rw [hex]
      simpa using hlt st hst
  | succ fuel ih =>
    obtain ⟨o, o1, o2⟩ := hev st.sample_number
    have hd : drawSample cfg rng wf.length st.sample_number = .ok (rng st.sample_number) := by
      unfold drawSample
      rw [hex, if_neg (by simp), if_neg (by omega)]
    have hsh : ((fun j => decide (G (st.sample_number + j))) ∘ Nat.succ) = fun j => decide (G (st.sample_number + 1 + j)) := by
      funext j
      simp only [Function.comp]
      rw [show st.sample_number + j.succ = st.sample_number + 1 + j by omega]
    have hc : loopCondition cfg wf.length st = true := by unfold loopCondition; rw [hex]; simpa using hlt st hst
    rw [List.range_succ_eq_map, List.countP_cons, List.countP_map, Nat.add_zero, hsh, ransacLoop, if_pos hc]
    dsimp only
    unfold ransacStep
    rw [hd, Py.ok_bind]
    dsimp only
    rw [o1, Py.ok_bind]
    cases o with
    | prerejected =>
      have hG : (if decide (G st.sample_number) = true then 1 else 0) = 0 := if_neg (by simpa using o2.not.mp (by simp))
      rw [hG, Nat.add_zero]
      dsimp only
      rw [Py.pure_eq, Py.ok_bind]
      exact ih { st with sample_number := st.sample_number + 1, prerejected_samples := st.prerejected_samples + 1 } hst
    | rejected =>
      have hG : (if decide (G st.sample_number) = true then 1 else 0) = 0 := if_neg (by simpa using o2.not.mp (by simp))
      rw [hG, Nat.add_zero]
      dsimp only
      rw [Py.pure_eq, Py.ok_bind]
      exact ih { st with sample_number := st.sample_number + 1 } hst
    | candidate c =>
      have hG : (if decide (G st.sample_number) = true then 1 else 0) = 1 := if_pos (by simpa using o2.mp ⟨c, rfl⟩)
      rw [hG]
      dsimp only
      obtain ⟨b, hb, hbA⟩ := hab (st.full_iterations + 1)
      rw [hb, Py.ok_bind, Py.pure_eq, Py.ok_bind]
      rcases lt_or_ge (st.full_iterations + 1) m with h | h
      · have hbf : b = false := by
          by_contra hc
          exact absurd (hm.2 ⟨Nat.succ_pos _, Or.inr (hbA.mp (by simpa using hc))⟩) (not_le.mpr h)
        subst hbf
        obtain ⟨i1, i2⟩ := ih { st with sample_number := st.sample_number + 1, full_iterations := st.full_iterations + 1, best := updateBest st.best c } h
        dsimp only at i1 i2
        refine ⟨fun h' => i1 (by omega), fun h' => i2 (by omega)⟩
      · have hme : st.full_iterations + 1 = m := by omega
        refine ⟨fun _ => ?_, fun h' => absurd h' (by omega)⟩
        cases b with
        | true => exact ⟨_, rfl⟩
        | false =>
          have hle : cfg.ransac_max_number_iterations ≤ m := by
            rcases hm.1.2 with h' | h'
            · exact h'
            · rw [← hme] at h'
              exact absurd (hbA.mpr h') (by simp)
          refine ⟨{ st with sample_number := st.sample_number + 1, full_iterations := st.full_iterations + 1, best := updateBest st.best c }, ?_⟩
          dsimp only
          rw [if_neg (by simp), ransacLoop.eq_def]
          dsimp only
          rw [if_neg]
          unfold loopCondition
          rw [hex]
          simpa [hme] using hle

open Classical in
/-- **C108**, exactly when the random search ends: after `m` samples that lead to a calibration, where m is the maximum number of iterations or, if the early abort
is enabled and that comes first, the number after which the configured confidence is reached; and then it succeeds. -/
theorem C108_ends (svd : Svd) (rng : ℕ → List ℕ) (cfg : HandEyeConfig) (hmode : cfg.ransac_inlier_classification = .scalarPartEquality)
    (tol : ℝ) (ht : cfg.ransac_sample_rejection_scalar_part_equality_tolerance = tol) (htol : 0 ≤ tol)
    (hex : cfg.enable_exhaustive_search = false) (hmax : 0 < cfg.ransac_max_number_iterations)
    (ho : 0 < cfg.ransac_outlier_probability) (ho' : cfg.ransac_outlier_probability < 1)
    (hp : cfg.ransac_success_probability_threshold < 1)
    (bs ws bf wf : List DQuat) (hl : ws.length = bs.length) (hb : ∀ a ∈ bs, Spec.IsUnit a) (hw : ∀ a ∈ ws, Spec.IsUnit a)
    (hf : filteredPoses cfg bs ws = .ok (bf, wf)) (hfl : cfg.ransac_sample_size ≤ wf.length)
    (hsize : 0 < cfg.ransac_sample_size) (hn : cfg.ransac_sample_size < ws.length)
    (hrng : ∀ k, Spec.IsSample wf.length cfg.ransac_sample_size (rng k)) (m : ℕ) (hm : Spec.EndsAfter cfg m) (fuel : ℕ) :
    (m ≤ ((List.range fuel).countP fun k => decide (Spec.LeadsToCalibration svd cfg tol (bf.zip wf) (bs.zip ws) (rng k))) →
      ∃ r, ransac svd rng cfg bs ws fuel = .ok (some r) ∧ r.success = true) ∧
    (((List.range fuel).countP fun k => decide (Spec.LeadsToCalibration svd cfg tol (bf.zip wf) (bs.zip ws) (rng k))) < m →
      ransac svd rng cfg bs ws fuel = .ok none) := by
  obtain ⟨hlf, hbf, hwf, hle⟩ := filtered_facts hl hb hw hf
  have hout := fun s hs => scalar_outcome (svd := svd) hmode ht htol hl hb hw hlf hbf hwf hle hsize (s := s) hs
  have hab : ∀ k, ∃ b, earlyAbort cfg k = .ok b ∧ (b = true ↔ (cfg.ransac_enable_early_abort = true ∧
      (1 - (1 - cfg.ransac_outlier_probability) ^ cfg.ransac_sample_size) ^ k < 1 - cfg.ransac_success_probability_threshold)) := by
    intro k
    by_cases ha : cfg.ransac_enable_early_abort = true
    · obtain ⟨b, h1, h2⟩ := C41_confidence cfg k hex ha ho ho' hp hsize
      exact ⟨b, h1, by rw [h2]; exact ⟨fun h => ⟨ha, h⟩, fun h => h.2⟩⟩
    · refine ⟨false, ?_, by simp [ha]⟩
      unfold earlyAbort
      rw [if_neg (fun h => ha h.2)]
      rfl
  obtain ⟨h1, h2⟩ := loop_course (svd := svd) (bs := bs) (ws := ws) (bf := bf) (wf := wf) (rng := rng) hex
    (fun k => Spec.LeadsToCalibration svd cfg tol (bf.zip wf) (bs.zip ws) (rng k)) hfl (fun k => hout _ (hrng k)) _ hab hmax m hm fuel {} hm.1.1
  simp only [Nat.zero_add] at h1 h2
  refine ⟨fun h => ?_, fun h => ?_⟩
  · obtain ⟨st, hst⟩ := h1 h
    obtain ⟨o, hr⟩ := ransac_ok (rng := rng) hl hn hf hfl hrng (fun s hs => (hout s hs).imp fun _ h => h.1) (fun k => (hab k).imp fun _ h => h.1) fuel
    cases o with
    | some r => exact ⟨r, hr, (C107_random svd rng cfg hmode tol ht htol hex hmax ho ho' hp bs ws bf wf hl hb hw hf hfl hsize hn hrng fuel).1 r hr⟩
    | none =>
      exfalso
      unfold ransac at hr
      rw [pyAssert_pos hl, Py.ok_bind, pyAssert_pos hn, Py.ok_bind, hf, Py.ok_bind] at hr
      dsimp only at hr
      rw [hst, Py.ok_bind] at hr
      dsimp only at hr
      obtain ⟨_, -, hr⟩ := Py.bind_eq_ok.mp hr
      cases hr
  · unfold ransac
    rw [pyAssert_pos hl, Py.ok_bind, pyAssert_pos hn, Py.ok_bind, hf, Py.ok_bind]
    dsimp only
    rw [h2 h]
    rfl

theorem numbers_sample {n k : ℕ} (d : Spec.Draw n k) : Spec.IsSample n k (Spec.numbers d) := by
  refine ⟨by simp [Spec.numbers], ?_, ?_⟩
  · unfold Spec.numbers
    rw [List.nodup_ofFn]
    exact fun i j h => d.injective (Fin.ext h)
  · intro i hi
    simp only [Spec.numbers, List.mem_ofFn] at hi
    obtain ⟨j, rfl⟩ := hi
    exact (d j).2

theorem calls_sample {n k N : ℕ} (h : k ≤ n) (ω : Fin N → Spec.Draw n k) (i : ℕ) : Spec.IsSample n k (Spec.calls ω i) := by
  unfold Spec.calls
  split
  · exact numbers_sample _
  · exact ⟨by simp, List.nodup_range, fun j hj => lt_of_lt_of_le (List.mem_range.mp hj) h⟩

open Classical in
theorem calls_count {n k N : ℕ} (ω : Fin N → Spec.Draw n k) (P : List ℕ → Prop) :
    ((List.range N).countP fun i => decide (P (Spec.calls ω i))) = (Finset.univ.filter fun i => P (Spec.numbers (ω i))).card := by
  have h : ∀ M (f : ℕ → Prop) [DecidablePred f], ((List.range M).countP fun i => decide (f i)) = ∑ i ∈ Finset.range M, if f i then 1 else 0 := by
    intro M f _
    induction M with
    | zero => simp
    | succ M ih => rw [List.range_succ, List.countP_append, ih, Finset.sum_range_succ]; simp [List.countP_cons]
  rw [h N fun i => P (Spec.calls ω i), ← Fin.sum_univ_eq_sum_range (fun i => if P (Spec.calls ω i) then 1 else 0), Finset.card_filter]
  refine Finset.sum_congr rfl fun i _ => ?_
  simp [Spec.calls]

/-- **C108**, the chance that the random search has ended: with samples drawn independently and with equal chances, the search has ended with success within N
samples unless fewer than m of them lead to a calibration, so the chance is given by the binomial distribution; otherwise it is still going on. -/
theorem C108_chance (svd : Svd) (cfg : HandEyeConfig) (hmode : cfg.ransac_inlier_classification = .scalarPartEquality)
    (tol : ℝ) (ht : cfg.ransac_sample_rejection_scalar_part_equality_tolerance = tol) (htol : 0 ≤ tol)
    (hex : cfg.enable_exhaustive_search = false) (hmax : 0 < cfg.ransac_max_number_iterations)
    (ho : 0 < cfg.ransac_outlier_probability) (ho' : cfg.ransac_outlier_probability < 1)
    (hp : cfg.ransac_success_probability_threshold < 1)
    (bs ws bf wf : List DQuat) (hl : ws.length = bs.length) (hb : ∀ a ∈ bs, Spec.IsUnit a) (hw : ∀ a ∈ ws, Spec.IsUnit a)
    (hf : filteredPoses cfg bs ws = .ok (bf, wf)) (hfl : cfg.ransac_sample_size ≤ wf.length)
    (hsize : 0 < cfg.ransac_sample_size) (hn : cfg.ransac_sample_size < ws.length) (m : ℕ) (hm : Spec.EndsAfter cfg m)
    (p : ℝ) (hpp : p = Spec.chance fun d : Spec.Draw wf.length cfg.ransac_sample_size =>
      Spec.LeadsToCalibration svd cfg tol (bf.zip wf) (bs.zip ws) (Spec.numbers d)) (N : ℕ) :
    Spec.chance (fun ω : Fin N → Spec.Draw wf.length cfg.ransac_sample_size => ransac svd (Spec.calls ω) cfg bs ws N = .ok none) =
      ∑ j ∈ Finset.range m, N.choose j * p ^ j * (1 - p) ^ (N - j) ∧
    Spec.chance (fun ω : Fin N → Spec.Draw wf.length cfg.ransac_sample_size =>
        ∃ r, ransac svd (Spec.calls ω) cfg bs ws N = .ok (some r) ∧ r.success = true) =
      1 - ∑ j ∈ Finset.range m, N.choose j * p ^ j * (1 - p) ^ (N - j) ∧
    ∀ B, m * B ≤ N → 1 - m * (1 - p) ^ B ≤ Spec.chance (fun ω : Fin N → Spec.Draw wf.length cfg.ransac_sample_size =>
        ∃ r, ransac svd (Spec.calls ω) cfg bs ws N = .ok (some r) ∧ r.success = true) := by
  classical
  have := draw_nonempty hfl
  have hends := fun ω : Fin N → Spec.Draw wf.length cfg.ransac_sample_size =>
    C108_ends svd (Spec.calls ω) cfg hmode tol ht htol hex hmax ho ho' hp bs ws bf wf hl hb hw hf hfl hsize hn (calls_sample hfl ω) m hm N
  simp only [calls_count] at hends
  have e1 : ∀ ω : Fin N → Spec.Draw wf.length cfg.ransac_sample_size, ransac svd (Spec.calls ω) cfg bs ws N = .ok none ↔
      (Finset.univ.filter fun i => Spec.LeadsToCalibration svd cfg tol (bf.zip wf) (bs.zip ws) (Spec.numbers (ω i))).card < m := by
    intro ω
    refine ⟨fun h => ?_, (hends ω).2⟩
    by_contra hc
    obtain ⟨r, hr, -⟩ := (hends ω).1 (not_lt.mp hc)
    rw [h] at hr
    cases hr
  have e2 : ∀ ω : Fin N → Spec.Draw wf.length cfg.ransac_sample_size, (∃ r, ransac svd (Spec.calls ω) cfg bs ws N = .ok (some r) ∧ r.success = true) ↔
      ¬ (Finset.univ.filter fun i => Spec.LeadsToCalibration svd cfg tol (bf.zip wf) (bs.zip ws) (Spec.numbers (ω i))).card < m := by
    intro ω
    refine ⟨?_, fun h => (hends ω).1 (not_lt.mp h)⟩
    rintro ⟨r, hr, -⟩ h
    rw [(hends ω).2 h] at hr
    cases hr
  rw [chance_congr e1, chance_congr e2, chance_not,
    chance_count_lt N fun d : Spec.Draw wf.length cfg.ransac_sample_size => Spec.LeadsToCalibration svd cfg tol (bf.zip wf) (bs.zip ws) (Spec.numbers d), ← hpp]
  refine ⟨rfl, rfl, fun B hB => ?_⟩
  have := chance_blocks hB fun d : Spec.Draw wf.length cfg.ransac_sample_size => Spec.LeadsToCalibration svd cfg tol (bf.zip wf) (bs.zip ws) (Spec.numbers d)
  rw [chance_count_lt N fun d : Spec.Draw wf.length cfg.ransac_sample_size => Spec.LeadsToCalibration svd cfg tol (bf.zip wf) (bs.zip ws) (Spec.numbers d), ← hpp] at this
  linarith

theorem endsAfter_exists {cfg : HandEyeConfig} (hmax : 0 < cfg.ransac_max_number_iterations) : ∃ m, Spec.EndsAfter cfg m := by
  classical
  have h : ∃ j, 0 < j ∧ (cfg.ransac_max_number_iterations ≤ j ∨ (cfg.ransac_enable_early_abort = true ∧
    (1 - (1 - cfg.ransac_outlier_probability) ^ cfg.ransac_sample_size) ^ j < 1 - cfg.ransac_success_probability_threshold)) :=
    ⟨_, hmax, Or.inl le_rfl⟩
  exact ⟨Nat.find h, Nat.find_spec h, fun j hj => Nat.find_min' h hj⟩

theorem sample_numbers {n k : ℕ} {s : List ℕ} (h : Spec.IsSample n k s) : ∃ d : Spec.Draw n k, Spec.numbers d = s := by
  obtain ⟨rfl, h2, h3⟩ := h
  refine ⟨⟨fun i => ⟨s[i], h3 _ (List.getElem_mem _)⟩, fun i j hij => ?_⟩, ?_⟩
  · have := Fin.mk.inj hij
    exact Fin.ext ((List.Nodup.getElem_inj_iff h2).mp this)
  · unfold Spec.numbers
    simp

open Classical in
theorem card_indices {l : List (DQuat × DQuat)} {n : ℕ} (h : l.length = n) (P : DQuat × DQuat → Prop) :
    (Finset.univ.filter fun i : Fin n => P (l[(i : ℕ)]'(by rw [h]; exact i.2))).card = Spec.number P l := by
  subst h
  unfold Spec.number
  conv_rhs => rw [← List.map_getElem_finRange l, List.countP_map]
  rw [Finset.card, Finset.filter_val, Fin.univ_def, ← Multiset.countP_eq_card_filter, Multiset.coe_countP]
  rfl

/-- **C108**: if at least one sample leads to a calibration, the chance that the search has ended with success within N samples tends to one; otherwise it is
certain that the search goes on, for every N. -/
theorem C108_almost_surely (svd : Svd) (cfg : HandEyeConfig) (hmode : cfg.ransac_inlier_classification = .scalarPartEquality)
    (tol : ℝ) (ht : cfg.ransac_sample_rejection_scalar_part_equality_tolerance = tol) (htol : 0 ≤ tol)
    (hex : cfg.enable_exhaustive_search = false) (hmax : 0 < cfg.ransac_max_number_iterations)
    (ho : 0 < cfg.ransac_outlier_probability) (ho' : cfg.ransac_outlier_probability < 1)
    (hp : cfg.ransac_success_probability_threshold < 1)
    (bs ws bf wf : List DQuat) (hl : ws.length = bs.length) (hb : ∀ a ∈ bs, Spec.IsUnit a) (hw : ∀ a ∈ ws, Spec.IsUnit a)
    (hf : filteredPoses cfg bs ws = .ok (bf, wf)) (hfl : cfg.ransac_sample_size ≤ wf.length)
    (hsize : 0 < cfg.ransac_sample_size) (hn : cfg.ransac_sample_size < ws.length) :
    ((∃ s, Spec.IsSample wf.length cfg.ransac_sample_size s ∧ Spec.LeadsToCalibration svd cfg tol (bf.zip wf) (bs.zip ws) s) →
      Filter.Tendsto (fun N => Spec.chance fun ω : Fin N → Spec.Draw wf.length cfg.ransac_sample_size =>
        ∃ r, ransac svd (Spec.calls ω) cfg bs ws N = .ok (some r) ∧ r.success = true) Filter.atTop (nhds 1)) ∧
    ((¬ ∃ s, Spec.IsSample wf.length cfg.ransac_sample_size s ∧ Spec.LeadsToCalibration svd cfg tol (bf.zip wf) (bs.zip ws) s) →
      ∀ N, Spec.chance (fun ω : Fin N → Spec.Draw wf.length cfg.ransac_sample_size => ransac svd (Spec.calls ω) cfg bs ws N = .ok none) = 1) := by
  classical
  have := draw_nonempty hfl
  obtain ⟨m, hm⟩ := endsAfter_exists hmax
  refine ⟨?_, fun hno N => ?_⟩
  · rintro ⟨s, hs, hlead⟩
    obtain ⟨d, rfl⟩ := sample_numbers hs
    have hpos : 0 < Spec.chance fun d : Spec.Draw wf.length cfg.ransac_sample_size =>
        Spec.LeadsToCalibration svd cfg tol (bf.zip wf) (bs.zip ws) (Spec.numbers d) := chance_pos d hlead
    have h1 := chance_le_one fun d : Spec.Draw wf.length cfg.ransac_sample_size =>
        Spec.LeadsToCalibration svd cfg tol (bf.zip wf) (bs.zip ws) (Spec.numbers d)
    have hc := C108_chance svd cfg hmode tol ht htol hex hmax ho ho' hp bs ws bf wf hl hb hw hf hfl hsize hn m hm _ rfl
    generalize (Spec.chance fun d : Spec.Draw wf.length cfg.ransac_sample_size =>
        Spec.LeadsToCalibration svd cfg tol (bf.zip wf) (bs.zip ws) (Spec.numbers d)) = p at *
    refine tendsto_of_tendsto_of_tendsto_of_le_of_le (g := fun N => 1 - m * (1 - p) ^ (N / m)) (h := fun _ => (1 : ℝ)) ?_ tendsto_const_nhds
      (fun N => (hc N).2.2 (N / m) (Nat.mul_div_le N m)) fun N => chance_le_one _
    have ht0 : Filter.Tendsto (fun N : ℕ => (1 - p) ^ (N / m)) Filter.atTop (nhds 0) :=
      (tendsto_pow_atTop_nhds_zero_of_lt_one (by linarith) (by linarith)).comp (Nat.tendsto_div_const_atTop hm.1.1.ne')
    have := (ht0.const_mul (m : ℝ)).const_sub 1
    simpa using this
  · have h0 : (Spec.chance fun d : Spec.Draw wf.length cfg.ransac_sample_size =>
        Spec.LeadsToCalibration svd cfg tol (bf.zip wf) (bs.zip ws) (Spec.numbers d)) = 0 :=
      chance_zero fun d hd => hno ⟨_, numbers_sample d, hd⟩
    rw [(C108_chance svd cfg hmode tol ht htol hex hmax ho ho' hp bs ws bf wf hl hb hw hf hfl hsize hn m hm _ rfl N).1, h0,
      Finset.sum_eq_single_of_mem 0 (Finset.mem_range.mpr hm.1.1)]
    · simp
    · intro j _ hj
      simp [hj]

/-- **C108**: if p is the share of samples that lead to a calibration and not zero, the expected number of samples that are drawn until the search ends is m / p: it is the
sum over N of the chance that the search has not ended after N samples. -/
theorem C108_expected (svd : Svd) (cfg : HandEyeConfig) (hmode : cfg.ransac_inlier_classification = .scalarPartEquality)
    (tol : ℝ) (ht : cfg.ransac_sample_rejection_scalar_part_equality_tolerance = tol) (htol : 0 ≤ tol)
    (hex : cfg.enable_exhaustive_search = false) (hmax : 0 < cfg.ransac_max_number_iterations)
    (ho : 0 < cfg.ransac_outlier_probability) (ho' : cfg.ransac_outlier_probability < 1)
    (hp : cfg.ransac_success_probability_threshold < 1)
    (bs ws bf wf : List DQuat) (hl : ws.length = bs.length) (hb : ∀ a ∈ bs, Spec.IsUnit a) (hw : ∀ a ∈ ws, Spec.IsUnit a)
    (hf : filteredPoses cfg bs ws = .ok (bf, wf)) (hfl : cfg.ransac_sample_size ≤ wf.length)
    (hsize : 0 < cfg.ransac_sample_size) (hn : cfg.ransac_sample_size < ws.length) (m : ℕ) (hm : Spec.EndsAfter cfg m)
    (p : ℝ) (hpp : p = Spec.chance fun d : Spec.Draw wf.length cfg.ransac_sample_size =>
      Spec.LeadsToCalibration svd cfg tol (bf.zip wf) (bs.zip ws) (Spec.numbers d)) (hp0 : p ≠ 0) :
    HasSum (fun N => Spec.chance fun ω : Fin N → Spec.Draw wf.length cfg.ransac_sample_size => ransac svd (Spec.calls ω) cfg bs ws N = .ok none) (m / p) := by
  have := draw_nonempty hfl
  have e : (fun N => Spec.chance fun ω : Fin N → Spec.Draw wf.length cfg.ransac_sample_size => ransac svd (Spec.calls ω) cfg bs ws N = .ok none) =
      fun N => fewer p N m := by
    funext N
    exact (C108_chance svd cfg hmode tol ht htol hex hmax ho ho' hp bs ws bf wf hl hb hw hf hfl hsize hn m hm p hpp N).1
  rw [e]
  exact fewer_hasSum (lt_of_le_of_ne (by rw [hpp]; exact chance_nonneg _) hp0.symm) (by rw [hpp]; exact chance_le_one _) m

/-- With visible outliers, exactly the samples without outliers lead to a calibration. -/
theorem leads_iff_fit {svd : Svd} (hsvd : ∀ T s V, svd T = .ok (s, V) → Spec.IsSVD T s V)
    {cfg : HandEyeConfig} (hmode : cfg.ransac_inlier_classification = .scalarPartEquality) {tol : ℝ}
    (ht : cfg.ransac_sample_rejection_scalar_part_equality_tolerance = tol) (htol : 0 ≤ tol) (hpre : cfg.prefilter_poses_enabled = false)
    {g X : DQuat} (hg : Spec.IsUnit g) (hX : Spec.IsUnit X) (hXw : X.rot.w ≠ 0)
    {bs ws : List DQuat} (hl : ws.length = bs.length) (hb : ∀ a ∈ bs, Spec.IsUnit a) (hw : ∀ a ∈ ws, Spec.IsUnit a)
    (hvis : ∀ p ∈ bs.zip ws, Spec.Fits g X p → ∀ q ∈ bs.zip ws, Spec.Corresponds tol p q → Spec.Fits g X q)
    (hfew : ∀ p ∈ bs.zip ws, ¬ Spec.Fits g X p → Spec.number (Spec.Corresponds tol p) (bs.zip ws) < cfg.min_num_inliers)
    (h2 : Spec.TurnsAboutTwoAxes (Spec.handsOf (Spec.Fits g X) (bs.zip ws)))
    (hmin : cfg.min_num_inliers ≤ Spec.number (Spec.Fits g X) (bs.zip ws)) (hsize : 0 < cfg.ransac_sample_size)
    (hsolve : ∀ B W, Spec.Exact B W X → (∀ b ∈ B, Spec.IsUnit b) → Spec.TwoAxes B → B.head? = some ⟨⟨0, 0, 0, 1⟩, ⟨0, 0, 0, 0⟩⟩ →
      ∃ r, computeHandEyeCalibration svd B W cfg.hand_eye_calibration_scalar_part_equality_tolerance = .ok r)
    {s : List ℕ} (hs : Spec.IsSample ws.length cfg.ransac_sample_size s) :
    Spec.LeadsToCalibration svd cfg tol (bs.zip ws) (bs.zip ws) s ↔ Spec.AllFit g X bs ws s := by
  have hf : filteredPoses cfg bs ws = .ok (bs, ws) := by
    unfold filteredPoses
    rw [hpre]
    rfl
  constructor
  · rintro ⟨k, f, q, -, hf1, hq, hc, hnum, -⟩
    rw [hq] at hf1
    obtain rfl : q = f := Option.some.inj hf1
    have hqm := List.mem_of_getElem? hq
    have hqf : Spec.Fits g X q := by
      by_contra hno
      exact absurd hnum (not_le.mpr (hfew q hqm hno))
    intro i hi q' hq'
    exact hvis q hqm hqf q' (List.mem_of_getElem? hq') (hc i hi q' hq')
  · intro hall
    obtain ⟨o, o1, o2⟩ := sample_outcome hsvd hmode ht htol hg hX hXw hl hb hw hvis hfew h2 hmin hsolve hsize hs
    obtain ⟨hlf, hbf, hwf, hle⟩ := filtered_facts hl hb hw hf
    obtain ⟨o', p1, p2⟩ := scalar_outcome (svd := svd) hmode ht htol hl hb hw hlf hbf hwf hle hsize hs
    rw [o1] at p1
    cases p1
    exact p2.mp (o2 hall)

/-- **C108** with visible outliers (the assumptions of C91): the chance that RANSAC has returned the true mounting within N samples, where exactly `a` of `n`
measurements fit the mounting and a sample has k measurements: the share of samples without outliers is a(a-1)…(a-k+1) / (n(n-1)…(n-k+1)). -/
theorem C108_outliers (svd : Svd) (hsvd : ∀ T s V, svd T = .ok (s, V) → Spec.IsSVD T s V)
    (cfg : HandEyeConfig) (hmode : cfg.ransac_inlier_classification = .scalarPartEquality) (tol : ℝ)
    (ht : cfg.ransac_sample_rejection_scalar_part_equality_tolerance = tol) (htol : 0 ≤ tol)
    (hex : cfg.enable_exhaustive_search = false) (hpre : cfg.prefilter_poses_enabled = false)
    (hmax : 0 < cfg.ransac_max_number_iterations)
    (ho : 0 < cfg.ransac_outlier_probability) (ho' : cfg.ransac_outlier_probability < 1)
    (hp' : cfg.ransac_success_probability_threshold < 1)
    (g X : DQuat) (hg : Spec.IsUnit g) (hX : Spec.IsUnit X) (hXw : X.rot.w ≠ 0)
    (bs ws : List DQuat) (hl : ws.length = bs.length) (hb : ∀ a ∈ bs, Spec.IsUnit a) (hw : ∀ a ∈ ws, Spec.IsUnit a)
    (hvis : ∀ p ∈ bs.zip ws, Spec.Fits g X p → ∀ q ∈ bs.zip ws, Spec.Corresponds tol p q → Spec.Fits g X q)
    (hfew : ∀ p ∈ bs.zip ws, ¬ Spec.Fits g X p → Spec.number (Spec.Corresponds tol p) (bs.zip ws) < cfg.min_num_inliers)
    (h2 : Spec.TurnsAboutTwoAxes (Spec.handsOf (Spec.Fits g X) (bs.zip ws)))
    (hmin : cfg.min_num_inliers ≤ Spec.number (Spec.Fits g X) (bs.zip ws))
    (hsize : 0 < cfg.ransac_sample_size) (hn : cfg.ransac_sample_size < ws.length)
    (hsolve : ∀ B W, Spec.Exact B W X → (∀ b ∈ B, Spec.IsUnit b) → Spec.TwoAxes B → B.head? = some ⟨⟨0, 0, 0, 1⟩, ⟨0, 0, 0, 0⟩⟩ →
      ∃ r, computeHandEyeCalibration svd B W cfg.hand_eye_calibration_scalar_part_equality_tolerance = .ok r)
    (m : ℕ) (hm : Spec.EndsAfter cfg m) (p : ℝ)
    (hpp : p = (Spec.number (Spec.Fits g X) (bs.zip ws)).descFactorial cfg.ransac_sample_size / ws.length.descFactorial cfg.ransac_sample_size) (N : ℕ) :
    Spec.chance (fun ω : Fin N → Spec.Draw ws.length cfg.ransac_sample_size => ransac svd (Spec.calls ω) cfg bs ws N = .ok none) =
      ∑ j ∈ Finset.range m, N.choose j * p ^ j * (1 - p) ^ (N - j) ∧
    Spec.chance (fun ω : Fin N → Spec.Draw ws.length cfg.ransac_sample_size => ∃ r dq, ransac svd (Spec.calls ω) cfg bs ws N = .ok (some r) ∧
        r.success = true ∧ r.dq_H_E = some dq ∧ Spec.SameUpToSign dq X) =
      1 - ∑ j ∈ Finset.range m, N.choose j * p ^ j * (1 - p) ^ (N - j) ∧
    ∀ B, m * B ≤ N → 1 - m * (1 - p) ^ B ≤ Spec.chance (fun ω : Fin N → Spec.Draw ws.length cfg.ransac_sample_size =>
        ∃ r dq, ransac svd (Spec.calls ω) cfg bs ws N = .ok (some r) ∧ r.success = true ∧ r.dq_H_E = some dq ∧ Spec.SameUpToSign dq X) := by
  classical
  have hf : filteredPoses cfg bs ws = .ok (bs, ws) := by
    unfold filteredPoses
    rw [hpre]
    rfl
  have hlen : (bs.zip ws).length = ws.length := by rw [List.length_zip]; omega
  have hlead := fun s hs => leads_iff_fit hsvd hmode ht htol hpre hg hX hXw hl hb hw hvis hfew h2 hmin hsize hsolve (s := s) hs
  set G : Finset (Fin ws.length) := Finset.univ.filter fun i => Spec.Fits g X ((bs.zip ws)[(i : ℕ)]'(by rw [hlen]; exact i.2)) with hG
  have hGc : G.card = Spec.number (Spec.Fits g X) (bs.zip ws) := by
    rw [hG]
    exact card_indices hlen fun q => Spec.Fits g X q
  have hshare : p = Spec.chance fun d : Spec.Draw ws.length cfg.ransac_sample_size =>
      Spec.LeadsToCalibration svd cfg tol (bs.zip ws) (bs.zip ws) (Spec.numbers d) := by
    rw [hpp, ← hGc, ← chance_within]
    refine chance_congr fun d => ?_
    rw [hlead _ (numbers_sample d)]
    unfold Spec.AllFit Spec.numbers
    simp only [hG, Finset.mem_filter, Finset.mem_univ, true_and, List.mem_ofFn, forall_exists_index, forall_apply_eq_imp_iff]
    refine forall_congr' fun i => ?_
    rw [List.getElem?_eq_getElem (by rw [hlen]; exact (d i).2)]
    simp
  obtain ⟨c1, c2, c3⟩ := C108_chance svd cfg hmode tol ht htol hex hmax ho ho' hp' bs ws bs ws hl hb hw hf hn.le hsize hn m hm p hshare N
  have e : ∀ ω : Fin N → Spec.Draw ws.length cfg.ransac_sample_size, (∃ r, ransac svd (Spec.calls ω) cfg bs ws N = .ok (some r) ∧ r.success = true) ↔
      ∃ r dq, ransac svd (Spec.calls ω) cfg bs ws N = .ok (some r) ∧ r.success = true ∧ r.dq_H_E = some dq ∧ Spec.SameUpToSign dq X := by
    intro ω
    constructor
    · rintro ⟨r, r1, r2⟩
      obtain ⟨dq, d1, d2, -⟩ := C91_outliers svd hsvd _ cfg hmode tol ht htol g X hg hX hXw bs ws hb hw hvis hfew h2 N r r1 r2
      exact ⟨r, dq, r1, r2, d1, d2⟩
    · rintro ⟨r, dq, r1, r2, -⟩
      exact ⟨r, r1, r2⟩
  rw [chance_congr e] at c2 c3
  exact ⟨c1, c2, c3⟩

/-- **C108**, violated: the formula for the number of iterations is one for samples drawn with replacement, but `random.sample` draws without replacement.  If
every sample is evaluated, the chance that none of them is free of outliers can be larger than the configured confidence allows when the search is
aborted: always, if the samples have at least two measurements, the share of outliers is as configured and the confidence is reached exactly. -/
theorem C108_confidence_refuted (n a k j : ℕ) (hk : 2 ≤ k) (hkn : k ≤ n) (ha : 0 < a) (han : a < n) (hj : 0 < j) (A : Finset (Fin n)) (hA : A.card = a) :
    (1 - (1 - ((n - a : ℕ) : ℝ) / n) ^ k) ^ j < Spec.chance fun ω : Fin j → Spec.Draw n k => ∀ i, ∃ c, ω i c ∉ A := by
  classical
  have := draw_nonempty hkn
  have hn : (0 : ℝ) < n := by exact_mod_cast (by omega : 0 < n)
  have e1 : 1 - ((n - a : ℕ) : ℝ) / n = (a : ℝ) / n := by
    rw [Nat.cast_sub han.le]
    field_simp
    ring
  have e2 : Spec.chance (fun ω : Fin j → Spec.Draw n k => ∀ i, ∃ c, ω i c ∉ A) = (1 - (a.descFactorial k : ℝ) / n.descFactorial k) ^ j := by
    have := chance_none j (fun d : Spec.Draw n k => ∀ i, d i ∈ A) Finset.univ
    rw [chance_within, hA, Finset.card_univ, Fintype.card_fin] at this
    rw [← this]
    refine chance_congr fun ω => ?_
    simp
  rw [e1, e2]
  have hlt := share_lt ha han hk hkn
  have h1 : ((a : ℝ) / n) ^ k ≤ 1 := pow_le_one₀ (by positivity) (by rw [div_le_one hn]; exact_mod_cast han.le)
  exact pow_lt_pow_left₀ (by linarith) (by linarith) hj.ne'

end HandEye
