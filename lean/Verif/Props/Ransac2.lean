import Verif.Props.Ransac1

/-! # Properties C40-C41: termination and early abort of RANSAC -/

namespace HandEye

/-- C40, what holds: as long as a run has not finished, fewer than `ransac_max_number_iterations` of
the samples drawn so far have been evaluated.  (Missing: rejected samples do not count, so this does not
bound the number of draws; see `C40_unbounded_refuted`.) -/
theorem C40_budget_partial (svd : Svd) (rng : ℕ → List ℕ) (cfg : HandEyeConfig) (bs ws : List DQuat)
    (fuel : ℕ) (he : cfg.enable_exhaustive_search = false) (h : ransac svd rng cfg bs ws fuel = .ok none) :
    ∃ bf wf samples outs, filteredPoses cfg bs ws = .ok (bf, wf) ∧ samples.length = fuel ∧
      (∀ (k : ℕ) (s : List ℕ), samples[k]? = some s → s = rng k) ∧
      List.Forall₂ (fun s o => evaluateSample svd cfg bs ws bf wf s = .ok o) samples outs ∧
      Spec.evaluated outs < cfg.ransac_max_number_iterations := by
  unfold ransac at h
  obtain ⟨_, h1, h⟩ := Py.bind_eq_ok.mp h
  obtain ⟨_, h2, h⟩ := Py.bind_eq_ok.mp h
  obtain ⟨⟨bf, wf⟩, h3, h⟩ := Py.bind_eq_ok.mp h
  obtain ⟨o, h4, h⟩ := Py.bind_eq_ok.mp h
  cases o with
  | some st => obtain ⟨_, _, h⟩ := Py.bind_eq_ok.mp h; cases h
  | none =>
    obtain ⟨samples, outs, i1, i2, i3, st', i4, i5, i6⟩ := ransacLoop_none _ _ _ _ _ _ _ h4
    refine ⟨bf, wf, samples, outs, h3, i3, ?_, i2, ?_⟩
    · intro k s hk
      have := i1 k s hk
      simp only [Nat.zero_add] at this
      unfold drawSample at this
      rw [if_neg (by rw [he]; simp)] at this
      split at this
      · cases this
      · exact (Except.ok.inj this).symm
    · rw [evaluated_eq] at i5
      simp only [Nat.zero_add] at i5
      rw [← i5]
      by_contra hc
      push Not at hc
      have hx : loopCondition cfg wf.length st' = false := by
        rw [loopCondition_eq]
        unfold Spec.Exhausted
        rw [if_neg (by rw [he]; simp)]
        exact hc
      rw [hx] at i6
      cases i6

/-- C40, what holds: if every sample drawn is evaluated, the run needs at most
`ransac_max_number_iterations` draws. -/
theorem C40_all_evaluated_partial (svd : Svd) (rng : ℕ → List ℕ) (cfg : HandEyeConfig)
    (bs ws : List DQuat) (he : cfg.enable_exhaustive_search = false)
    (hall : ∀ bf wf k o, filteredPoses cfg bs ws = .ok (bf, wf) →
      evaluateSample svd cfg bs ws bf wf (rng k) = .ok o → ∃ c, o = .candidate c) :
    ransac svd rng cfg bs ws cfg.ransac_max_number_iterations ≠ .ok none := by
  intro h
  obtain ⟨bf, wf, samples, outs, h1, h2, h3, h4, h5⟩ := C40_budget_partial svd rng cfg bs ws _ he h
  have hev : Spec.evaluated outs = outs.length := by
    rw [← evaluated_eq, List.countP_eq_length]
    intro o ho
    obtain ⟨n, hn⟩ := List.getElem?_of_mem ho
    have hlt : n < outs.length := (List.getElem?_eq_some_iff.mp hn).1
    have hz := List.forall₂_iff_get.mp h4
    have hs : n < samples.length := by rw [hz.1]; exact hlt
    have e := hz.2 n hs hlt
    simp only [List.get_eq_getElem] at e
    rw [h3 n _ (List.getElem?_eq_getElem hs), (List.getElem?_eq_some_iff.mp hn).2] at e
    obtain ⟨c, rfl⟩ := hall bf wf n o h1 e
    rfl
  rw [hev, ← h4.length_eq, h2] at h5
  exact lt_irrefl _ h5

theorem posW_w (a : DQuat) : (posW a).rot.w = |a.rot.w| := by
  unfold posW
  split
  · next h => rw [abs_of_neg h]; simp
  · next h => rw [abs_of_nonneg (not_lt.mp h)]

/-- A sample whose first two poses are related by incompatible rotation angles is rejected at once. -/
theorem sample_prerejected {svd : Svd} {cfg : HandEyeConfig} {bs ws bf wf : List DQuat} {s : List ℕ}
    (hbu : ∀ a ∈ bf, Spec.IsUnit a) (hwu : ∀ a ∈ wf, Spec.IsUnit a) (hl : bf.length = wf.length)
    (hk : 2 ≤ cfg.ransac_sample_size) (htol : 0 ≤ cfg.ransac_sample_rejection_scalar_part_equality_tolerance)
    (hs : Spec.IsSample wf.length cfg.ransac_sample_size s)
    (hbad : ∀ (i j : ℕ) (b c v w : DQuat), i ≠ j → bf[i]? = some b → bf[j]? = some c → wf[i]? = some v → wf[j]? = some w →
      ¬ npIsclose |(v.conj * w).rot.w| |(b.conj * c).rot.w|
        cfg.ransac_sample_rejection_scalar_part_equality_tolerance) :
    evaluateSample svd cfg bs ws bf wf s = .ok .prerejected := by
  obtain ⟨hlen, hnd, hlt⟩ := hs
  match s, hlen with
  | [], hlen => simp at hlen; omega
  | [_], hlen => simp at hlen; omega
  | i :: j :: t, hlen =>
    have hget : ∀ {l : List DQuat}, l.length = wf.length → (i :: j :: t).mapM (pyAt l) =
        .ok ((i :: j :: t).map fun n => l.getD n 0) := by
      intro l hl'
      apply Py.mapM_ok
      intro n hn
      rw [pyAt_eq_ok]
      have : n < l.length := by rw [hl']; exact hlt n hn
      simp [List.getD_eq_getElem?_getD, List.getElem?_eq_getElem this]
    have hmem : ∀ {l : List DQuat}, l.length = wf.length → (∀ a ∈ l, Spec.IsUnit a) →
        ∀ a ∈ (i :: j :: t).map fun n => l.getD n 0, Spec.IsUnit a := by
      intro l hl' hu a ha
      obtain ⟨n, hn, rfl⟩ := List.mem_map.mp ha
      have : n < l.length := by rw [hl']; exact hlt n hn
      apply hu
      rw [List.getD_eq_getElem?_getD, List.getElem?_eq_getElem this]
      exact List.getElem_mem this
    have hp : ∀ {l : List DQuat}, pyPos ((i :: j :: t).map fun n => l.getD n 0).length 0 = some 0 := by
      intro l
      exact pyPos_natCast (k := 0) (by simp)
    have a1 := align_unit (hp (l := bf)) (hmem hl hbu) true
    have a2 := align_unit (hp (l := wf)) (hmem rfl hwu) true
    have hj : i ≠ j := by
      simp only [List.nodup_cons, List.mem_cons, not_or] at hnd
      exact hnd.1.1
    have hi' := hlt i (by simp)
    have hj' := hlt j (by simp)
    have hb' := hbad i j (bf[i]'(by omega)) (bf[j]'(by omega)) wf[i] wf[j] hj
      (List.getElem?_eq_getElem _) (List.getElem?_eq_getElem _) (List.getElem?_eq_getElem _)
      (List.getElem?_eq_getElem _)
    have hst : ∃ x y, sampleTest cfg bf wf (i :: j :: t) = .ok (false, x, y) := by
      unfold sampleTest
      rw [hget rfl, Py.ok_bind, hget hl, Py.ok_bind, pyAssert_pos (by rw [List.length_map]; exact hlen),
        Py.ok_bind, if_pos (by omega), a1, Py.ok_bind, a2, Py.ok_bind, samplesMatch_eq htol, Py.ok_bind]
      refine ⟨_, _, congrArg (fun b => (Except.ok (b, _, _) : Py (Bool × List DQuat × List DQuat)))
        (decide_eq_false_iff_not.mpr ?_)⟩
      intro hall
      apply hb'
      have := hall (rebase (wf.getD i 0).conj true (wf.getD j 0), rebase (bf.getD i 0).conj true (bf.getD j 0))
        (by simp)
      have h1 := this.1
      dsimp only at h1
      rw [rebase_true, rebase_true, posW_w, posW_w, List.getD_eq_getElem?_getD, List.getD_eq_getElem?_getD,
        List.getD_eq_getElem?_getD, List.getD_eq_getElem?_getD, List.getElem?_eq_getElem hi',
        List.getElem?_eq_getElem hj', List.getElem?_eq_getElem (show i < bf.length by omega),
        List.getElem?_eq_getElem (show j < bf.length by omega)] at h1
      exact h1
    obtain ⟨x, y, hst⟩ := hst
    unfold evaluateSample
    rw [hst]
    rfl

/-- C40 fails: if the poses are such that no two of them have compatible relative rotation angles, the
loop rejects every sample it can possibly draw, and never ends: whatever the random generator does, no
number of passes suffices. -/
theorem C40_never_ends_refuted (svd : Svd) (rng : ℕ → List ℕ) (cfg : HandEyeConfig) (bs ws bf wf : List DQuat)
    (he : cfg.enable_exhaustive_search = false) (hl : ws.length = bs.length)
    (hn : cfg.ransac_sample_size < ws.length) (hk : 2 ≤ cfg.ransac_sample_size)
    (hm : 0 < cfg.ransac_max_number_iterations)
    (htol : 0 ≤ cfg.ransac_sample_rejection_scalar_part_equality_tolerance)
    (hf : filteredPoses cfg bs ws = .ok (bf, wf)) (hfl : bf.length = wf.length)
    (hfn : cfg.ransac_sample_size ≤ wf.length)
    (hbu : ∀ a ∈ bf, Spec.IsUnit a) (hwu : ∀ a ∈ wf, Spec.IsUnit a)
    (hrng : ∀ k, Spec.IsSample wf.length cfg.ransac_sample_size (rng k))
    (hbad : ∀ (i j : ℕ) (b c v w : DQuat), i ≠ j → bf[i]? = some b → bf[j]? = some c → wf[i]? = some v → wf[j]? = some w →
      ¬ npIsclose |(v.conj * w).rot.w| |(b.conj * c).rot.w|
        cfg.ransac_sample_rejection_scalar_part_equality_tolerance) :
    ∀ fuel, ransac svd rng cfg bs ws fuel = .ok none := by
  intro fuel
  have hloop : ∀ (fuel : ℕ) (st : LoopState), st.full_iterations = 0 →
      ransacLoop svd cfg rng bs ws bf wf fuel st = .ok none := by
    intro fuel
    induction fuel with
    | zero =>
      intro st h0
      rw [ransacLoop, if_pos]
      unfold loopCondition
      rw [he, h0]
      simp [hm]
    | succ fuel ih =>
      intro st h0
      rw [ransacLoop, if_pos (by unfold loopCondition; rw [he, h0]; simp [hm])]
      dsimp only
      have hstep : ransacStep svd cfg rng bs ws bf wf st =
          .ok (⟨st.sample_number + 1, st.full_iterations, st.prerejected_samples + 1, st.best⟩, false) := by
        unfold ransacStep drawSample
        rw [if_neg (by rw [he]; simp), if_neg (by omega), Py.ok_bind]
        dsimp only
        rw [sample_prerejected hbu hwu hfl hk htol (hrng _) hbad]
        rfl
      rw [hstep, Py.ok_bind]
      simp only [Bool.false_eq_true, if_false]
      exact ih _ h0
  unfold ransac
  rw [pyAssert_pos hl, Py.ok_bind, pyAssert_pos hn, Py.ok_bind, hf, Py.ok_bind]
  dsimp only
  rw [hloop fuel {} rfl]
  rfl

/-- C40 is refuted, concretely: four poses, default configuration but for the prefilter. -/
theorem C40_unbounded_refuted :
    ∃ bs ws : List DQuat, (∀ a ∈ bs, Spec.IsUnit a) ∧ (∀ a ∈ ws, Spec.IsUnit a) ∧
      bs.length = 4 ∧ ws.length = 4 ∧
      ∀ svd rng, (∀ k, Spec.IsSample 4 3 (rng k)) →
        ∀ fuel, ransac svd rng { prefilter_poses_enabled := false } bs ws fuel = .ok none := by
  have ub : ∀ a ∈ List.replicate 4 (1 : DQuat), Spec.IsUnit a := by
    intro a ha
    rw [List.eq_of_mem_replicate ha]
    exact DQuat.isUnit_one
  have uw : ∀ a ∈ [(⟨⟨0, 0, 0, 1⟩, ⟨0, 0, 0, 0⟩⟩ : DQuat), ⟨⟨0, 0, 0.6, 0.8⟩, ⟨0, 0, 0, 0⟩⟩,
      ⟨⟨0, 0, 0.8, 0.6⟩, ⟨0, 0, 0, 0⟩⟩, ⟨⟨0, 0, 1, 0⟩, ⟨0, 0, 0, 0⟩⟩], Spec.IsUnit a := by
    intro a ha
    simp only [List.mem_cons, List.not_mem_nil, or_false] at ha
    rcases ha with rfl | rfl | rfl | rfl <;> rw [DQuat.isUnit_iff] <;> norm_num [Quat.dot]
  refine ⟨List.replicate 4 1, [⟨⟨0, 0, 0, 1⟩, ⟨0, 0, 0, 0⟩⟩, ⟨⟨0, 0, 0.6, 0.8⟩, ⟨0, 0, 0, 0⟩⟩,
    ⟨⟨0, 0, 0.8, 0.6⟩, ⟨0, 0, 0, 0⟩⟩, ⟨⟨0, 0, 1, 0⟩, ⟨0, 0, 0, 0⟩⟩], ub, uw, rfl, rfl, ?_⟩
  intro svd rng hrng
  refine C40_never_ends_refuted svd rng _ _ _ _ _ rfl rfl (by norm_num) (by norm_num) (by norm_num)
    (by norm_num) rfl rfl (by norm_num) ub uw hrng ?_
  intro i j b c v w hij hb hc hv hw
  obtain rfl := List.eq_of_mem_replicate (List.mem_of_getElem? hb)
  obtain rfl := List.eq_of_mem_replicate (List.mem_of_getElem? hc)
  have hi : i < 4 := (List.getElem?_eq_some_iff.mp hv).1
  have hj : j < 4 := (List.getElem?_eq_some_iff.mp hw).1
  have key : |(v.conj * w).rot.w| ≤ 0.96 := by
    interval_cases i <;> interval_cases j <;>
      first
      | exact absurd rfl hij
      | (simp only [List.getElem?_cons_zero, List.getElem?_cons_succ, Option.some.injEq] at hv hw
         subst hv; subst hw
         simp only [DQuat.mul_rot, DQuat.conj_rot, Quat.mul_w, Quat.conj_x, Quat.conj_y, Quat.conj_z,
           Quat.conj_w]
         rw [abs_le]
         constructor <;> norm_num)
  have h1 : |((1 : DQuat).conj * 1).rot.w| = 1 := by simp
  rw [h1]
  unfold npIsclose
  rw [abs_one, not_le]
  have := neg_le_abs (|(v.conj * w).rot.w| - 1)
  norm_num at *
  linarith

/-- C41: for an outlier probability strictly between 0 and 1, a confidence below 1 and a positive sample
size, the abort rule can always be evaluated, and it stops the run after `k` full iterations exactly if the
probability `(1 - (1 - outlier)^s)^k` that all of the `k` samples contained an outlier has fallen below
`1 - confidence`. -/
theorem C41_confidence (cfg : HandEyeConfig) (k : ℕ) (he : cfg.enable_exhaustive_search = false)
    (ha : cfg.ransac_enable_early_abort = true) (ho : 0 < cfg.ransac_outlier_probability)
    (ho' : cfg.ransac_outlier_probability < 1)
    (hp' : cfg.ransac_success_probability_threshold < 1) (hs : 0 < cfg.ransac_sample_size) :
    ∃ b, earlyAbort cfg k = .ok b ∧
      (b = true ↔ (1 - (1 - cfg.ransac_outlier_probability) ^ cfg.ransac_sample_size) ^ k
        < 1 - cfg.ransac_success_probability_threshold) := by
  unfold earlyAbort
  rw [if_pos ⟨he, ha⟩]
  dsimp only
  have hw1 : (1 - cfg.ransac_outlier_probability) ^ cfg.ransac_sample_size < 1 :=
    pow_lt_one₀ (by linarith) (by linarith) (by omega)
  have hw0 : 0 < (1 - cfg.ransac_outlier_probability) ^ cfg.ransac_sample_size :=
    pow_pos (by linarith) _
  generalize (1 - cfg.ransac_outlier_probability) ^ cfg.ransac_sample_size = w at *
  generalize cfg.ransac_success_probability_threshold = p at *
  have hlog : Real.log (1 - w) < 0 := Real.log_neg (by linarith) (by linarith)
  have e1 : mathLog (1 - p) = .ok (Real.log (1 - p)) := by unfold mathLog; rw [if_pos (by linarith)]
  have e2 : mathLog (1 - w) = .ok (Real.log (1 - w)) := by unfold mathLog; rw [if_pos (by linarith)]
  have e3 : floatDiv (Real.log (1 - p)) (Real.log (1 - w)) = .ok (Real.log (1 - p) / Real.log (1 - w)) := by
    unfold floatDiv; rw [if_neg hlog.ne]
  refine ⟨decide ((k : ℝ) > Real.log (1 - p) / Real.log (1 - w)), ?_, ?_⟩
  · rw [e1, Py.ok_bind, e2, Py.ok_bind, e3, Py.ok_bind]
    rfl
  · rw [decide_eq_true_iff, gt_iff_lt, div_lt_iff_of_neg hlog, ← Real.log_pow,
      Real.log_lt_log_iff (pow_pos (by linarith) _) (by linarith)]

/-- C41, with a run: if a run without exhaustive search stops before its budget is used up, the
probability that all of its evaluated samples contained an outlier is below `1 - confidence`. -/
theorem C41_early_stop (svd : Svd) (rng : ℕ → List ℕ) (cfg : HandEyeConfig) (bs ws : List DQuat)
    (fuel : ℕ) (r : CalibrationResult) (h : ransac svd rng cfg bs ws fuel = .ok (some r))
    (he : cfg.enable_exhaustive_search = false) (ho : 0 < cfg.ransac_outlier_probability)
    (ho' : cfg.ransac_outlier_probability < 1)
    (hp' : cfg.ransac_success_probability_threshold < 1) (hs : 0 < cfg.ransac_sample_size) :
    ∃ bf wf samples outs, filteredPoses cfg bs ws = .ok (bf, wf) ∧
      Spec.Course cfg wf.length (drawSample cfg rng wf.length) (evaluateSample svd cfg bs ws bf wf)
        (earlyAbort cfg) samples outs ∧
      (cfg.ransac_max_number_iterations ≤ Spec.evaluated outs ∨
        (1 - (1 - cfg.ransac_outlier_probability) ^ cfg.ransac_sample_size) ^ Spec.evaluated outs
          < 1 - cfg.ransac_success_probability_threshold) := by
  obtain ⟨-, -, bf, wf, st, h1, hfin, h3⟩ := ransac_some h
  obtain ⟨samples, outs, hcourse, -, i5⟩ := finished_course hfin
  refine ⟨bf, wf, samples, outs, h1, hcourse, ?_⟩
  rcases hcourse.stops with hx | ⟨hab, -⟩
  · left
    unfold Spec.Exhausted at hx
    rwa [if_neg (by rw [he]; simp)] at hx
  · right
    by_cases ha : cfg.ransac_enable_early_abort = true
    · obtain ⟨b, hb, hiff⟩ := C41_confidence cfg (Spec.evaluated outs) he ha ho ho' hp' hs
      rw [hb] at hab
      exact hiff.mp (Except.ok.inj hab)
    · unfold earlyAbort at hab
      rw [if_neg (by rintro ⟨_, h⟩; exact ha h)] at hab
      cases hab

/-- With the default values the 35th evaluated sample would trigger the abort (the budget of 20 is used up
before). -/
example : earlyAbort {} 35 = .ok true ∧ earlyAbort {} 34 = .ok false := by
  obtain ⟨b, hb, h⟩ := C41_confidence {} 35 rfl rfl (by norm_num) (by norm_num) (by norm_num)
    (by norm_num)
  obtain ⟨b', hb', h'⟩ := C41_confidence {} 34 rfl rfl (by norm_num) (by norm_num) (by norm_num)
    (by norm_num)
  rw [hb, hb', h.mpr (by norm_num)]
  refine ⟨rfl, ?_⟩
  cases b' with
  | false => rfl
  | true => exact absurd (h'.mp rfl) (by norm_num)

end HandEye
