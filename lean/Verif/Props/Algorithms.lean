import Verif.Spec.Algorithms
import Verif.Props.Ransac2

/-! # Property C105: the algorithms of the experiments -/

namespace HandEye

/-- **C105**: every configuration of the experiments is that of one algorithm, with the short name of the plots, the settings of its
family and the settings that all algorithms share. -/
theorem C105_configurations : ∀ c ∈ getAllConfigs, ∃ f filter optimize,
    methodName c.algorithm_name = .ok (Spec.shortName f filter optimize) ∧ Spec.IsOf f c.config ∧ Spec.SharedSettings c.config ∧
    c.config.prefilter_poses_enabled = filter ∧ c.enable_optimization = optimize ∧ c.optimization_only = false := by
  have shared : ∀ c ∈ getAllConfigs, Spec.SharedSettings c.config := by
    intro c hc
    simp only [getAllConfigs, List.mem_cons, List.not_mem_nil, or_false] at hc
    rcases hc with rfl | rfl | rfl | rfl | rfl | rfl | rfl | rfl | rfl | rfl | rfl | rfl | rfl | rfl | rfl | rfl <;>
      constructor <;> rfl
  have b : ∀ p, Spec.IsOf .baseline (getBaselineConfig p).config := fun p =>
    ⟨by simp [getBaselineConfig], by simp [getBaselineConfig], by simp, by simp⟩
  have rc : ∀ p, Spec.IsOf .classicRansac (getRansacClassicConfig p).config := fun p =>
    ⟨by simp [getRansacClassicConfig, getBasicConfig], by simp [getRansacClassicConfig], fun _ => ⟨rfl, rfl⟩, by simp⟩
  have rs : ∀ p, Spec.IsOf .scalarRansac (getRansacScalarPartInliersConfig p).config := fun p =>
    ⟨by simp [getRansacScalarPartInliersConfig, getBasicConfig], by simp [getRansacScalarPartInliersConfig], by simp, fun _ => ⟨rfl, rfl⟩⟩
  have ec : Spec.IsOf .classicSearch getExhaustiveSearchPoseInliersConfig.config :=
    ⟨by simp [getExhaustiveSearchPoseInliersConfig, getBasicConfig], by simp [getExhaustiveSearchPoseInliersConfig], fun _ => ⟨rfl, rfl⟩, by simp⟩
  have es : Spec.IsOf .scalarSearch getExhaustiveSearchScalarPartInliersConfig.config :=
    ⟨by simp [getExhaustiveSearchScalarPartInliersConfig, getBasicConfig], by simp [getExhaustiveSearchScalarPartInliersConfig], by simp,
      fun _ => ⟨rfl, rfl⟩⟩
  intro c hc
  have hs := shared c hc
  simp only [getAllConfigs, List.mem_cons, List.not_mem_nil, or_false] at hc
  rcases hc with rfl | rfl | rfl | rfl | rfl | rfl | rfl | rfl | rfl | rfl | rfl | rfl | rfl | rfl | rfl | rfl
  · exact ⟨.baseline, true, true, rfl, b _, hs, rfl, rfl, rfl⟩
  · exact ⟨.baseline, false, true, rfl, b _, hs, rfl, rfl, rfl⟩
  · exact ⟨.baseline, true, false, rfl, b _, hs, rfl, rfl, rfl⟩
  · exact ⟨.baseline, false, false, rfl, b _, hs, rfl, rfl, rfl⟩
  · exact ⟨.classicRansac, true, false, rfl, rc _, hs, rfl, rfl, rfl⟩
  · exact ⟨.classicRansac, false, false, rfl, rc _, hs, rfl, rfl, rfl⟩
  · exact ⟨.classicRansac, true, true, rfl, rc _, hs, rfl, rfl, rfl⟩
  · exact ⟨.classicRansac, false, true, rfl, rc _, hs, rfl, rfl, rfl⟩
  · exact ⟨.scalarRansac, true, false, rfl, rs _, hs, rfl, rfl, rfl⟩
  · exact ⟨.scalarRansac, false, false, rfl, rs _, hs, rfl, rfl, rfl⟩
  · exact ⟨.scalarRansac, true, true, rfl, rs _, hs, rfl, rfl, rfl⟩
  · exact ⟨.scalarRansac, false, true, rfl, rs _, hs, rfl, rfl, rfl⟩
  · exact ⟨.classicSearch, true, false, rfl, ec, hs, rfl, rfl, rfl⟩
  · exact ⟨.classicSearch, true, true, rfl, ec, hs, rfl, rfl, rfl⟩
  · exact ⟨.scalarSearch, true, false, rfl, es, hs, rfl, rfl, rfl⟩
  · exact ⟨.scalarSearch, true, true, rfl, es, hs, rfl, rfl, rfl⟩

/-- **C105**: every algorithm is among them; only exhaustive searches without prefilter are not. -/
theorem C105_complete (f : Spec.Family) (filter optimize : Bool) :
    (∃ c ∈ getAllConfigs, methodName c.algorithm_name = .ok (Spec.shortName f filter optimize)) ↔
      ¬ ((f = .classicSearch ∨ f = .scalarSearch) ∧ filter = false) := by
  have hm : getAllConfigs.map (fun c => methodName c.algorithm_name) =
      [.ok "PF_B_O", .ok "B_O", .ok "PF_B", .ok "B", .ok "PF_RC", .ok "RC", .ok "PF_RC_O", .ok "RC_O", .ok "PF_RS", .ok "RS", .ok "PF_RS_O", .ok "RS_O", .ok "PF_EC", .ok "PF_EC_O", .ok "PF_ES", .ok "PF_ES_O"] := rfl
  have : (∃ c ∈ getAllConfigs, methodName c.algorithm_name = .ok (Spec.shortName f filter optimize)) ↔
      Except.ok (Spec.shortName f filter optimize) ∈ getAllConfigs.map (fun c => methodName c.algorithm_name) := by
    rw [List.mem_map]
  rw [this, hm]
  simp only [List.mem_cons, List.not_mem_nil, or_false, Except.ok.injEq]
  cases f <;> cases filter <;> cases optimize <;> decide

/-- The prefiltered classic exhaustive search with optimization is compared, the one without prefilter is not. -/
example : (∃ c ∈ getAllConfigs, methodName c.algorithm_name = .ok "PF_EC_O") ∧
    ¬ ∃ c ∈ getAllConfigs, methodName c.algorithm_name = .ok "EC_O" :=
  ⟨(C105_complete .classicSearch true true).mpr (by simp), fun h => (C105_complete .classicSearch false true).mp h (by simp)⟩

/-- **C105**: the algorithm of the optimization experiments is the prefiltered exhaustive search by scalar parts, and only optimizes. -/
theorem C105_spoiled : Spec.IsOf .scalarSearch spoiledConfig.config ∧ Spec.SharedSettings spoiledConfig.config ∧
    spoiledConfig.config.prefilter_poses_enabled = true ∧ spoiledConfig.enable_optimization = true ∧
    spoiledConfig.optimization_only = true ∧ spoiledConfig ∉ getAllConfigs := by
  refine ⟨⟨by simp [spoiledConfig, getExhaustiveSearchScalarPartInliersConfig, getBasicConfig],
    by simp [spoiledConfig, getExhaustiveSearchScalarPartInliersConfig], by simp, fun _ => ⟨rfl, rfl⟩⟩,
    by constructor <;> rfl, rfl, rfl, rfl, fun h => ?_⟩
  obtain ⟨-, -, -, -, -, -, -, -, h⟩ := C105_configurations _ h
  simp [spoiledConfig] at h

/-- The number of evaluated samples grows by at most one per sample. -/
theorem evaluated_take (outs : List SampleOutcome) (n : ℕ) (hn : 0 < n) (h : n ≤ Spec.evaluated outs) :
    ∃ j c, outs[j]? = some (.candidate c) ∧ Spec.evaluated (outs.take (j + 1)) = n := by
  induction outs generalizing n with
  | nil => simp [Spec.evaluated] at h; omega
  | cons o outs ih =>
    have step : ∀ l : List SampleOutcome, Spec.evaluated (o :: l) = Spec.evaluated [o] + Spec.evaluated l := by
      intro l; simp only [Spec.evaluated, List.filter_cons, List.filter_nil]; split_ifs <;> simp; omega
    rw [step] at h
    by_cases h1 : Spec.evaluated [o] = n
    · have : ∃ c, o = .candidate c := by
        cases o with
        | candidate c => exact ⟨c, rfl⟩
        | _ => simp [Spec.evaluated] at h1; omega
      obtain ⟨c, rfl⟩ := this
      exact ⟨0, c, rfl, by simpa using h1⟩
    · have hle : Spec.evaluated [o] ≤ 1 := by
        simp only [Spec.evaluated, List.filter_cons, List.filter_nil]; split_ifs <;> simp
      obtain ⟨j, c, hj, e⟩ := ih (n - Spec.evaluated [o]) (by omega) (by omega)
      exact ⟨j + 1, c, hj, by rw [List.take_succ_cons, step, e]; omega⟩

/-- A run evaluates as many samples as its abort rule asks for, or as its budget allows. -/
theorem course_evaluated {cfg : HandEyeConfig} {n : ℕ} {draw : ℕ → Py (List ℕ)} {eval : List ℕ → Py SampleOutcome} {abort : ℕ → Py Bool}
    {samples : List (List ℕ)} {outs : List SampleOutcome} (h : Spec.Course cfg n draw eval abort samples outs)
    (he : cfg.enable_exhaustive_search = false) {k : ℕ} (hk : 0 < k) (hkm : k ≤ cfg.ransac_max_number_iterations)
    (hbefore : ∀ j < k, abort j = .ok false) (hat : abort k = .ok true ∨ k = cfg.ransac_max_number_iterations) :
    Spec.evaluated outs = k := by
  apply le_antisymm
  · by_contra hc
    rw [not_le] at hc
    obtain ⟨j, c, hj, e⟩ := evaluated_take outs k hk hc.le
    have hl : j + 1 < outs.length := by
      have := (List.getElem?_eq_some_iff.mp hj).1
      rcases Nat.lt_or_ge (j + 1) outs.length with h | h
      · exact h
      · rw [List.take_of_length_le h] at e; omega
    rcases hat with hat | hat
    · have := h.no_abort j c hj hl
      rw [e, hat] at this
      cases this
    · have := h.goes_on (j + 1) hl
      unfold Spec.Exhausted at this
      rw [if_neg (by rw [he]; simp), e] at this
      exact this hat.symm.le
  · rcases h.stops with hx | ⟨hx, -⟩
    · unfold Spec.Exhausted at hx
      rw [if_neg (by rw [he]; simp)] at hx
      omega
    · by_contra hc
      rw [not_le] at hc
      rw [hbefore _ hc] at hx
      cases hx

/-- **C105**: a run of a RANSAC with inliers by scalar parts evaluates exactly seven samples, after which the probability that one of
them is not an outlier, with the configured share of outliers, is above the configured confidence, and not before. -/
theorem C105_scalar_samples (c : ExperimentConfig) (hc : c ∈ getAllConfigs) (hf : Spec.IsOf .scalarRansac c.config) (svd : Svd)
    (rng : ℕ → List ℕ) (bs ws : List DQuat) (fuel : ℕ) (r : CalibrationResult)
    (h : ransac svd rng c.config bs ws fuel = .ok (some r)) :
    ∃ bf wf samples outs, filteredPoses c.config bs ws = .ok (bf, wf) ∧
      Spec.Course c.config wf.length (drawSample c.config rng wf.length) (evaluateSample svd c.config bs ws bf wf)
        (earlyAbort c.config) samples outs ∧ Spec.evaluated outs = 7 ∧
      (1 - (1 - c.config.ransac_outlier_probability) ^ c.config.ransac_sample_size) ^ 7 < 1 - c.config.ransac_success_probability_threshold ∧
      1 - c.config.ransac_success_probability_threshold < (1 - (1 - c.config.ransac_outlier_probability) ^ c.config.ransac_sample_size) ^ 6 := by
  obtain ⟨-, -, -, -, -, hs, -⟩ := C105_configurations c hc
  have he : c.config.enable_exhaustive_search = false := by
    rw [Bool.eq_false_iff, ne_eq, hf.exhaustive]; simp
  have hk := (hf.scalar (Or.inl rfl)).2
  have habort : ∀ k, ∃ b, earlyAbort c.config k = .ok b ∧ (b = true ↔ (1 / 2 : ℝ) ^ k < 1 / 100) := by
    intro k
    obtain ⟨b, hb, hiff⟩ := C41_confidence c.config k he hs.abort (by rw [hs.outliers]; norm_num) (by rw [hs.outliers]; norm_num)
      (by rw [hs.confidence]; norm_num) (by rw [hk]; norm_num)
    refine ⟨b, hb, hiff.trans ?_⟩
    rw [hs.outliers, hs.confidence, hk]
    norm_num
  obtain ⟨bf, wf, samples, outs, h1, hcourse, -⟩ := C41_early_stop svd rng c.config bs ws fuel r h he (by rw [hs.outliers]; norm_num)
    (by rw [hs.outliers]; norm_num) (by rw [hs.confidence]; norm_num) (by rw [hk]; norm_num)
  refine ⟨bf, wf, samples, outs, h1, hcourse, course_evaluated hcourse he (by norm_num) (by rw [hs.iterations]; norm_num) ?_ (Or.inl ?_), ?_, ?_⟩
  · intro j hj
    obtain ⟨b, hb, hiff⟩ := habort j
    have : ¬ b = true := by
      rw [hiff, not_lt]
      have : ((1 : ℝ) / 2) ^ 6 ≤ (1 / 2) ^ j := pow_le_pow_of_le_one (by norm_num) (by norm_num) (by omega)
      linarith
    rw [hb, Bool.eq_false_iff.mpr this]
  · obtain ⟨b, hb, hiff⟩ := habort 7
    rw [hb, hiff.mpr (by norm_num)]
  · rw [hs.outliers, hs.confidence, hk]; norm_num
  · rw [hs.outliers, hs.confidence, hk]; norm_num

/-- **C105** fails for the RANSAC with inliers by pose errors: whatever happens, its runs evaluate exactly twenty samples, which leaves a
probability of more than six percent that all of them contain an outlier, instead of one percent; it would take 35 samples, so that the
rule for an early abort never applies. -/
theorem C105_confidence_refuted (c : ExperimentConfig) (hc : c ∈ getAllConfigs) (hf : Spec.IsOf .classicRansac c.config) (svd : Svd)
    (rng : ℕ → List ℕ) (bs ws : List DQuat) (fuel : ℕ) (r : CalibrationResult)
    (h : ransac svd rng c.config bs ws fuel = .ok (some r)) :
    ∃ bf wf samples outs, filteredPoses c.config bs ws = .ok (bf, wf) ∧
      Spec.Course c.config wf.length (drawSample c.config rng wf.length) (evaluateSample svd c.config bs ws bf wf)
        (earlyAbort c.config) samples outs ∧ Spec.evaluated outs = 20 ∧
      0.06 < (1 - (1 - c.config.ransac_outlier_probability) ^ c.config.ransac_sample_size) ^ Spec.evaluated outs ∧
      1 - c.config.ransac_success_probability_threshold = 0.01 ∧ (∀ k ≤ 34, earlyAbort c.config k = .ok false) ∧
      earlyAbort c.config 35 = .ok true := by
  obtain ⟨-, -, -, -, -, hs, -⟩ := C105_configurations c hc
  have he : c.config.enable_exhaustive_search = false := by
    rw [Bool.eq_false_iff, ne_eq, hf.exhaustive]; simp
  have hk := (hf.classic (Or.inl rfl)).2
  have habort : ∀ k, ∃ b, earlyAbort c.config k = .ok b ∧ (b = true ↔ (7 / 8 : ℝ) ^ k < 1 / 100) := by
    intro k
    obtain ⟨b, hb, hiff⟩ := C41_confidence c.config k he hs.abort (by rw [hs.outliers]; norm_num) (by rw [hs.outliers]; norm_num)
      (by rw [hs.confidence]; norm_num) (by rw [hk]; norm_num)
    refine ⟨b, hb, hiff.trans ?_⟩
    rw [hs.outliers, hs.confidence, hk]
    norm_num
  have hbefore : ∀ k ≤ 34, earlyAbort c.config k = .ok false := by
    intro k hk34
    obtain ⟨b, hb, hiff⟩ := habort k
    have : ¬ b = true := by
      rw [hiff, not_lt]
      have : ((7 : ℝ) / 8) ^ 34 ≤ (7 / 8) ^ k := pow_le_pow_of_le_one (by norm_num) (by norm_num) (by omega)
      have : (1 : ℝ) / 100 ≤ (7 / 8) ^ 34 := by norm_num
      linarith
    rw [hb, Bool.eq_false_iff.mpr this]
  obtain ⟨bf, wf, samples, outs, h1, hcourse, -⟩ := C41_early_stop svd rng c.config bs ws fuel r h he (by rw [hs.outliers]; norm_num)
    (by rw [hs.outliers]; norm_num) (by rw [hs.confidence]; norm_num) (by rw [hk]; norm_num)
  have h20 : Spec.evaluated outs = 20 := course_evaluated hcourse he (by norm_num) (by rw [hs.iterations])
    (fun j hj => hbefore j (by omega)) (Or.inr hs.iterations.symm)
  refine ⟨bf, wf, samples, outs, h1, hcourse, h20, ?_, ?_, hbefore, ?_⟩
  · rw [h20, hs.outliers, hk]; norm_num
  · rw [hs.confidence]; norm_num
  · obtain ⟨b, hb, hiff⟩ := habort 35
    rw [hb, hiff.mpr (by norm_num)]

end HandEye
