import Verif.Props.Ransac12
import Verif.Props.Ransac9

/-! # Property C103: with which probability RANSAC with the classification by pose errors has found the true mounting -/

namespace HandEye

/-- C103, the chance of success: if q is the share of samples of good measurements that turn about two axes, RANSAC with the classification by pose errors has
returned the true mounting within N samples unless fewer than `ransac_max_number_iterations` of them are of this kind; if there is such a sample, the chance
tends to one, and the search is expected to end after at most `ransac_max_number_iterations` / q samples. -/
theorem C103_chance (svd : Svd) (hsvd : ∀ T s V, svd T = .ok (s, V) → Spec.IsSVD T s V)
    (cfg : HandEyeConfig) (hmode : cfg.ransac_inlier_classification = .rmseThreshold)
    (href : cfg.ransac_model_refinement = true) (tol : ℝ)
    (ht : cfg.ransac_sample_rejection_scalar_part_equality_tolerance = tol) (htol : 0 ≤ tol)
    (hsize : 2 ≤ cfg.ransac_sample_size) (hot : 0 < cfg.ransac_orientation_error_threshold_deg)
    (hpt : 0 < cfg.ransac_position_error_threshold_m)
    (hex : cfg.enable_exhaustive_search = false) (hpre : cfg.prefilter_poses_enabled = false)
    (hmax : 0 < cfg.ransac_max_number_iterations)
    (ho : 0 < cfg.ransac_outlier_probability) (ho' : cfg.ransac_outlier_probability < 1)
    (hp' : cfg.ransac_success_probability_threshold < 1)
    (g X : DQuat) (hg : Spec.IsUnit g) (hX : Spec.IsUnit X) (hXw : X.rot.w ≠ 0)
    (bs ws : List DQuat) (hl : ws.length = bs.length) (hb : ∀ a ∈ bs, Spec.IsUnit a) (hw : ∀ a ∈ ws, Spec.IsUnit a)
    (hvis : ∀ p ∈ bs.zip ws, Spec.Fits g X p → ∀ q ∈ bs.zip ws, Spec.Corresponds tol p q → Spec.Fits g X q)
    (hfew : ∀ p ∈ bs.zip ws, ¬ Spec.Fits g X p → Spec.number (Spec.Corresponds tol p) (bs.zip ws) < cfg.min_num_inliers)
    (h2 : ∀ S, List.Subperm S (bs.zip ws) → (∀ q ∈ S, Spec.Fits g X q) → cfg.min_num_inliers ≤ S.length →
      Spec.TurnsAboutTwoAxes (S.map Prod.fst))
    (hmin : cfg.min_num_inliers ≤ Spec.number (Spec.Fits g X) (bs.zip ws))
    (hclear : ∀ p ∈ bs.zip ws, Spec.Fits g X p → ∀ q ∈ bs.zip ws, ¬ Spec.Fits g X q →
      Spec.ClearlyWrong cfg.ransac_orientation_error_threshold_deg cfg.ransac_position_error_threshold_m X p q)
    (hn : cfg.ransac_sample_size < ws.length)
    (hsolve : ∀ B W, Spec.Exact B W X → (∀ b ∈ B, Spec.IsUnit b) → Spec.TwoAxes B → B.head? = some ⟨⟨0, 0, 0, 1⟩, ⟨0, 0, 0, 0⟩⟩ →
      ∃ r, computeHandEyeCalibration svd B W cfg.hand_eye_calibration_scalar_part_equality_tolerance = .ok r)
    (q : ℝ) (hq : q = Spec.chance fun d : Spec.Draw ws.length cfg.ransac_sample_size => Spec.TellingSample g X bs ws (Spec.numbers d)) :
    (∀ N, 1 - ∑ j ∈ Finset.range cfg.ransac_max_number_iterations, N.choose j * q ^ j * (1 - q) ^ (N - j) ≤
      Spec.chance (fun ω : Fin N → Spec.Draw ws.length cfg.ransac_sample_size => ∃ r dq, ransac svd (Spec.calls ω) cfg bs ws N = .ok (some r) ∧
        r.success = true ∧ r.dq_H_E = some dq ∧ Spec.SameUpToSign dq X)) ∧
    ((∃ s, Spec.IsSample ws.length cfg.ransac_sample_size s ∧ Spec.TellingSample g X bs ws s) →
      Filter.Tendsto (fun N => Spec.chance fun ω : Fin N → Spec.Draw ws.length cfg.ransac_sample_size => ∃ r dq,
        ransac svd (Spec.calls ω) cfg bs ws N = .ok (some r) ∧ r.success = true ∧ r.dq_H_E = some dq ∧ Spec.SameUpToSign dq X) Filter.atTop (nhds 1) ∧
      Summable (fun N => Spec.chance fun ω : Fin N → Spec.Draw ws.length cfg.ransac_sample_size => ransac svd (Spec.calls ω) cfg bs ws N = .ok none) ∧
      ∑' N, Spec.chance (fun ω : Fin N → Spec.Draw ws.length cfg.ransac_sample_size => ransac svd (Spec.calls ω) cfg bs ws N = .ok none) ≤
        cfg.ransac_max_number_iterations / q) := by
  classical
  have := draw_nonempty hn.le
  have h2' : Spec.TurnsAboutTwoAxes (Spec.handsOf (Spec.Fits g X) (bs.zip ws)) := by
    refine h2 _ List.filter_sublist.subperm (fun q hq => of_decide_eq_true (List.mem_filter.mp hq).2) ?_
    rw [← List.countP_eq_length_filter]
    exact hmin
  have hrun := fun N (ω : Fin N → Spec.Draw ws.length cfg.ransac_sample_size) =>
    C103_random svd hsvd (Spec.calls ω) cfg hmode href tol ht htol hsize hot hpt hex hpre hmax ho ho' hp' g X hg hX hXw bs ws hl hb hw h2' hmin hclear hn hsolve
      (calls_sample hn.le ω) N
  simp only [calls_count] at hrun
  have hfound : ∀ N (ω : Fin N → Spec.Draw ws.length cfg.ransac_sample_size),
      ¬ (Finset.univ.filter fun i => Spec.TellingSample g X bs ws (Spec.numbers (ω i))).card < cfg.ransac_max_number_iterations →
      ∃ r dq, ransac svd (Spec.calls ω) cfg bs ws N = .ok (some r) ∧ r.success = true ∧ r.dq_H_E = some dq ∧ Spec.SameUpToSign dq X := by
    intro N ω h
    obtain ⟨r, hr⟩ := (hrun N ω).1 (not_lt.mp h)
    have hs := (hrun N ω).2.2 r hr
    obtain ⟨dq, d1, d2, -⟩ := C103_outliers svd hsvd _ cfg hmode href tol ht htol g X hg hX hXw bs ws hb hw hvis hfew h2 N r hr hs
    exact ⟨r, dq, hr, hs, d1, d2⟩
  have hcount := fun N => chance_count_lt N (fun d : Spec.Draw ws.length cfg.ransac_sample_size => Spec.TellingSample g X bs ws (Spec.numbers d))
    cfg.ransac_max_number_iterations
  rw [← hq] at hcount
  have hlow : ∀ N, 1 - fewer q N cfg.ransac_max_number_iterations ≤ Spec.chance (fun ω : Fin N → Spec.Draw ws.length cfg.ransac_sample_size =>
      ∃ r dq, ransac svd (Spec.calls ω) cfg bs ws N = .ok (some r) ∧ r.success = true ∧ r.dq_H_E = some dq ∧ Spec.SameUpToSign dq X) := by
    intro N
    unfold fewer
    rw [← hcount, ← chance_not]
    exact chance_mono (hfound N)
  refine ⟨hlow, ?_⟩
  rintro ⟨s, hs, htell⟩
  obtain ⟨d, rfl⟩ := sample_numbers hs
  have hq0 : 0 < q := hq ▸ chance_pos d htell
  have hq1 : q ≤ 1 := hq ▸ chance_le_one _
  have hsum := fewer_hasSum hq0 hq1 cfg.ransac_max_number_iterations
  have hup : ∀ N, Spec.chance (fun ω : Fin N → Spec.Draw ws.length cfg.ransac_sample_size => ransac svd (Spec.calls ω) cfg bs ws N = .ok none) ≤
      fewer q N cfg.ransac_max_number_iterations := by
    intro N
    unfold fewer
    rw [← hcount]
    refine chance_mono fun ω h => ?_
    by_contra hc
    obtain ⟨r, _, hr, -⟩ := hfound N ω hc
    rw [h] at hr
    cases hr
  have hsm := Summable.of_nonneg_of_le (fun N => chance_nonneg _) hup hsum.summable
  refine ⟨?_, hsm, ?_⟩
  · refine tendsto_of_tendsto_of_tendsto_of_le_of_le ?_ tendsto_const_nhds hlow fun N => chance_le_one _
    have := (hsum.summable.tendsto_atTop_zero).const_sub 1
    simpa using this
  · rw [← hsum.tsum_eq]
    exact hsm.tsum_le_tsum hup hsum.summable

end HandEye
