import Verif.Props.Ransac12
import Verif.Props.Ransac11Example

/-! # Property C108, examples -/

namespace HandEye

/-- With the default configuration, the search ends after 20 evaluated samples: the confidence of 99 % would only be reached after 35. -/
theorem C108_default (cfg : HandEyeConfig) (h1 : cfg.ransac_max_number_iterations = 20) (h2 : cfg.ransac_outlier_probability = 0.5)
    (h3 : cfg.ransac_sample_size = 3) (h4 : cfg.ransac_success_probability_threshold = 0.99) : Spec.EndsAfter cfg 20 := by
  unfold Spec.EndsAfter
  rw [h1, h2, h3, h4]
  refine ⟨⟨by norm_num, Or.inl le_rfl⟩, ?_⟩
  rintro j ⟨-, h | ⟨-, h⟩⟩
  · exact h
  · by_contra hc
    have hj : j ≤ 20 := (not_le.mp hc).le
    have : ((7 : ℝ) / 8) ^ 20 ≤ (7 / 8) ^ j := pow_le_pow_of_le_one (by norm_num) (by norm_num) hj
    norm_num at h this
    linarith

example : Spec.EndsAfter {} 20 := C108_default {} rfl rfl rfl rfl

/-- If the maximum number of iterations is 100, the search ends after 35 evaluated samples. -/
theorem ends_35 : Spec.EndsAfter { ransac_max_number_iterations := 100 } 35 := by
  refine ⟨⟨by norm_num, Or.inr ⟨rfl, by norm_num⟩⟩, ?_⟩
  rintro j ⟨-, h | ⟨-, h⟩⟩
  · exact le_trans (by norm_num) h
  · by_contra hc
    have hj : j ≤ 34 := by omega
    have : ((7 : ℝ) / 8) ^ 34 ≤ (7 / 8) ^ j := pow_le_pow_of_le_one (by norm_num) (by norm_num) hj
    norm_num at h this
    linarith

/-- Ten outliers among 20 measurements, as configured: the chance that none of 35 samples is free of outliers is more than two percent, not less than one. -/
example : Spec.EndsAfter { ransac_max_number_iterations := 100 } 35 ∧
    ∀ A : Finset (Fin 20), A.card = 10 → 0.02 < Spec.chance fun ω : Fin 35 → Spec.Draw 20 3 => ∀ i, ∃ c, ω i c ∉ A := by
  refine ⟨ends_35, fun A hA => ?_⟩
  classical
  have := draw_nonempty (show 3 ≤ 20 by norm_num)
  have h := chance_none 35 (fun d : Spec.Draw 20 3 => ∀ i, d i ∈ A) Finset.univ
  rw [chance_within, hA, Finset.card_univ, Fintype.card_fin] at h
  have e : Spec.chance (fun ω : Fin 35 → Spec.Draw 20 3 => ∀ i, ∃ c, ω i c ∉ A) = (1 - ((10 : ℕ).descFactorial 3 : ℝ) / (20 : ℕ).descFactorial 3) ^ 35 := by
    rw [← h]
    exact chance_congr fun ω => by simp
  rw [e]
  norm_num [Nat.descFactorial]

/-- The general statement for these numbers. -/
example (A : Finset (Fin 20)) (hA : A.card = 10) :
    (1 - (1 - ((20 - 10 : ℕ) : ℝ) / (20 : ℕ)) ^ 3) ^ 35 < Spec.chance fun ω : Fin 35 → Spec.Draw 20 3 => ∀ i, ∃ c, ω i c ∉ A :=
  C108_confidence_refuted 20 10 3 35 (by norm_num) (by norm_num) (by norm_num) (by norm_num) (by norm_num) A hA

theorem ends_1 : Spec.EndsAfter { min_num_inliers := 4, prefilter_poses_enabled := false, ransac_max_number_iterations := 1 } 1 :=
  ⟨⟨by norm_num, Or.inl le_rfl⟩, fun _ h => h.1⟩

theorem outlier_free (s : List ℕ) (hs : ∀ i ∈ s, i < 4) : Spec.AllFit 1 sampleX outlierHands outlierEyes s := by
  intro i hi q hq
  have hi' : i < (bodyPoses.map fun b => (b, 1 * b * sampleX)).length := by
    have : bodyPoses.length = 4 := rfl
    rw [List.length_map, this]
    exact hs i hi
  rw [outlier_zip, List.getElem?_append_left hi'] at hq
  obtain ⟨b, -, rfl⟩ := List.mem_map.mp (List.mem_of_getElem? hq)
  exact outlier_fits b

/-- Five measurements with one outlier, three per sample and one iteration: the chance that the true mounting has been found within N samples is 1 - (3/5)^N.
With 20 iterations, it tends to one, and 50 samples are expected to be drawn. -/
example : ∃ svd : Svd, (∀ T s V, svd T = .ok (s, V) → Spec.IsSVD T s V) ∧
    (∀ N, Spec.chance (fun ω : Fin N → Spec.Draw 5 3 => ∃ r dq,
        ransac svd (Spec.calls ω) { min_num_inliers := 4, prefilter_poses_enabled := false, ransac_max_number_iterations := 1 } outlierHands outlierEyes N =
          .ok (some r) ∧ r.success = true ∧ r.dq_H_E = some dq ∧ Spec.SameUpToSign dq sampleX) = 1 - (3 / 5) ^ N) ∧
    Filter.Tendsto (fun N => Spec.chance fun ω : Fin N → Spec.Draw 5 3 => ∃ r,
        ransac svd (Spec.calls ω) { min_num_inliers := 4, prefilter_poses_enabled := false } outlierHands outlierEyes N = .ok (some r) ∧ r.success = true)
      Filter.atTop (nhds 1) ∧
    HasSum (fun N => Spec.chance fun ω : Fin N → Spec.Draw 5 3 =>
      ransac svd (Spec.calls ω) { min_num_inliers := 4, prefilter_poses_enabled := false } outlierHands outlierEyes N = .ok none) 50 := by
  classical
  obtain ⟨hX, -, -, hXw⟩ := sample_data
  have h1 : Spec.IsUnit (1 : DQuat) := by rw [DQuat.isUnit_iff]; norm_num [Quat.dot]
  obtain ⟨svd, hv, hgood⟩ := exists_good_svd
  have hl : outlierEyes.length = outlierHands.length := by simp [outlierEyes, outlierHands]
  have hl5 : outlierEyes.length = 5 := by simp [outlierEyes, bodyPoses]
  have hsolve : ∀ B W, Spec.Exact B W sampleX → (∀ b ∈ B, Spec.IsUnit b) → Spec.TwoAxes B →
      B.head? = some ⟨⟨0, 0, 0, 1⟩, ⟨0, 0, 0, 0⟩⟩ → ∃ r, computeHandEyeCalibration svd B W 4e-2 = .ok r :=
    fun B W h1 _ h3 h4 => hgood B W sampleX hX hXw h1 h3 h4 _ (by norm_num)
  have hlead : ∀ s, Spec.IsSample 5 3 s → (Spec.LeadsToCalibration svd { min_num_inliers := 4, prefilter_poses_enabled := false } 1e-2
      (outlierHands.zip outlierEyes) (outlierHands.zip outlierEyes) s ↔ Spec.AllFit 1 sampleX outlierHands outlierEyes s) := fun s hs =>
    leads_iff_fit hv (cfg := { min_num_inliers := 4, prefilter_poses_enabled := false }) rfl rfl (by norm_num) rfl h1 hX hXw hl
      outlier_hands_unit outlier_eyes_unit outlier_seen outlier_few outlier_turns (by rw [outlier_number]) (by norm_num) hsolve (by rw [hl5]; exact hs)
  refine ⟨svd, hv, fun N => ?_, ?_, ?_⟩
  · have h := (C108_outliers svd hv { min_num_inliers := 4, prefilter_poses_enabled := false, ransac_max_number_iterations := 1 } rfl 1e-2 rfl (by norm_num)
      rfl rfl (by norm_num) (by norm_num) (by norm_num) (by norm_num) 1 sampleX h1 hX hXw outlierHands outlierEyes hl outlier_hands_unit outlier_eyes_unit
      outlier_seen outlier_few outlier_turns (by rw [outlier_number]) (by norm_num) (by rw [hl5]; norm_num) hsolve 1 ends_1 _ rfl N).2.1
    rw [hl5] at h
    rw [h, outlier_number]
    norm_num [Nat.descFactorial]
  · have h := (C108_almost_surely svd { min_num_inliers := 4, prefilter_poses_enabled := false } rfl 1e-2 rfl (by norm_num) rfl
      (by norm_num) (by norm_num) (by norm_num) (by norm_num) outlierHands outlierEyes _ _ hl outlier_hands_unit outlier_eyes_unit (unfiltered rfl _ _)
      (by rw [hl5]; norm_num) (by norm_num) (by rw [hl5]; norm_num)).1
    rw [hl5] at h
    refine h ⟨[0, 1, 2], ⟨rfl, by simp, by simp⟩, ?_⟩
    exact (hlead _ ⟨rfl, by simp, by simp⟩).mpr (outlier_free [0, 1, 2] (by simp))
  · have hp : Spec.chance (fun d : Spec.Draw 5 3 => Spec.LeadsToCalibration svd { min_num_inliers := 4, prefilter_poses_enabled := false } 1e-2
        (outlierHands.zip outlierEyes) (outlierHands.zip outlierEyes) (Spec.numbers d)) = 2 / 5 := by
      have h := chance_within (k := 3) (Finset.univ.erase (4 : Fin 5))
      rw [show (Finset.univ.erase (4 : Fin 5)).card = 4 by decide] at h
      norm_num [Nat.descFactorial] at h
      rw [← h]
      refine chance_congr fun d => ?_
      rw [hlead _ (numbers_sample d)]
      constructor
      · intro hall i hi
        refine outlier_no_fit (hall 4 ?_ _ (by rw [outlier_zip]; rfl))
        unfold Spec.numbers
        exact List.mem_ofFn.mpr ⟨i, by rw [hi]; rfl⟩
      · intro hall
        refine outlier_free _ fun i hi => ?_
        obtain ⟨j, rfl⟩ := List.mem_ofFn.mp hi
        have h1 := (d j).2
        have h2 : (d j : ℕ) ≠ 4 := fun h => hall j (Fin.ext h)
        omega
    have h := C108_expected svd { min_num_inliers := 4, prefilter_poses_enabled := false } rfl 1e-2 rfl (by norm_num) rfl
      (by norm_num) (by norm_num) (by norm_num) (by norm_num) outlierHands outlierEyes _ _ hl outlier_hands_unit outlier_eyes_unit (unfiltered rfl _ _)
      (by rw [hl5]; norm_num) (by norm_num) (by rw [hl5]; norm_num) 20 (C108_default _ rfl rfl rfl rfl) (2 / 5)
    rw [hl5] at h
    have h50 := h hp.symm (by norm_num)
    rw [show ((20 : ℕ) : ℝ) / (2 / 5) = 50 by norm_num] at h50
    exact h50

/-- If the outlier is in the first sample and not in the second one, the search with one iteration has ended after two samples and not before. -/
example : ∃ svd : Svd, (∀ T s V, svd T = .ok (s, V) → Spec.IsSVD T s V) ∧
    ransac svd (fun k => if k = 0 then [0, 1, 4] else [0, 1, 2]) { min_num_inliers := 4, prefilter_poses_enabled := false, ransac_max_number_iterations := 1 }
      outlierHands outlierEyes 1 = .ok none ∧
    ∃ r, ransac svd (fun k => if k = 0 then [0, 1, 4] else [0, 1, 2])
      { min_num_inliers := 4, prefilter_poses_enabled := false, ransac_max_number_iterations := 1 } outlierHands outlierEyes 2 = .ok (some r) ∧ r.success = true := by
  classical
  obtain ⟨hX, -, -, hXw⟩ := sample_data
  have h1 : Spec.IsUnit (1 : DQuat) := by rw [DQuat.isUnit_iff]; norm_num [Quat.dot]
  obtain ⟨svd, hv, hgood⟩ := exists_good_svd
  have hl : outlierEyes.length = outlierHands.length := by simp [outlierEyes, outlierHands]
  have hl5 : outlierEyes.length = 5 := by simp [outlierEyes, bodyPoses]
  have hsolve : ∀ B W, Spec.Exact B W sampleX → (∀ b ∈ B, Spec.IsUnit b) → Spec.TwoAxes B →
      B.head? = some ⟨⟨0, 0, 0, 1⟩, ⟨0, 0, 0, 0⟩⟩ → ∃ r, computeHandEyeCalibration svd B W 4e-2 = .ok r :=
    fun B W h1 _ h3 h4 => hgood B W sampleX hX hXw h1 h3 h4 _ (by norm_num)
  have hiff := fun s hs => leads_iff_fit hv (cfg := { min_num_inliers := 4, prefilter_poses_enabled := false, ransac_max_number_iterations := 1 }) rfl rfl
      (by norm_num) rfl h1 hX hXw hl outlier_hands_unit outlier_eyes_unit outlier_seen outlier_few outlier_turns (by rw [outlier_number]) (by norm_num) hsolve (s := s) hs
  have hends := fun fuel => C108_ends svd (fun k => if k = 0 then [0, 1, 4] else [0, 1, 2])
    { min_num_inliers := 4, prefilter_poses_enabled := false, ransac_max_number_iterations := 1 } rfl 1e-2 rfl (by norm_num) rfl (by norm_num) (by norm_num)
    (by norm_num) (by norm_num) outlierHands outlierEyes _ _ hl outlier_hands_unit outlier_eyes_unit (unfiltered rfl _ _) (by rw [hl5]; norm_num) (by norm_num)
    (by rw [hl5]; norm_num) (by
      intro k
      rw [hl5]
      dsimp only
      split
      · exact ⟨rfl, by simp, by simp⟩
      · exact ⟨rfl, by simp, by simp⟩) 1 ends_1 fuel
  have hno : ¬ Spec.LeadsToCalibration svd { min_num_inliers := 4, prefilter_poses_enabled := false, ransac_max_number_iterations := 1 } 1e-2
      (outlierHands.zip outlierEyes) (outlierHands.zip outlierEyes) [0, 1, 4] := by
    rw [hiff [0, 1, 4] (by rw [hl5]; exact ⟨rfl, by simp, by simp⟩)]
    intro h
    exact outlier_no_fit (h 4 (by simp) _ (by rw [outlier_zip]; rfl))
  have hyes : Spec.LeadsToCalibration svd { min_num_inliers := 4, prefilter_poses_enabled := false, ransac_max_number_iterations := 1 } 1e-2
      (outlierHands.zip outlierEyes) (outlierHands.zip outlierEyes) [0, 1, 2] :=
    (hiff [0, 1, 2] (by rw [hl5]; exact ⟨rfl, by simp, by simp⟩)).mpr (outlier_free [0, 1, 2] (by simp))
  refine ⟨svd, hv, (hends 1).2 ?_, (hends 2).1 ?_⟩
  · simp [List.range_succ, hno]
  · simp [List.range_succ, hno, hyes]

end HandEye
