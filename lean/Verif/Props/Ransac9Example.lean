import Verif.Props.Ransac9
import Verif.Props.Ransac5Example

/-! # Property C103, an example: four good measurements and an outlier -/

namespace HandEye

theorem outlier_clear : ∀ b ∈ bodyPoses, Spec.ClearlyWrong 1 0.02 sampleX (b, 1 * b * sampleX) (1, wrongTurn * sampleX) := by
  intro b hb
  have hu := bodyPoses_unit b hb
  right
  dsimp only
  have hX := sample_data.1
  have hE : sampleX * ((1 * b * sampleX).conj * (wrongTurn * sampleX)) * sampleX.conj = b.conj * wrongTurn := by
    rw [one_mul, DQuat.conj_mul_rev]
    calc sampleX * (sampleX.conj * b.conj * (wrongTurn * sampleX)) * sampleX.conj
        = (sampleX * sampleX.conj) * b.conj * wrongTurn * (sampleX * sampleX.conj) := by simp only [mul_assoc]
      _ = b.conj * wrongTurn := by rw [DQuat.mul_conj_unit hX, one_mul, mul_one]
  rw [hE, mul_one]
  have hc : Spec.cosHalf b.conj.rot (b.conj * wrongTurn).rot = 0.8 := by
    unfold Spec.cosHalf
    have e : ∀ a b : Quat, a.x * b.x + a.y * b.y + a.z * b.z + a.w * b.w = a.dot b := fun _ _ => rfl
    have hr : b.conj.rot.dot b.conj.rot = 1 := DQuat.IsUnit.rot (DQuat.isUnit_conj hu)
    have hr' : (b.conj * wrongTurn).rot.dot (b.conj * wrongTurn).rot = 1 := by
      rw [DQuat.mul_rot, Quat.dot_mul_mul, hr]
      norm_num [wrongTurn, Quat.dot]
    rw [e, ← norm_eq', ← norm_eq', Quat.norm_eq_one.mpr hr, Quat.norm_eq_one.mpr hr', DQuat.mul_rot]
    have : b.conj.rot.dot (b.conj.rot * wrongTurn.rot) = b.conj.rot.dot b.conj.rot * (1 : Quat).dot wrongTurn.rot := by
      conv_lhs => rw [show b.conj.rot.dot (b.conj.rot * wrongTurn.rot) = (b.conj.rot * 1).dot (b.conj.rot * wrongTurn.rot) by rw [mul_one]]
      exact Quat.dot_mul_left _ _ _
    rw [this, hr]
    norm_num [wrongTurn, Quat.dot]
  refine ⟨?_, by rw [hc]; norm_num⟩
  unfold Spec.rotationAngle
  rw [hc]
  have h6 : Real.pi / 6 ≤ Real.arccos 0.8 := by
    have h := Real.arccos_le_arccos (x := 0.8) (y := Real.sqrt 3 / 2) (by
      have : (1.6 : ℝ) ≤ Real.sqrt 3 := Real.le_sqrt_of_sq_le (by norm_num)
      linarith)
    rw [← Real.cos_pi_div_six, Real.arccos_cos (by positivity) (by linarith [Real.pi_pos])] at h
    exact h
  have hpi := Real.pi_pos
  calc (1 : ℝ) ≤ 360 / Real.pi * (Real.pi / 6) := by
        rw [div_mul_div_comm, mul_comm Real.pi 6, mul_div_mul_right _ _ hpi.ne']
        norm_num
    _ ≤ 360 / Real.pi * Real.arccos 0.8 := mul_le_mul_of_nonneg_left h6 (by positivity)

theorem outlier_clearly : ∀ p ∈ outlierHands.zip outlierEyes, Spec.Fits 1 sampleX p → ∀ q ∈ outlierHands.zip outlierEyes,
    ¬ Spec.Fits 1 sampleX q → Spec.ClearlyWrong 1 0.02 sampleX p q := by
  intro p hp hpf q hq hqf
  rcases outlier_case q hq with ⟨b, hb, rfl⟩ | rfl
  · exact absurd (outlier_fits b) hqf
  · rcases outlier_case p hp with ⟨b, hb, rfl⟩ | rfl
    · exact outlier_clear b hb
    · exact absurd hpf hqf

theorem outlier_selections : ∀ S, List.Subperm S (outlierHands.zip outlierEyes) → (∀ q ∈ S, Spec.Fits 1 sampleX q) → 4 ≤ S.length →
    Spec.TurnsAboutTwoAxes (S.map Prod.fst) := by
  classical
  intro S hS hfit h4
  have hsub : List.Subperm S ((outlierHands.zip outlierEyes).filter fun m => decide (Spec.Fits 1 sampleX m)) := by
    have := hS.filter fun m => decide (Spec.Fits 1 sampleX m)
    rwa [List.filter_eq_self.mpr fun q hq => decide_eq_true (hfit q hq)] at this
  have hlen : ((outlierHands.zip outlierEyes).filter fun m => decide (Spec.Fits 1 sampleX m)).length ≤ S.length := by
    have := outlier_number
    unfold Spec.number at this
    rw [List.countP_eq_length_filter] at this
    exact this.le.trans h4
  have hp := hsub.perm_of_length_le hlen
  obtain ⟨a, ha, b, hb, c, hc, hne⟩ := outlier_turns
  have hm : ∀ x ∈ Spec.handsOf (Spec.Fits 1 sampleX) (outlierHands.zip outlierEyes), x ∈ S.map Prod.fst :=
    fun x hx => (hp.map Prod.fst).mem_iff.mpr hx
  exact ⟨a, hm a ha, b, hm b hb, c, hm c hc, hne⟩

theorem outlier_good : Spec.TellingSample 1 sampleX outlierHands outlierEyes [0, 1, 2] := by
  refine ⟨fun i hi q hq => ?_, ?_⟩
  · have hi' : i < (bodyPoses.map fun b => (b, 1 * b * sampleX)).length := by
      have : bodyPoses.length = 4 := rfl
      rw [List.length_map]
      simp only [List.mem_cons, List.not_mem_nil, or_false] at hi
      omega
    rw [outlier_zip, List.getElem?_append_left hi'] at hq
    obtain ⟨b, -, rfl⟩ := List.mem_map.mp (List.mem_of_getElem? hq)
    exact outlier_fits b
  · refine ⟨⟨⟨0, 0, 0, 1⟩, ⟨0, 0, 0, 0⟩⟩, by simp [outlierHands, bodyPoses], ⟨⟨0, 0, 0.6, 0.8⟩, ⟨0.8, 0, 0, 0⟩⟩, by simp [outlierHands, bodyPoses],
      ⟨⟨0.6, 0, 0, 0.8⟩, ⟨0, 0.8, 0, 0⟩⟩, by simp [outlierHands, bodyPoses], ?_⟩
    rw [Ne, cross_eq_zero]
    norm_num [Quat.vec]

/-- Classification by pose errors, four inliers required. -/
noncomputable def classicConfig (exhaustive : Bool) : HandEyeConfig :=
  { min_num_inliers := 4, prefilter_poses_enabled := false, enable_exhaustive_search := exhaustive, ransac_inlier_classification := .rmseThreshold }

/-- RANSAC with the classification by pose errors on these measurements, of which four have to be inliers, with samples of three: the
exhaustive search finds the mounting with four inliers, although it also tries the samples with the outlier; and so does every
random search that ends, which it does after 20 samples of the first three measurements. -/
example : ∃ svd : Svd, (∀ T s V, svd T = .ok (s, V) → Spec.IsSVD T s V) ∧
    (∀ rng, ∃ r, ransac svd rng (classicConfig true) outlierHands outlierEyes 10 = .ok (some r) ∧
      r.dq_H_E = some sampleX ∧ r.num_inliers = 4) ∧
    ∀ rng, (∀ k, Spec.IsSample 5 3 (rng k)) → (∀ fuel r, ransac svd rng (classicConfig false) outlierHands outlierEyes fuel = .ok (some r) →
          r.dq_H_E = some sampleX ∧ r.num_inliers = 4) ∧
      ((∀ k, rng k = [0, 1, 2]) → ∃ r, ransac svd rng (classicConfig false) outlierHands outlierEyes 20 = .ok (some r)) := by
  classical
  obtain ⟨hX, -, -, hXw⟩ := sample_data
  have h1 : Spec.IsUnit (1 : DQuat) := by rw [DQuat.isUnit_iff]; norm_num [Quat.dot]
  have ht : Spec.IsUnit wrongTurn := by rw [DQuat.isUnit_iff]; norm_num [Quat.dot, wrongTurn]
  obtain ⟨svd, hv, hgood⟩ := exists_good_svd
  have hl : outlierEyes.length = outlierHands.length := by simp [outlierEyes, outlierHands]
  have hl5 : outlierEyes.length = 5 := by simp [outlierEyes, bodyPoses]
  have hsolve : ∀ B W, Spec.Exact B W sampleX → (∀ b ∈ B, Spec.IsUnit b) → Spec.TwoAxes B →
      B.head? = some ⟨⟨0, 0, 0, 1⟩, ⟨0, 0, 0, 0⟩⟩ → ∃ r, computeHandEyeCalibration svd B W 4e-2 = .ok r :=
    fun B W h1 _ h3 h4 => hgood B W sampleX hX hXw h1 h3 h4 _ (by norm_num)
  have hsign : ∀ dq, Spec.SameUpToSign dq sampleX → 0 ≤ dq.rot.w → dq = sampleX := by
    intro dq h h0
    rcases sameUpToSign_iff.mp h with h | h
    · exact h
    · exfalso
      rw [h] at h0
      norm_num [sampleX] at h0
  refine ⟨svd, hv, fun rng => ?_, fun rng hrng => ⟨fun fuel r hr => ?_, fun h4 => ?_⟩⟩
  · obtain ⟨r, r1, r2⟩ := C103_exhaustive svd hv rng
      (classicConfig true) rfl rfl 1e-2 rfl (by norm_num) (by norm_num [classicConfig]) (by norm_num [classicConfig])
      (by norm_num [classicConfig]) rfl rfl 1 sampleX h1 hX hXw outlierHands outlierEyes hl outlier_hands_unit outlier_eyes_unit outlier_turns
      (by rw [outlier_number]; rfl) outlier_clearly (by rw [hl5]; norm_num [classicConfig]) hsolve
      ⟨[0, 1, 2], by simp, by rw [hl5]; simp, rfl, outlier_good⟩
    rw [hl5] at r1
    obtain ⟨dq, d1, d2, d3, d4, d5, -⟩ := C103_outliers svd hv rng _ rfl rfl 1e-2 rfl (by norm_num) 1 sampleX h1 hX hXw outlierHands
      outlierEyes outlier_hands_unit outlier_eyes_unit outlier_seen outlier_few outlier_selections _ r r1 r2
    rw [outlier_number] at d5
    exact ⟨r, r1, by rw [d1, hsign dq d2 d3], le_antisymm d5 d4⟩
  · have := C103_random svd hv rng (classicConfig false) rfl rfl 1e-2 rfl (by norm_num) (by norm_num [classicConfig]) (by norm_num [classicConfig])
      (by norm_num [classicConfig]) rfl rfl (by norm_num [classicConfig]) (by norm_num [classicConfig]) (by norm_num [classicConfig]) (by norm_num [classicConfig])
      1 sampleX h1 hX hXw outlierHands outlierEyes hl outlier_hands_unit outlier_eyes_unit outlier_turns
      (by rw [outlier_number]; rfl) outlier_clearly (by rw [hl5]; norm_num [classicConfig]) hsolve (by rw [hl5]; exact hrng) fuel
    obtain ⟨dq, d1, d2, d3, d4, d5, -⟩ := C103_outliers svd hv rng _ rfl rfl 1e-2 rfl (by norm_num) 1 sampleX h1 hX hXw outlierHands
      outlierEyes outlier_hands_unit outlier_eyes_unit outlier_seen outlier_few outlier_selections _ r hr (this.2.2 r hr)
    rw [outlier_number] at d5
    exact ⟨by rw [d1, hsign dq d2 d3], le_antisymm d5 d4⟩
  · refine (C103_random svd hv rng (classicConfig false) rfl rfl 1e-2 rfl (by norm_num) (by norm_num [classicConfig]) (by norm_num [classicConfig])
      (by norm_num [classicConfig]) rfl rfl (by norm_num [classicConfig]) (by norm_num [classicConfig]) (by norm_num [classicConfig]) (by norm_num [classicConfig])
      1 sampleX h1 hX hXw outlierHands outlierEyes hl outlier_hands_unit outlier_eyes_unit outlier_turns
      (by rw [outlier_number]; rfl) outlier_clearly (by rw [hl5]; norm_num [classicConfig]) hsolve (by rw [hl5]; exact hrng) 20).1 ?_
    have : ∀ k ∈ List.range 20, (decide (Spec.TellingSample 1 sampleX outlierHands outlierEyes (rng k))) = true := by
      intro k _
      rw [h4 k]
      exact decide_eq_true outlier_good
    rw [List.countP_eq_length.mpr this, List.length_range]
    exact le_refl 20

end HandEye
