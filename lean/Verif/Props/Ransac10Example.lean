import Verif.Props.Ransac10
import Verif.Props.Ransac5Example

/-! # Property C104, an example: three noisy measurements and an outlier -/

namespace HandEye

/-- The first three poses of the body, and at the end the pose with the outlier. -/
noncomputable def noisyHands : List DQuat := bodyPoses.take 3 ++ [1]

/-- The eye is 1 mm away from where these measurements say. -/
noncomputable def noisyEyes : List DQuat := (bodyPoses.take 3).map (fun b => 1 * b * sampleX) ++ [wrongTurn * sampleX]

/-- A displacement by 1 mm. -/
noncomputable def millimetre : DQuat := ⟨⟨0, 0, 0, 1⟩, ⟨0, 0.0005, 0, 0⟩⟩

theorem noisy_zip : noisyHands.zip noisyEyes = (bodyPoses.take 3).map (fun b => (b, 1 * b * sampleX)) ++ [(1, wrongTurn * sampleX)] := by
  unfold noisyHands noisyEyes
  rw [List.zip_append (by simp)]
  congr 1

theorem noisy_mem : ∀ b ∈ bodyPoses.take 3, b ∈ bodyPoses := fun _ h => List.mem_of_mem_take h

theorem noisy_hands_unit : ∀ a ∈ noisyHands, Spec.IsUnit a := by
  intro a ha
  rcases List.mem_append.mp ha with ha | ha
  · exact bodyPoses_unit a (noisy_mem a ha)
  · rw [List.mem_singleton.mp ha, DQuat.isUnit_iff]; norm_num [Quat.dot]

theorem noisy_eyes_unit : ∀ a ∈ noisyEyes, Spec.IsUnit a := by
  obtain ⟨hX, -, -, hXw⟩ := sample_data
  have h1 : Spec.IsUnit (1 : DQuat) := by rw [DQuat.isUnit_iff]; norm_num [Quat.dot]
  have ht : Spec.IsUnit wrongTurn := by rw [DQuat.isUnit_iff]; norm_num [Quat.dot, wrongTurn]
  intro a ha
  rcases List.mem_append.mp ha with ha | ha
  · obtain ⟨b, hb, rfl⟩ := List.mem_map.mp ha
    exact DQuat.isUnit_mul (DQuat.isUnit_mul h1 (bodyPoses_unit b (noisy_mem b hb))) hX
  · rw [List.mem_singleton.mp ha]; exact DQuat.isUnit_mul ht hX

theorem noisy_case : ∀ p ∈ noisyHands.zip noisyEyes, (∃ b ∈ bodyPoses.take 3, p = (b, 1 * b * sampleX)) ∨ p = (1, wrongTurn * sampleX) := by
  intro p hp
  rw [noisy_zip] at hp
  rcases List.mem_append.mp hp with hp | hp
  · obtain ⟨b, hb, rfl⟩ := List.mem_map.mp hp
    exact Or.inl ⟨b, hb, rfl⟩
  · exact Or.inr (List.mem_singleton.mp hp)

theorem noisy_few : Spec.number (Spec.Corresponds 1e-2 (1, wrongTurn * sampleX)) (noisyHands.zip noisyEyes) < 3 := by
  classical
  unfold Spec.number
  rw [noisy_zip, List.countP_append, List.countP_map]
  have : (bodyPoses.take 3).countP ((fun m => decide (Spec.Corresponds 1e-2 (1, wrongTurn * sampleX) m)) ∘ fun b => (b, 1 * b * sampleX)) = 0 := by
    rw [List.countP_eq_zero]
    intro b hb
    simpa using (outlier_disagrees b (noisy_mem b hb)).2
  rw [this, zero_add]
  exact lt_of_le_of_lt List.countP_le_length (by simp)

theorem noisy_number : Spec.number (Spec.Fits 1 sampleX) (noisyHands.zip noisyEyes) = 3 := by
  classical
  unfold Spec.number
  rw [noisy_zip, List.countP_append, List.countP_map]
  have h1 : ((fun m => decide (Spec.Fits 1 sampleX m)) ∘ fun b => (b, 1 * b * sampleX)) = fun _ => true := by
    funext b
    exact decide_eq_true (outlier_fits b)
  rw [h1, List.countP_true, List.countP_cons, List.countP_nil, if_neg (by simpa using outlier_no_fit)]
  rfl

theorem noisy_turns : Spec.TurnsAboutTwoAxes (Spec.handsOf (Spec.Fits 1 sampleX) (noisyHands.zip noisyEyes)) := by
  classical
  have : ∀ x ∈ bodyPoses.take 3, x ∈ Spec.handsOf (Spec.Fits 1 sampleX) (noisyHands.zip noisyEyes) := by
    intro x hx
    refine List.mem_map.mpr ⟨(x, 1 * x * sampleX), List.mem_filter.mpr ⟨?_, decide_eq_true (outlier_fits x)⟩, rfl⟩
    rw [noisy_zip]
    exact List.mem_append_left _ (List.mem_map_of_mem hx)
  refine ⟨⟨⟨0, 0, 0, 1⟩, ⟨0, 0, 0, 0⟩⟩, this _ (by simp [bodyPoses]), ⟨⟨0, 0, 0.6, 0.8⟩, ⟨0.8, 0, 0, 0⟩⟩, this _ (by simp [bodyPoses]),
      ⟨⟨0.6, 0, 0, 0.8⟩, ⟨0, 0.8, 0, 0⟩⟩, this _ (by simp [bodyPoses]), ?_⟩
  rw [Ne, cross_eq_zero]
  norm_num [Quat.vec]

/-- The measurements fit the mounting that is 1 mm away with an error of 6/1000. -/
theorem noisy_fit : ∀ b ∈ bodyPoses.take 3, ∀ c ∈ bodyPoses.take 3,
    Spec.NoisyFit (0.0005 * (2 + 10)) (sampleX * millimetre) (b, 1 * b * sampleX) (c, 1 * c * sampleX) := by
  have h1 : Spec.IsUnit (1 : DQuat) := by rw [DQuat.isUnit_iff]; norm_num [Quat.dot]
  have hm : Spec.IsUnit millimetre := by rw [DQuat.isUnit_iff]; norm_num [Quat.dot, millimetre]
  have hmc := DQuat.isUnit_conj hm
  have near1 : Spec.NearDQ 0.0005 1 ⟨⟨0, 0, 0, 1⟩, ⟨0, 0, 0, 0⟩⟩ := by
    unfold Spec.NearDQ
    norm_num [Fin.sum_univ_eight, Spec.vec8]
  have near2 : Spec.NearDQ 0.0005 millimetre.conj ⟨⟨0, 0, 0, 1⟩, ⟨0, 0, 0, 0⟩⟩ := by
    unfold Spec.NearDQ
    rw [Fin.sum_univ_eight]
    simp [Spec.vec8, millimetre]
  have hmeas : ∀ b : DQuat, Spec.MeasuredWith 0.0005 (b, 1 * b * sampleX) (b, 1 * b * (sampleX * millimetre)) := by
    intro b
    refine ⟨1, millimetre.conj, h1, hmc, near1, near2, sameUpToSign_iff.mpr (Or.inl (by rw [mul_one])), sameUpToSign_iff.mpr (Or.inl ?_)⟩
    dsimp only
    rw [← mul_assoc, mul_assoc _ millimetre, DQuat.mul_conj_unit hm, mul_one]
  have hlen : ∀ b ∈ bodyPoses.take 3, ∀ c ∈ bodyPoses.take 3, Spec.translationLength (b.conj * c) ≤ 10 ∧
      Spec.translationLength ((1 * b * (sampleX * millimetre)).conj * (1 * c * (sampleX * millimetre))) ≤ 10 ∧
      (0.0005 : ℝ) * (2 + 10) < |(b.conj * c).rot.w| := by
    have hs : ∀ a : DQuat, a.dual.dot a.dual ≤ 5 ^ 2 → Spec.translationLength a ≤ 10 := by
      intro a ha
      have : Real.sqrt (a.dual.x ^ 2 + a.dual.y ^ 2 + a.dual.z ^ 2 + a.dual.w ^ 2) ≤ 5 :=
        Real.sqrt_le_iff.mpr ⟨by norm_num, by simp only [Quat.dot] at ha; linarith⟩
      unfold Spec.translationLength
      linarith
    have hall : ∀ b ∈ bodyPoses.take 3, ∀ c ∈ bodyPoses.take 3, (b.conj * c).dual.dot (b.conj * c).dual ≤ 5 ^ 2 ∧
        ((1 * b * (sampleX * millimetre)).conj * (1 * c * (sampleX * millimetre))).dual.dot
          ((1 * b * (sampleX * millimetre)).conj * (1 * c * (sampleX * millimetre))).dual ≤ 5 ^ 2 ∧ (0.0005 : ℝ) * (2 + 10) < |(b.conj * c).rot.w| := by
      simp only [bodyPoses, List.take_succ_cons, List.take_zero, List.forall_mem_cons]
      refine ⟨⟨?_, ?_, ?_, by simp⟩, ⟨?_, ?_, ?_, by simp⟩, ⟨?_, ?_, ?_, by simp⟩, by simp⟩ <;>
        simp only [sampleX, millimetre, Quat.dot] <;> norm_num
    intro b hb c hc
    obtain ⟨a1, a2, a3⟩ := hall b hb c hc
    exact ⟨hs _ a1, hs _ a2, a3⟩
  intro b hb c hc
  obtain ⟨l1, l2, l3⟩ := hlen b hb c hc
  exact C104_noise 0.0005 10 (by norm_num) 1 (sampleX * millimetre) h1 (DQuat.isUnit_mul sample_data.1 hm) (b, 1 * b * (sampleX * millimetre))
    (c, 1 * c * (sampleX * millimetre)) _ _ (fits_iff.mpr rfl) (fits_iff.mpr rfl) (bodyPoses_unit b (noisy_mem b hb)) (bodyPoses_unit c (noisy_mem c hc))
    (hmeas b) (hmeas c) l1 l2 l3

/-- Three measurements with a common error and an outlier.  RANSAC reports a calibration, and its error with respect to the true mounting, which is 1 mm
away, is bounded as stated. -/
example : ∃ svd : Svd, (∀ T s V, svd T = .ok (s, V) → Spec.IsSVD T s V) ∧
    ∀ rng, ∃ r dq sv, ransac svd rng { min_num_inliers := 3, prefilter_poses_enabled := false, enable_exhaustive_search := true }
      noisyHands noisyEyes 4 = .ok (some r) ∧ r.dq_H_E = some dq ∧ r.singular_values = some sv ∧ r.num_inliers = 3 ∧
      dq ≠ sampleX * millimetre ∧
      ∀ σ, sv[5]? = some σ → 0 < σ → 1 - Spec.cosHalf dq.rot (sampleX * millimetre).rot ^ 2 ≤
        (4 * 0.006 * Real.sqrt 3 / σ) ^ 2 * (1 + Spec.translationLength dq ^ 2 / 4) := by
  classical
  obtain ⟨hX, -, -, hXw⟩ := sample_data
  have h1 : Spec.IsUnit (1 : DQuat) := by rw [DQuat.isUnit_iff]; norm_num [Quat.dot]
  have hm : Spec.IsUnit millimetre := by rw [DQuat.isUnit_iff]; norm_num [Quat.dot, millimetre]
  obtain ⟨svd, hv, hgood⟩ := exists_good_svd
  have hl : noisyEyes.length = noisyHands.length := by simp [noisyEyes, noisyHands]
  have hl4 : noisyEyes.length = 4 := by simp [noisyEyes, bodyPoses]
  have hvis : ∀ p ∈ noisyHands.zip noisyEyes, Spec.Fits 1 sampleX p → ∀ q ∈ noisyHands.zip noisyEyes,
      Spec.Corresponds 1e-2 p q → Spec.Fits 1 sampleX q := by
    intro p hp hpf q hq hpq
    rcases noisy_case q hq with ⟨b, hb, rfl⟩ | rfl
    · exact outlier_fits b
    · rcases noisy_case p hp with ⟨b, hb, rfl⟩ | rfl
      · exact absurd hpq (outlier_disagrees b (noisy_mem b hb)).1
      · exact hpf
  have hfew : ∀ p ∈ noisyHands.zip noisyEyes, ¬ Spec.Fits 1 sampleX p →
      Spec.number (Spec.Corresponds 1e-2 p) (noisyHands.zip noisyEyes) < 3 := by
    intro p hp hpf
    rcases noisy_case p hp with ⟨b, hb, rfl⟩ | rfl
    · exact absurd (outlier_fits b) hpf
    · exact noisy_few
  have hsolve : ∀ B W, Spec.Exact B W sampleX → (∀ b ∈ B, Spec.IsUnit b) → Spec.TwoAxes B →
      B.head? = some ⟨⟨0, 0, 0, 1⟩, ⟨0, 0, 0, 0⟩⟩ → ∃ r, computeHandEyeCalibration svd B W 4e-2 = .ok r :=
    fun B W h1 _ h3 h4 => hgood B W sampleX hX hXw h1 h3 h4 _ (by norm_num)
  refine ⟨svd, hv, fun rng => ?_⟩
  obtain ⟨r, r1, r2⟩ := C91_exhaustive svd hv rng
    { min_num_inliers := 3, prefilter_poses_enabled := false, enable_exhaustive_search := true } rfl 1e-2 rfl (by norm_num) rfl rfl
    1 sampleX h1 hX hXw noisyHands noisyEyes hl noisy_hands_unit noisy_eyes_unit hvis hfew noisy_turns (by rw [noisy_number]) (by norm_num)
    (by rw [noisy_number]) (by rw [hl4]; norm_num) hsolve
  obtain ⟨dq, d1, d2, d3, d4, -⟩ := C91_outliers svd hv rng _ rfl 1e-2 rfl (by norm_num) 1 sampleX h1 hX hXw noisyHands noisyEyes
    noisy_hands_unit noisy_eyes_unit hvis hfew noisy_turns _ r r1 r2
  rw [noisy_number] at d4
  have hdq : dq = sampleX := by
    rcases sameUpToSign_iff.mp d2 with h | h
    · exact h
    · exfalso
      rw [h] at d3
      norm_num [sampleX] at d3
  obtain ⟨dq', sv, e1, e2, e3⟩ := C104_accuracy svd hv rng _ 1e-2 (Or.inl rfl) rfl (by norm_num) (0.0005 * (2 + 10)) (by norm_num)
    (sampleX * millimetre) (DQuat.isUnit_mul hX hm) noisyHands noisyEyes noisy_hands_unit noisy_eyes_unit (by
      intro p hp hn q hq hpq
      rcases noisy_case p hp with ⟨b, hb, rfl⟩ | rfl
      · rcases noisy_case q hq with ⟨c, hc, rfl⟩ | rfl
        · exact noisy_fit b hb c hc
        · exact absurd hpq (outlier_disagrees b (noisy_mem b hb)).1
      · exact absurd hn (not_le.mpr noisy_few)) _ r r1 r2
  rw [hl4] at r1
  have hdd : dq' = dq := Option.some.inj (e1.symm.trans d1)
  rw [hdd] at e3
  refine ⟨r, dq, sv, r1, d1, e2, d4, ?_, fun σ s1 s2 => ?_⟩
  · rw [hdq]
    intro h
    have := congrArg (fun a => a.dual.y) h
    norm_num [sampleX, millimetre] at this
  · have := (e3 σ s1 s2).1
    rw [d4] at this
    norm_num at this ⊢
    exact this

end HandEye
