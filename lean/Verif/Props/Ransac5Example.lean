import Verif.Props.Ransac5

/-! # Property C91, an example: four good measurements and an outlier -/

namespace HandEye

/-- The poses of the body, and at the end the pose with the outlier. -/
noncomputable def outlierHands : List DQuat := bodyPoses ++ [1]

/-- A rotation by which the outlier is wrong. -/
noncomputable def wrongTurn : DQuat := ⟨⟨0, 0.6, 0, 0.8⟩, ⟨0, 0, 0, 0⟩⟩

noncomputable def outlierEyes : List DQuat := bodyPoses.map (fun b => 1 * b * sampleX) ++ [wrongTurn * sampleX]

theorem outlier_zip : outlierHands.zip outlierEyes = bodyPoses.map (fun b => (b, 1 * b * sampleX)) ++ [(1, wrongTurn * sampleX)] := by
  unfold outlierHands outlierEyes
  rw [List.zip_append (by simp)]
  congr 1

theorem outlier_disagrees : ∀ b ∈ bodyPoses,
    ¬ Spec.Corresponds 1e-2 (b, 1 * b * sampleX) (1, wrongTurn * sampleX) ∧ ¬ Spec.Corresponds 1e-2 (1, wrongTurn * sampleX) (b, 1 * b * sampleX) := by
  simp only [bodyPoses, List.forall_mem_cons]
  refine ⟨?_, ?_, ?_, ?_, by simp⟩ <;> refine ⟨?_, ?_⟩ <;> rintro ⟨h, -⟩ <;> revert h <;>
    simp only [Spec.scalarParts, wrongTurn, sampleX] <;> norm_num

theorem outlier_fits (b : DQuat) : Spec.Fits 1 sampleX (b, 1 * b * sampleX) := fits_iff.mpr rfl

theorem outlier_no_fit : ¬ Spec.Fits 1 sampleX (1, wrongTurn * sampleX) := by
  intro h
  exact (outlier_disagrees ⟨⟨0, 0, 0, 1⟩, ⟨0, 0, 0, 0⟩⟩ (by simp [bodyPoses])).1
    (fits_agree (by norm_num) (g := 1) (X := sampleX) (by rw [DQuat.isUnit_iff]; norm_num [Quat.dot]) sample_data.1
      (bodyPoses_unit _ (by simp [bodyPoses])) (by rw [DQuat.isUnit_iff]; norm_num [Quat.dot]) (outlier_fits _) h)

theorem outlier_number : Spec.number (Spec.Fits 1 sampleX) (outlierHands.zip outlierEyes) = 4 := by
  classical
  unfold Spec.number
  rw [outlier_zip, List.countP_append, List.countP_map]
  have h1 : ((fun m => decide (Spec.Fits 1 sampleX m)) ∘ fun b => (b, 1 * b * sampleX)) = fun _ => true := by
    funext b
    exact decide_eq_true (outlier_fits b)
  rw [h1, List.countP_true, List.countP_cons, List.countP_nil, if_neg (by simpa using outlier_no_fit)]
  rfl

theorem outlier_hands_unit : ∀ a ∈ outlierHands, Spec.IsUnit a := by
  have h1 : Spec.IsUnit (1 : DQuat) := by rw [DQuat.isUnit_iff]; norm_num [Quat.dot]
  intro a ha
  rcases List.mem_append.mp ha with ha | ha
  · exact bodyPoses_unit a ha
  · rw [List.mem_singleton.mp ha]; exact h1

theorem outlier_eyes_unit : ∀ a ∈ outlierEyes, Spec.IsUnit a := by
  obtain ⟨hX, -, -, hXw⟩ := sample_data
  have h1 : Spec.IsUnit (1 : DQuat) := by rw [DQuat.isUnit_iff]; norm_num [Quat.dot]
  have ht : Spec.IsUnit wrongTurn := by rw [DQuat.isUnit_iff]; norm_num [Quat.dot, wrongTurn]
  intro a ha
  rcases List.mem_append.mp ha with ha | ha
  · obtain ⟨b, hb, rfl⟩ := List.mem_map.mp ha
    exact DQuat.isUnit_mul (DQuat.isUnit_mul h1 (bodyPoses_unit b hb)) hX
  · rw [List.mem_singleton.mp ha]; exact DQuat.isUnit_mul ht hX

theorem outlier_case : ∀ p ∈ outlierHands.zip outlierEyes, (∃ b ∈ bodyPoses, p = (b, 1 * b * sampleX)) ∨ p = (1, wrongTurn * sampleX) := by
  intro p hp
  rw [outlier_zip] at hp
  rcases List.mem_append.mp hp with hp | hp
  · obtain ⟨b, hb, rfl⟩ := List.mem_map.mp hp
    exact Or.inl ⟨b, hb, rfl⟩
  · exact Or.inr (List.mem_singleton.mp hp)

theorem outlier_seen : ∀ p ∈ outlierHands.zip outlierEyes, Spec.Fits 1 sampleX p → ∀ q ∈ outlierHands.zip outlierEyes,
    Spec.Corresponds 1e-2 p q → Spec.Fits 1 sampleX q := by
  intro p hp hpf q hq hpq
  rcases outlier_case q hq with ⟨b, hb, rfl⟩ | rfl
  · exact outlier_fits b
  · rcases outlier_case p hp with ⟨b, hb, rfl⟩ | rfl
    · exact absurd hpq (outlier_disagrees b hb).1
    · exact hpf

theorem outlier_few : ∀ p ∈ outlierHands.zip outlierEyes, ¬ Spec.Fits 1 sampleX p →
    Spec.number (Spec.Corresponds 1e-2 p) (outlierHands.zip outlierEyes) < 4 := by
  classical
  intro p hp hpf
  rcases outlier_case p hp with ⟨b, hb, rfl⟩ | rfl
  · exact absurd (outlier_fits b) hpf
  · unfold Spec.number
    rw [outlier_zip, List.countP_append, List.countP_map]
    have : bodyPoses.countP ((fun m => decide (Spec.Corresponds 1e-2 (1, wrongTurn * sampleX) m)) ∘ fun b => (b, 1 * b * sampleX)) = 0 := by
      rw [List.countP_eq_zero]
      intro b hb
      simpa using (outlier_disagrees b hb).2
    rw [this, zero_add]
    exact lt_of_le_of_lt List.countP_le_length (by simp)

theorem outlier_turns : Spec.TurnsAboutTwoAxes (Spec.handsOf (Spec.Fits 1 sampleX) (outlierHands.zip outlierEyes)) := by
  classical
  obtain ⟨a, ha, b, hb, c, hc, hne⟩ := bodyPoses_turns
  have : ∀ x ∈ bodyPoses, x ∈ Spec.handsOf (Spec.Fits 1 sampleX) (outlierHands.zip outlierEyes) := by
    intro x hx
    refine List.mem_map.mpr ⟨(x, 1 * x * sampleX), List.mem_filter.mpr ⟨?_, decide_eq_true (outlier_fits x)⟩, rfl⟩
    rw [outlier_zip]
    exact List.mem_append_left _ (List.mem_map_of_mem hx)
  exact ⟨a, this a ha, b, this b hb, c, this c hc, hne⟩

/-- RANSAC on these measurements, of which four have to be inliers: the exhaustive search finds the mounting with four inliers,
and so does every random search that ends, which it does after 20 samples without the outlier. -/
example : ∃ svd : Svd, (∀ T s V, svd T = .ok (s, V) → Spec.IsSVD T s V) ∧
    (∀ rng, ∃ r, ransac svd rng { min_num_inliers := 4, prefilter_poses_enabled := false, enable_exhaustive_search := true }
      outlierHands outlierEyes 10 = .ok (some r) ∧ r.dq_H_E = some sampleX ∧ r.num_inliers = 4) ∧
    ∀ rng, (∀ k, Spec.IsSample 5 3 (rng k)) → (∀ fuel r, ransac svd rng { min_num_inliers := 4, prefilter_poses_enabled := false }
      outlierHands outlierEyes fuel = .ok (some r) → r.dq_H_E = some sampleX ∧ r.num_inliers = 4) ∧
      ((∀ k, 4 ∉ rng k) → ∃ r, ransac svd rng { min_num_inliers := 4, prefilter_poses_enabled := false }
        outlierHands outlierEyes 20 = .ok (some r)) := by
  classical
  obtain ⟨hX, -, -, hXw⟩ := sample_data
  have h1 : Spec.IsUnit (1 : DQuat) := by rw [DQuat.isUnit_iff]; norm_num [Quat.dot]
  have ht : Spec.IsUnit wrongTurn := by rw [DQuat.isUnit_iff]; norm_num [Quat.dot, wrongTurn]
  obtain ⟨svd, hv, hgood⟩ := exists_good_svd
  have hl : outlierEyes.length = outlierHands.length := by simp [outlierEyes, outlierHands]
  have hl5 : outlierEyes.length = 5 := by simp [outlierEyes, bodyPoses]
  have hb := outlier_hands_unit
  have hw := outlier_eyes_unit
  have hvis := outlier_seen
  have hfew := outlier_few
  have h2 := outlier_turns
  have hsolve : ∀ B W, Spec.Exact B W sampleX → (∀ b ∈ B, Spec.IsUnit b) → Spec.TwoAxes B →
      B.head? = some ⟨⟨0, 0, 0, 1⟩, ⟨0, 0, 0, 0⟩⟩ → ∃ r, computeHandEyeCalibration svd B W 4e-2 = .ok r :=
    fun B W h1 _ h3 h4 => hgood B W sampleX hX hXw h1 h3 h4 _ (by norm_num)
  have hsign : ∀ dq, Spec.SameUpToSign dq sampleX → 0 ≤ dq.rot.w → dq = sampleX := by
    intro dq h h0
    rcases sameUpToSign_iff.mp h with h | h
    · exact h
    · exfalso
      rw [h] at h0
      norm_num [sampleX] at h0
  refine ⟨svd, hv, fun rng => ?_, fun rng hrng => ⟨fun fuel r hr => ?_, fun h4 => ?_⟩⟩
  · obtain ⟨r, r1, r2⟩ := C91_exhaustive svd hv rng
      { min_num_inliers := 4, prefilter_poses_enabled := false, enable_exhaustive_search := true } rfl 1e-2 rfl (by norm_num) rfl rfl
      1 sampleX h1 hX hXw outlierHands outlierEyes hl hb hw hvis hfew h2 (by rw [outlier_number]) (by norm_num)
      (by rw [outlier_number]; norm_num) (by rw [hl5]; norm_num) hsolve
    rw [hl5] at r1
    obtain ⟨dq, d1, d2, d3, d4, -⟩ := C91_outliers svd hv rng _ rfl 1e-2 rfl (by norm_num) 1 sampleX h1 hX hXw outlierHands outlierEyes
      hb hw hvis hfew h2 _ r r1 r2
    exact ⟨r, r1, by rw [d1, hsign dq d2 d3], by rw [d4, outlier_number]⟩
  · have := C91_random svd hv rng { min_num_inliers := 4, prefilter_poses_enabled := false } rfl 1e-2 rfl (by norm_num) rfl rfl
      (by norm_num) (by norm_num) (by norm_num) (by norm_num)
      1 sampleX h1 hX hXw outlierHands outlierEyes hl hb hw hvis hfew h2 (by rw [outlier_number]) (by norm_num)
      (by rw [hl5]; norm_num) hsolve (by rw [hl5]; exact hrng) fuel
    obtain ⟨dq, d1, d2, d3, d4, -⟩ := C91_outliers svd hv rng _ rfl 1e-2 rfl (by norm_num) 1 sampleX h1 hX hXw outlierHands outlierEyes
      hb hw hvis hfew h2 _ r hr (this.2.2 r hr)
    exact ⟨by rw [d1, hsign dq d2 d3], by rw [d4, outlier_number]⟩
  · refine (C91_random svd hv rng { min_num_inliers := 4, prefilter_poses_enabled := false } rfl 1e-2 rfl (by norm_num) rfl rfl
      (by norm_num) (by norm_num) (by norm_num) (by norm_num)
      1 sampleX h1 hX hXw outlierHands outlierEyes hl hb hw hvis hfew h2 (by rw [outlier_number]) (by norm_num)
      (by rw [hl5]; norm_num) hsolve (by rw [hl5]; exact hrng) 20).1 ?_
    have : ∀ k ∈ List.range 20, (decide (Spec.AllFit 1 sampleX outlierHands outlierEyes (rng k))) = true := by
      intro k _
      refine decide_eq_true fun i hi q hq => ?_
      have hi5 := (hrng k).2.2 i hi
      have hi4 : i ≠ 4 := fun h => h4 k (h ▸ hi)
      have hi' : i < (bodyPoses.map fun b => (b, 1 * b * sampleX)).length := by
        have : bodyPoses.length = 4 := rfl
        rw [List.length_map]
        omega
      rw [outlier_zip, List.getElem?_append_left hi'] at hq
      obtain ⟨b, -, rfl⟩ := List.mem_map.mp (List.mem_of_getElem? hq)
      exact outlier_fits b
    rw [List.countP_eq_length.mpr this, List.length_range]

end HandEye
