import Verif.Props.Ransac11
import Verif.Props.Ransac5Example

/-! # Property C107, examples: noisy measurements, and a search that cannot succeed -/

namespace HandEye

theorem scalarParts_same {b w : DQuat} (h : SameScalars b w) : Spec.scalarParts b = Spec.scalarParts w := by
  obtain ⟨h1, h2⟩ := h
  unfold Spec.scalarParts
  rw [h1, h2]

theorem identity_conj_mul (a : DQuat) : DQuat.identity.conj * a = a := by
  apply DQuat.ext' <;> ext <;> simp [DQuat.identity]

theorem wobbly_corresponds {η w : ℝ} : ∀ q ∈ (wobblyHands η w).zip (wobblyEyes η w), Spec.Corresponds 1e-2 (DQuat.identity, DQuat.identity) q := by
  intro q hq
  have h : ∀ b w' : DQuat, SameScalars b w' → Spec.Corresponds 1e-2 (DQuat.identity, DQuat.identity) (b, w') := by
    intro b w' hs
    unfold Spec.Corresponds
    simp only [identity_conj_mul]
    rw [scalarParts_same hs]
    simp only [sub_self, abs_zero]
    constructor <;> positivity
  simp only [wobblyHands, wobblyEyes, List.zip_cons_cons, List.zip_nil_right, List.mem_cons, List.not_mem_nil, or_false] at hq
  rcases hq with h' | h' | h' | h' | h' | h' | h' <;> rw [h'] <;> exact h _ _ ⟨rfl, rfl⟩

theorem wobbly_number {η w : ℝ} :
    Spec.number (Spec.Corresponds 1e-2 (DQuat.identity, DQuat.identity)) ((wobblyHands η w).zip (wobblyEyes η w)) = 7 := by
  classical
  unfold Spec.number
  rw [List.countP_eq_length.mpr fun q hq => decide_eq_true (wobbly_corresponds q hq)]
  rfl

theorem wobbly_group {η w : ℝ} (hw : 0 < w) :
    Spec.group 1e-2 ((wobblyHands η w).zip (wobblyEyes η w)) 0 (DQuat.identity, DQuat.identity) = (wobblyHands η w).zip (wobblyEyes η w) := by
  classical
  unfold Spec.group
  rw [List.drop_zero, List.take_zero, List.append_nil, List.filter_eq_self.mpr fun q hq => decide_eq_true (wobbly_corresponds q hq)]
  refine (List.map_congr_left (g := id) fun q hq => ?_).trans (List.map_id _)
  have : 0 ≤ q.1.rot.w ∧ 0 ≤ q.2.rot.w := by
    simp only [wobblyHands, wobblyEyes, List.zip_cons_cons, List.zip_nil_right, List.mem_cons, List.not_mem_nil, or_false] at hq
    rcases hq with h' | h' | h' | h' | h' | h' | h' <;> rw [h'] <;> norm_num [DQuat.identity] <;> exact hw.le
  dsimp only [id]
  unfold Spec.relative
  rw [identity_conj_mul, identity_conj_mul, if_neg (not_lt.mpr this.1), if_neg (not_lt.mpr this.2)]

theorem wobbly_noise {η w : ℝ} (h0 : 0 < η) (h1 : η ≤ 1 / 10) (hw : 0 < w) (h : w ^ 2 = 16 / 25 - η ^ 2 / 4) :
    ∀ q ∈ (wobblyHands η w).zip (wobblyEyes η w), Spec.NoisyFit η twoMetres (DQuat.identity, DQuat.identity) q := by
  obtain ⟨n1, n2⟩ := wobbly_near h0 h1 hw h
  have he := wobbly_exact
  have hl : ∀ h ∈ wobblyHands 0 (4 / 5), η < |h.rot.w| := by
    intro h hh
    simp only [wobblyHands, List.mem_cons, List.not_mem_nil, or_false] at hh
    rcases hh with h' | h' | h' | h' | h' | h' | h' <;> rw [h'] <;> norm_num [DQuat.identity] <;> linarith
  have key : ∀ (B W B₀ W₀ : List DQuat), List.Forall₂ (Spec.NearDQ η) B B₀ → List.Forall₂ (Spec.NearDQ η) W W₀ → Spec.Exact B₀ W₀ twoMetres →
      (∀ h ∈ B₀, η < |h.rot.w|) → ∀ q ∈ B.zip W, Spec.NoisyFit η twoMetres (DQuat.identity, DQuat.identity) q := by
    intro B W B₀ W₀ b1
    induction b1 generalizing W W₀ with
    | nil => intro _ _ _ q hq; simp at hq
    | cons c _ ih =>
      intro b2 b3 b4 q hq
      cases b3 with
      | cons e b3 =>
        cases b2 with
        | cons d b2 =>
          rw [List.zip_cons_cons] at hq
          rcases List.mem_cons.mp hq with rfl | hq
          · refine ⟨_, _, e, Or.inl ?_, Or.inl ?_, b4 _ List.mem_cons_self⟩ <;> rw [identity_conj_mul] <;> assumption
          · exact ih _ _ b2 b3 (fun h hh => b4 h (List.mem_cons_of_mem _ hh)) q hq
  exact key _ _ _ _ n1 n2 he hl

/-- Seven measurements with errors of 1/200 in which the rotation axes wobble: with every correct linear algebra library, every sample that begins with the first
measurement leads to a calibration, so the exhaustive search succeeds. -/
example : ∃ bs ws : List DQuat, bs.length = 7 ∧ ws.length = 7 ∧ ∀ svd : Svd, (∀ T s V, svd T = .ok (s, V) → Spec.IsSVD T s V) →
    (∀ T, 8 ≤ T.length → ∃ p, svd T = .ok p) → ∀ rng, ∃ r,
      ransac svd rng { min_num_inliers := 7, prefilter_poses_enabled := false, enable_exhaustive_search := true } bs ws 35 = .ok (some r) ∧
      r.success = true := by
  obtain ⟨w, hw, hw2⟩ : ∃ w : ℝ, 0 < w ∧ w ^ 2 = 16 / 25 - (1 / 200) ^ 2 / 4 :=
    ⟨Real.sqrt (16 / 25 - (1 / 200) ^ 2 / 4), Real.sqrt_pos.mpr (by norm_num), Real.sq_sqrt (by norm_num)⟩
  refine ⟨wobblyHands (1 / 200) w, wobblyEyes (1 / 200) w, rfl, rfl, fun svd hsvd htot rng => ?_⟩
  obtain ⟨hu1, hu2⟩ := wobbly_unit hw hw2
  set cfg : HandEyeConfig := { min_num_inliers := 7, prefilter_poses_enabled := false, enable_exhaustive_search := true } with hcfg
  set ms := (wobblyHands (1 / 200) w).zip (wobblyEyes (1 / 200) w) with hms
  have hX : Spec.IsUnit twoMetres := by rw [DQuat.isUnit_iff]; norm_num [twoMetres, Quat.dot]
  obtain ⟨T, hT, h⟩ := C106_ransac_partial svd cfg 1e-2 (by norm_num) (1 / 200) (by norm_num) twoMetres hX ms
    (fun q hq => ⟨hu1 _ (List.of_mem_zip hq).1, hu2 _ (List.of_mem_zip hq).2⟩) 0 (DQuat.identity, DQuat.identity) rfl
    (fun q hq _ => wobbly_noise (by norm_num) (by norm_num) hw hw2 q hq) (by rw [hms, wobbly_number])
    (by norm_num [hcfg]) (by norm_num)
  rw [hms, wobbly_group hw, List.map_fst_zip (by rfl), List.map_snd_zip (by rfl)] at hT
  have hlen := setupTMatrix_length hT
  have h8 : 8 ≤ T.length := by rw [hlen]; simp [wobblyHands]
  obtain ⟨⟨s, V⟩, hsv⟩ := htot T h8
  have hIs := hsvd _ _ _ hsv
  obtain ⟨s5, s6, ⟨x, f, g, hx, hf, hf', hg, hg', e6⟩, z, k, hz, e7⟩ := wobbly_rows (by norm_num) (by norm_num) hT hIs
  have hsl : s.length = 8 := by rw [hIs.length, hlen]; simp [wobblyHands]
  have hd : s[5]? = some (s.getD 5 0) := by
    rw [List.getElem?_eq_getElem (by omega)]
    simp [List.getD_eq_getElem?_getD, hsl]
  have hlead := h s V hsv hIs _ hd (by linarith) (by
      have h7 : Real.sqrt ((7 : ℕ) : ℝ) ≤ 3 := by rw [Real.sqrt_le_left (by norm_num)]; norm_num
      have e2 : Spec.translationLength twoMetres ^ 2 = 4 := by norm_num [Spec.translationLength, twoMetres]
      rw [hms, wobbly_number, e2, div_mul_eq_mul_div, div_le_iff₀ (by linarith)]
      push_cast at h7 ⊢
      linarith) (by
      have e : ∑ i : Fin 4, V 6 (Fin.castAdd 4 i) * V 6 (Fin.natAdd 4 i) = V 6 0 * V 6 4 + V 6 1 * V 6 5 + V 6 2 * V 6 6 + V 6 3 * V 6 7 := by
        rw [Fin.sum_univ_four]; rfl
      rw [e, e6]
      simp
      exact ⟨⟨hf.ne', hx⟩, hg.ne', hf.ne', hx⟩) [0, 1, 2] rfl (fun i _ q hq => wobbly_corresponds q (List.mem_of_getElem? hq))
  obtain ⟨r, r1, r2⟩ := C107_exhaustive svd rng cfg rfl 1e-2 rfl (by norm_num) rfl (wobblyHands (1 / 200) w) (wobblyEyes (1 / 200) w)
    _ _ rfl hu1 hu2 (unfiltered rfl _ _) (by norm_num [hcfg]) (by simp [hcfg, wobblyEyes])
  refine ⟨r, r1, r2.mpr ⟨[0, 1, 2], by simp, by simp [wobblyEyes], rfl, hlead⟩⟩

/-- With an outlier among five measurements, five inliers are required and so no sample leads to a calibration: the exhaustive search ends without success, and
the random search does not end, whatever is drawn. -/
example : ∀ svd : Svd, ∀ rng, (∀ k, Spec.IsSample 5 3 (rng k)) →
    (∃ r, ransac svd rng { min_num_inliers := 5, prefilter_poses_enabled := false, enable_exhaustive_search := true } outlierHands outlierEyes 10 =
      .ok (some r) ∧ r.success = false) ∧
    ∀ fuel, ransac svd rng { min_num_inliers := 5, prefilter_poses_enabled := false } outlierHands outlierEyes fuel = .ok none := by
  classical
  intro svd rng hrng
  have hl : outlierEyes.length = outlierHands.length := by simp [outlierEyes, outlierHands]
  have hl5 : outlierEyes.length = 5 := by simp [outlierEyes, bodyPoses]
  have hno : ∀ cfg : HandEyeConfig, cfg.min_num_inliers = 5 → ∀ s, ¬ Spec.LeadsToCalibration svd cfg 1e-2 (outlierHands.zip outlierEyes) (outlierHands.zip outlierEyes) s := by
    rintro cfg hc s ⟨k, -, p, -, -, hp, -, hmin, -⟩
    have hpm := List.mem_of_getElem? hp
    have hlen : (outlierHands.zip outlierEyes).length = 5 := by rw [List.length_zip, ← hl, hl5]; rfl
    have hall : ∀ q ∈ outlierHands.zip outlierEyes, Spec.Corresponds 1e-2 p q := by
      have : Spec.number (Spec.Corresponds 1e-2 p) (outlierHands.zip outlierEyes) = (outlierHands.zip outlierEyes).length :=
        le_antisymm List.countP_le_length (by rw [hlen, ← hc]; exact hmin)
      intro q hq
      exact of_decide_eq_true (List.countP_eq_length.mp this q hq)
    rcases outlier_case p hpm with ⟨b, hb, rfl⟩ | rfl
    · exact (outlier_disagrees b hb).1 (hall _ (by rw [outlier_zip]; simp))
    · have hb : (DQuat.mk ⟨0, 0, 0, 1⟩ ⟨0, 0, 0, 0⟩) ∈ bodyPoses := by simp [bodyPoses]
      exact (outlier_disagrees _ hb).2 (hall _ (by rw [outlier_zip]; exact List.mem_append_left _ (List.mem_map_of_mem hb)))
  refine ⟨?_, fun fuel => ?_⟩
  · obtain ⟨r, r1, r2⟩ := C107_exhaustive svd rng { min_num_inliers := 5, prefilter_poses_enabled := false, enable_exhaustive_search := true } rfl
      1e-2 rfl (by norm_num) rfl outlierHands outlierEyes _ _ hl outlier_hands_unit outlier_eyes_unit (unfiltered rfl _ _) (by norm_num) (by rw [hl5]; norm_num)
    rw [hl5] at r1
    refine ⟨r, r1, ?_⟩
    rw [← Bool.not_eq_true, r2]
    rintro ⟨s, -, -, -, hs⟩
    exact hno _ rfl s hs
  · exact (C107_random svd rng { min_num_inliers := 5, prefilter_poses_enabled := false } rfl 1e-2 rfl (by norm_num) rfl (by norm_num)
      (by norm_num) (by norm_num) (by norm_num) outlierHands outlierEyes _ _ hl outlier_hands_unit outlier_eyes_unit (unfiltered rfl _ _) (by rw [hl5]; norm_num) (by norm_num) (by rw [hl5]; norm_num)
      (by rw [hl5]; exact hrng) fuel).2.2 fun k _ => hno _ rfl _

/-- Whatever the linear algebra library does, and in both modes, RANSAC raises no exception on the measurements with an outlier. -/
example (svd : Svd) (rng : ℕ → List ℕ) (hrng : ∀ k, Spec.IsSample 5 3 (rng k)) (fuel : ℕ) :
    (∃ o, ransac svd rng { prefilter_poses_enabled := false } outlierHands outlierEyes (fuel + 1) = .ok o) ∧
    ∃ o, ransac svd rng { prefilter_poses_enabled := false, ransac_inlier_classification := .rmseThreshold } outlierHands outlierEyes (fuel + 1) = .ok o := by
  have hl : outlierEyes.length = outlierHands.length := by simp [outlierEyes, outlierHands]
  have hl5 : outlierEyes.length = 5 := by simp [outlierEyes, bodyPoses]
  constructor
  · rcases C107_no_exception svd rng { prefilter_poses_enabled := false } (Or.inl ⟨rfl, by norm_num⟩) (by norm_num) (by norm_num) (by norm_num)
      (by norm_num) (by norm_num) outlierHands outlierEyes hl outlier_hands_unit outlier_eyes_unit (by rw [hl5]; norm_num) fuel with
      ⟨h, -⟩ | ⟨bf, wf, h1, -, -, h4, -, h6⟩
    · cases h
    · obtain ⟨rfl, rfl⟩ := h4 rfl
      exact h6 (Or.inl (by rw [hl5]; norm_num)) (Or.inl (by rw [hl5]; exact hrng))
  · rcases C107_no_exception svd rng { prefilter_poses_enabled := false, ransac_inlier_classification := .rmseThreshold }
      (Or.inr ⟨rfl, by norm_num, by norm_num, by norm_num⟩) (by norm_num) (by norm_num) (by norm_num) (by norm_num) (by norm_num)
      outlierHands outlierEyes hl outlier_hands_unit outlier_eyes_unit (by rw [hl5]; norm_num) fuel with
      ⟨h, -⟩ | ⟨bf, wf, h1, -, -, h4, -, h6⟩
    · cases h
    · obtain ⟨rfl, rfl⟩ := h4 rfl
      exact h6 (Or.inl (by rw [hl5]; norm_num)) (Or.inl (by rw [hl5]; exact hrng))

end HandEye
