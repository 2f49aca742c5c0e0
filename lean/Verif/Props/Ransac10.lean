import Verif.Props.Ransac8
import Verif.Props.Noise
import Verif.Spec.NoisyMeasurements

/-! # Property C104: the error of the calibration that RANSAC reports, for noisy measurements with outliers -/

namespace HandEye

theorem nearDQ_neg {η : ℝ} {a h : DQuat} (hn : Spec.NearDQ η (-a) h) : Spec.NearDQ η a (-h) := by
  unfold Spec.NearDQ at hn ⊢
  simp only [Fin.sum_univ_eight, Spec.vec8] at hn ⊢
  simp at hn ⊢
  linarith

/-- A measurement and its negative. -/
theorem near_seen {η : ℝ} {a b h : DQuat} (hb : b = a ∨ b = -a) (hn : Spec.NearMotion η a h) :
    ∃ h', (h' = h ∨ h' = -h) ∧ Spec.NearDQ η b h' := by
  rcases hb with hb | hb <;> rcases hn with hn | hn <;> rw [hb]
  · exact ⟨h, Or.inl rfl, hn⟩
  · exact ⟨-h, Or.inr rfl, nearDQ_neg hn⟩
  · refine ⟨-h, Or.inr rfl, nearDQ_neg ?_⟩
    rwa [neg_neg]
  · exact ⟨h, Or.inl rfl, hn⟩

/-- The inliers, seen from the first measurement, as measurements of exact data. -/
theorem noisy_group {η : ℝ} {X : DQuat} {p : DQuat × DQuat} (S : List (DQuat × DQuat)) (h : ∀ q ∈ S, Spec.NoisyFit η X p q) :
    ∃ bs₀ ws₀, Spec.Exact bs₀ ws₀ X ∧ Spec.Measured true η bs₀ ws₀ ((S.map (seen p)).map Prod.fst) ((S.map (seen p)).map Prod.snd) := by
  induction S with
  | nil => exact ⟨[], [], .nil, .nil, .nil, by simp⟩
  | cons q S ih =>
    obtain ⟨bs₀, ws₀, h1, h2⟩ := ih fun r hr => h r (List.mem_cons_of_mem _ hr)
    obtain ⟨m, e, g1, g2, g3, g4⟩ := h q List.mem_cons_self
    obtain ⟨m', s1, n1⟩ := near_seen (rebase_eq_or p.1.conj q.1 true) g2
    obtain ⟨e', s2, n2⟩ := near_seen (rebase_eq_or p.2.conj q.2 true) g3
    rw [handEyeEq_iff] at g1
    have hw : |m'.rot.w| = |m.rot.w| := by
      rcases s1 with rfl | rfl
      · rfl
      · exact abs_neg _
    have key : ∃ e'', m' * X = X * e'' ∧ (Spec.NearDQ η (seen p q).2 e'' ∨
        (true = true ∧ ∑ j, (Spec.vec8 (seen p q).2 j + Spec.vec8 e'' j) ^ 2 ≤ η ^ 2)) := by
      have hflip : ∀ a : DQuat, Spec.NearDQ η (seen p q).2 (-a) → ∑ j, (Spec.vec8 (seen p q).2 j + Spec.vec8 a j) ^ 2 ≤ η ^ 2 := by
        intro a ha
        unfold Spec.NearDQ at ha
        simp only [Fin.sum_univ_eight, Spec.vec8] at ha ⊢
        simpa using ha
      rcases s1 with rfl | rfl
      · refine ⟨e, g1, ?_⟩
        rcases s2 with rfl | rfl
        · exact Or.inl n2
        · exact Or.inr ⟨rfl, hflip _ n2⟩
      · refine ⟨-e, by rw [neg_mul, g1, mul_neg], ?_⟩
        rcases s2 with rfl | rfl
        · exact Or.inr ⟨rfl, hflip _ (by rwa [neg_neg])⟩
        · exact Or.inl n2
    obtain ⟨e'', k1, k2⟩ := key
    refine ⟨m' :: bs₀, e'' :: ws₀, .cons (handEyeEq_iff.mpr k1) h1, .cons n1 h2.hand, .cons k2 h2.eye, fun _ => ?_⟩
    rw [List.forall_mem_cons]
    exact ⟨by rw [hw]; exact g4, h2.turns rfl⟩

/-- The measurements that a candidate is computed from: the one at which the trajectories are aligned, and others that correspond to it. -/
theorem candidate_selection {svd : Svd} {rng : ℕ → List ℕ} {cfg : HandEyeConfig} {tol : ℝ}
    (hmode : cfg.ransac_inlier_classification = .scalarPartEquality ∨
      cfg.ransac_inlier_classification = .rmseThreshold ∧ cfg.ransac_model_refinement = true)
    (ht : cfg.ransac_sample_rejection_scalar_part_equality_tolerance = tol) (htol : 0 ≤ tol)
    {bs ws : List DQuat} (hb : ∀ a ∈ bs, Spec.IsUnit a) (hw : ∀ a ∈ ws, Spec.IsUnit a)
    {fuel : ℕ} {r : CalibrationResult} (h : ransac svd rng cfg bs ws fuel = .ok (some r)) (hs : r.success = true) :
    ∃ (p : DQuat × DQuat) (S : List (DQuat × DQuat)) (cal : Calibration), p ∈ bs.zip ws ∧ S.Subperm (bs.zip ws) ∧ (∀ q ∈ S, Spec.Corresponds tol p q) ∧ S.length = r.num_inliers ∧
      cfg.min_num_inliers ≤ S.length ∧
      tryCalibration svd cfg.hand_eye_calibration_scalar_part_equality_tolerance ((S.map (seen p)).map Prod.fst) ((S.map (seen p)).map Prod.snd) =
        some cal ∧ r.dq_H_E = some cal.dq_H_E ∧ r.singular_values = some cal.singular_values ∧ r.bad_singular_values = cal.bad_singular_values := by
  classical
  obtain ⟨hl, -⟩ := ransac_some h
  obtain ⟨bf, wf, samples, outs, c, h1, hco, hc, e1, e2, e3, e4, e5, e6, -⟩ :=
    C37_best_candidate svd rng cfg bs ws fuel r h hs
  obtain ⟨n, hn⟩ := List.getElem?_of_mem hc
  have hlt : n < outs.length := (List.getElem?_eq_some_iff.mp hn).1
  have hz := List.forall₂_iff_get.mp hco.outcomes
  have hsn : n < samples.length := by rw [hz.1]; exact hlt
  have hev := hz.2 n hsn hlt
  simp only [List.get_eq_getElem] at hev
  rw [(List.getElem?_eq_some_iff.mp hn).2] at hev
  obtain ⟨sB, sW, i0, aB, aW, k, -, -, a1, a2, a3, a4⟩ := evaluateSample_candidate hev
  have hi0 : i0 < bs.length := by
    by_contra hcon
    rw [align_index_error] at a1
    · cases a1
    · unfold pyPos
      rw [if_pos (by omega), if_neg (by simpa using hcon)]
  obtain ⟨p, hp⟩ : ∃ p, (bs.zip ws)[i0]? = some p := ⟨_, List.getElem?_eq_getElem (by rw [List.length_zip]; omega)⟩
  have hpm := List.mem_of_getElem? hp
  obtain ⟨b1, b2⟩ := align_measurements hl hb hw hp
  rw [a1] at b1
  rw [a2] at b2
  cases b1
  cases b2
  obtain ⟨cal, pB, pW, fl, r1, -, -, -, r5, r6, r7, r8, r9⟩ := buildCandidate_some a4
  have key : ∃ S : List (DQuat × DQuat), S.Subperm (bs.zip ws) ∧ (∀ q ∈ S, Spec.Corresponds tol p q) ∧
      compress k.aligned_dq_B_H k.inlier_flags = (S.map (seen p)).map Prod.fst ∧
      compress ((turned bs ws i0).map fun q => rebase p.2.conj true q.2) k.inlier_flags = (S.map (seen p)).map Prod.snd ∧
      (cfg.ransac_model_refinement = true ∨ k.initial = none) := by
    rcases hmode with hmode | ⟨hmode, href⟩
    · rw [classify_measurements hmode ht htol] at a3
      cases a3
      obtain ⟨c1, c2⟩ := agreeing_inliers tol bs ws i0 p
      refine ⟨(turned bs ws i0).filter fun q => decide (Spec.Corresponds tol p q),
        (List.filter_sublist (l := turned bs ws i0)).subperm.trans (List.rotate_perm _ _).subperm,
        fun q hq => of_decide_eq_true (List.mem_filter.mp hq).2, c1, c2, Or.inr rfl⟩
    · unfold classify at a3
      rw [hmode] at a3
      obtain ⟨S, s1, s2, s3, s4⟩ := selected ht htol hb hp a3
      exact ⟨p :: S, s1, s2, s3, s4, Or.inl href⟩
  obtain ⟨S, s1, s2, s3, s4, s5⟩ := key
  rw [s3, s4] at r1
  rw [s3, List.length_map, List.length_map] at r6
  refine ⟨p, S, cal, hpm, s1, s2, by rw [e3, r6], by rw [← r6]; exact r7, ?_, by rw [e1, r5], by rw [e5, r8], by rw [e6, r9]⟩
  unfold refine at r1
  rcases s5 with s5 | s5
  · rw [s5] at r1
    exact r1
  · rw [s5] at r1
    cases hr : cfg.ransac_model_refinement <;> rw [hr] at r1 <;> exact r1

/-- C104: whatever the outliers are and whatever is drawn, in both modes of the classification, the error of the calibration that RANSAC
reports is bounded by the noise and by numbers that RANSAC reports (the number of inliers n, the sixth singular value σ and the
translation t), if only this holds: seen from a measurement to which at least `min_num_inliers` measurements correspond (in
their scalar parts), these fit the mounting with an error of at most η.  The rotation is off by an angle whose half has a sine of
at most `4 η √n / σ · √(1 + |t|² / 4)`; for small noise the calibration is a rigid motion; and then every point is moved to near where it
should be. -/
theorem C104_accuracy (svd : Svd) (hsvd : ∀ T s V, svd T = .ok (s, V) → Spec.IsSVD T s V)
    (rng : ℕ → List ℕ) (cfg : HandEyeConfig) (tol : ℝ)
    (hmode : cfg.ransac_inlier_classification = .scalarPartEquality ∨
      cfg.ransac_inlier_classification = .rmseThreshold ∧ cfg.ransac_model_refinement = true)
    (ht : cfg.ransac_sample_rejection_scalar_part_equality_tolerance = tol) (htol : 0 ≤ tol)
    (η : ℝ) (hη : 0 ≤ η) (X : DQuat) (hX : Spec.IsUnit X)
    (bs ws : List DQuat) (hb : ∀ a ∈ bs, Spec.IsUnit a) (hw : ∀ a ∈ ws, Spec.IsUnit a)
    (hnoise : ∀ p ∈ bs.zip ws, cfg.min_num_inliers ≤ Spec.number (Spec.Corresponds tol p) (bs.zip ws) →
      ∀ q ∈ bs.zip ws, Spec.Corresponds tol p q → Spec.NoisyFit η X p q)
    (fuel : ℕ) (r : CalibrationResult) (h : ransac svd rng cfg bs ws fuel = .ok (some r)) (hs : r.success = true) :
    ∃ dq sv, r.dq_H_E = some dq ∧ r.singular_values = some sv ∧ ∀ σ, sv[5]? = some σ → 0 < σ →
      1 - Spec.cosHalf dq.rot X.rot ^ 2 ≤
        (4 * η * Real.sqrt r.num_inliers / σ) ^ 2 * (1 + Spec.translationLength dq ^ 2 / 4) ∧
      (4 * η * Real.sqrt r.num_inliers / σ * (2 + Spec.translationLength X ^ 2 / 4) ≤ 1 / 2 → Spec.IsUnit dq) ∧
      ∀ ρ, Spec.IsUnit dq → ρ = 4 * η * Real.sqrt r.num_inliers / σ * Real.sqrt (1 + Spec.translationLength dq ^ 2 / 4) → ρ ≤ 1 / 2 → ∀ p : Vec3,
        Spec.dist (Spec.motion dq p) (Spec.motion X p) ≤
          ρ * (2 * Spec.dist p ⟨0, 0, 0⟩ + 4 + 3 * Spec.translationLength X + 2 * Spec.translationLength dq) := by
  obtain ⟨p, S, cal, hp, s1, s2, s3, s4, s5, s6, s7, -⟩ := candidate_selection hmode ht htol hb hw h hs
  have hnum : cfg.min_num_inliers ≤ Spec.number (Spec.Corresponds tol p) (bs.zip ws) := s4.trans (number_ge s1 s2)
  obtain ⟨bs₀, ws₀, m1, m2⟩ := noisy_group (p := p) S fun q hq => hnoise p hp hnum q (s1.subset hq) (s2 q hq)
  obtain ⟨c0, t1, t2, t3, -⟩ := tryCalibration_some s5
  have hn := Quat.norm_eq_one.mp (C29_returned_calibration svd _ _ _ _ c0 t1).1
  rw [DQuat.normalize_unit hn] at t2
  have hdq : cal.dq_H_E = c0.dq_H_E := (Except.ok.inj t2).symm
  have hlen : ((S.map (seen p)).map Prod.fst).length = r.num_inliers := by rw [List.length_map, List.length_map, s3]
  refine ⟨cal.dq_H_E, cal.singular_values, s6, s7, fun σ hσ hσ0 => ?_⟩
  rw [t3] at hσ
  rw [hdq, ← hlen]
  refine ⟨C85_rotation_error_partial svd hsvd η hη X hX true _ _ bs₀ ws₀ m1 m2 _ c0 t1 σ hσ0 hσ,
    C85_rigid_partial svd hsvd η hη X hX true _ _ bs₀ ws₀ m1 m2 _ c0 t1 σ hσ0 hσ, fun ρ hu hρ hρ2 x => ?_⟩
  exact C85_motion_error_partial svd hsvd η hη X hX true _ _ bs₀ ws₀ m1 m2 _ c0 t1 hu σ hσ0 hσ ρ hρ hρ2 x

open Quaternion in
theorem nearDQ_iff {η : ℝ} {a b : DQuat} : Spec.NearDQ η a b ↔ ‖a.rot.toH - b.rot.toH‖ ^ 2 + ‖a.dual.toH - b.dual.toH‖ ^ 2 ≤ η ^ 2 := by
  unfold Spec.NearDQ
  rw [sq ‖a.rot.toH - b.rot.toH‖, sq ‖a.dual.toH - b.dual.toH‖, ← normSq_eq_norm_mul_self, ← normSq_eq_norm_mul_self, normSq_def', normSq_def']
  simp only [Fin.sum_univ_eight, Spec.vec8]
  simp only [Quaternion.re_sub, Quaternion.imI_sub, Quaternion.imJ_sub, Quaternion.imK_sub, Quat.toH_re, Quat.toH_imI, Quat.toH_imJ, Quat.toH_imK]
  simp
  constructor <;> intro h <;> linarith

theorem translationLength_norm (a : DQuat) : Spec.translationLength a = 2 * ‖a.dual.toH‖ := by
  unfold Spec.translationLength
  congr 1
  rw [Real.sqrt_eq_iff_mul_self_eq (by positivity) (norm_nonneg _), ← Quaternion.normSq_eq_norm_mul_self, Quat.normSq_toH]
  simp only [Quat.dot]
  ring

/-- A motion between two poses that are measured with an error. -/
theorem near_between {κ L : ℝ} (hκ : 0 ≤ κ) {h δ ε : DQuat} (hh : Spec.IsUnit h) (hδ : Spec.IsUnit δ) (hε : Spec.IsUnit ε)
    (h1 : Spec.NearDQ κ δ ⟨⟨0, 0, 0, 1⟩, ⟨0, 0, 0, 0⟩⟩) (h2 : Spec.NearDQ κ ε ⟨⟨0, 0, 0, 1⟩, ⟨0, 0, 0, 0⟩⟩)
    (hL : Spec.translationLength h ≤ L) : Spec.NearDQ (κ * (2 + L)) (δ.conj * h * ε) h := by
  obtain ⟨nh, -⟩ := isUnit_norm hh
  obtain ⟨nδ, -⟩ := isUnit_norm hδ
  obtain ⟨nε, -⟩ := isUnit_norm hε
  rw [translationLength_norm] at hL
  rw [nearDQ_iff] at h1 h2 ⊢
  have one : (⟨0, 0, 0, 1⟩ : Quat).toH = 1 := Quat.toH_one
  have zero : (⟨0, 0, 0, 0⟩ : Quat).toH = 0 := Quat.toH_zero
  simp only [one, zero, sub_zero] at h1 h2
  have er : (δ.conj * h * ε).rot.toH - h.rot.toH = (star δ.rot.toH - 1) * h.rot.toH * ε.rot.toH + h.rot.toH * (ε.rot.toH - 1) := by
    simp only [DQuat.mul_rot, DQuat.conj_rot, Quat.toH_mul, Quat.toH_conj]
    noncomm_ring
  have ed : (δ.conj * h * ε).dual.toH - h.dual.toH = star δ.dual.toH * h.rot.toH * ε.rot.toH + (star δ.rot.toH - 1) * h.dual.toH * ε.rot.toH +
      h.dual.toH * (ε.rot.toH - 1) + star δ.rot.toH * h.rot.toH * ε.dual.toH := by
    simp only [DQuat.mul_rot, DQuat.conj_rot, DQuat.mul_dual, DQuat.conj_dual, Quat.toH_mul, Quat.toH_conj, Quat.toH_add]
    noncomm_ring
  have hs : ‖star δ.rot.toH - 1‖ = ‖δ.rot.toH - 1‖ := by
    rw [← norm_star (δ.rot.toH - 1), star_sub, star_one]
  have br : ‖(δ.conj * h * ε).rot.toH - h.rot.toH‖ ≤ ‖δ.rot.toH - 1‖ + ‖ε.rot.toH - 1‖ := by
    rw [er]
    refine (norm_add_le _ _).trans ?_
    rw [norm_mul, norm_mul, norm_mul, hs, nh, nε]
    linarith
  have bd : ‖(δ.conj * h * ε).dual.toH - h.dual.toH‖ ≤ ‖δ.dual.toH‖ + ‖δ.rot.toH - 1‖ * ‖h.dual.toH‖ + ‖h.dual.toH‖ * ‖ε.rot.toH - 1‖ + ‖ε.dual.toH‖ := by
    rw [ed]
    refine (norm_add_le _ _).trans (add_le_add ((norm_add_le _ _).trans (add_le_add ((norm_add_le _ _).trans (add_le_add ?_ ?_)) ?_)) ?_)
    · rw [norm_mul, norm_mul, norm_star, nh, nε, mul_one, mul_one]
    · rw [norm_mul, norm_mul, hs, nε, mul_one]
    · rw [norm_mul]
    · rw [norm_mul, norm_mul, norm_star, nh, nδ, one_mul, one_mul]
  have n1 := norm_nonneg (δ.rot.toH - 1)
  have n2 := norm_nonneg (ε.rot.toH - 1)
  have n3 := norm_nonneg δ.dual.toH
  have n4 := norm_nonneg ε.dual.toH
  have n5 := norm_nonneg h.dual.toH
  generalize ‖δ.rot.toH - 1‖ = x at *
  generalize ‖ε.rot.toH - 1‖ = y at *
  generalize ‖δ.dual.toH‖ = x' at *
  generalize ‖ε.dual.toH‖ = y' at *
  generalize ‖h.dual.toH‖ = l at *
  have hL' : κ * (2 + 2 * l) ≤ κ * (2 + L) := mul_le_mul_of_nonneg_left (by linarith) hκ
  refine le_trans ?_ (pow_le_pow_left₀ (by positivity) hL' 2)
  refine (add_le_add (pow_le_pow_left₀ (norm_nonneg _) br 2) (pow_le_pow_left₀ (norm_nonneg _) bd 2)).trans ?_
  have a1 : x ^ 2 + (x' + x * l) ^ 2 ≤ (κ * (1 + l)) ^ 2 := by
    have q1 : 0 ≤ (κ ^ 2 - x ^ 2 - x' ^ 2) * l := mul_nonneg (by linarith) n5
    have q2 : 0 ≤ (x - x') ^ 2 * l := mul_nonneg (sq_nonneg _) n5
    have q3 : 0 ≤ (κ ^ 2 - x ^ 2 - x' ^ 2) * l ^ 2 := mul_nonneg (by linarith) (sq_nonneg _)
    have q4 : 0 ≤ (x' * l) ^ 2 := sq_nonneg _
    have q5 : 0 ≤ κ ^ 2 * l := by positivity
    nlinarith
  have a2 : y ^ 2 + (y' + y * l) ^ 2 ≤ (κ * (1 + l)) ^ 2 := by
    have q1 : 0 ≤ (κ ^ 2 - y ^ 2 - y' ^ 2) * l := mul_nonneg (by linarith) n5
    have q2 : 0 ≤ (y - y') ^ 2 * l := mul_nonneg (sq_nonneg _) n5
    have q3 : 0 ≤ (κ ^ 2 - y ^ 2 - y' ^ 2) * l ^ 2 := mul_nonneg (by linarith) (sq_nonneg _)
    have q4 : 0 ≤ (y' * l) ^ 2 := sq_nonneg _
    have q5 : 0 ≤ κ ^ 2 * l := by positivity
    nlinarith
  nlinarith [sq_nonneg (x - y), sq_nonneg (x' + x * l - (y' + y * l))]

theorem near_motion_of_measured {κ L : ℝ} (hκ : 0 ≤ κ) {a b A B δ ε : DQuat} (hA : Spec.IsUnit A) (hB : Spec.IsUnit B) (hδ : Spec.IsUnit δ)
    (hε : Spec.IsUnit ε) (h1 : Spec.NearDQ κ δ ⟨⟨0, 0, 0, 1⟩, ⟨0, 0, 0, 0⟩⟩) (h2 : Spec.NearDQ κ ε ⟨⟨0, 0, 0, 1⟩, ⟨0, 0, 0, 0⟩⟩)
    (hL : Spec.translationLength (A.conj * B) ≤ L) (ha : Spec.SameUpToSign a (A * δ)) (hb : Spec.SameUpToSign b (B * ε)) :
    Spec.NearMotion (κ * (2 + L)) (a.conj * b) (A.conj * B) := by
  have hn := near_between hκ (DQuat.isUnit_mul (DQuat.isUnit_conj hA) hB) hδ hε h1 h2 hL
  have e : δ.conj * (A.conj * B) * ε = (A * δ).conj * (B * ε) := by
    rw [DQuat.conj_mul_rev]
    simp only [mul_assoc]
  have hc : ∀ c : DQuat, (-c).conj = -c.conj := by
    intro c
    ext <;> simp
  rw [e] at hn
  rcases sameUpToSign_iff.mp ha with rfl | rfl <;> rcases sameUpToSign_iff.mp hb with rfl | rfl
  · exact Or.inl hn
  · right
    rwa [mul_neg, neg_neg]
  · right
    rwa [hc, neg_mul, neg_neg]
  · left
    rwa [hc, neg_mul_neg]

/-- C104, where the noise comes from: if the poses of the hand and of the eye are measured with an error of at most κ each, the relative
motions are at most L long, and no relative rotation is near a half turn, then the measurements fit the mounting with an error of
at most `κ (2 + L)`, whichever signs the dual quaternions have. -/
theorem C104_noise (κ L : ℝ) (hκ : 0 ≤ κ) (g X : DQuat) (hg : Spec.IsUnit g) (hX : Spec.IsUnit X) (P Q p q : DQuat × DQuat)
    (hP : Spec.Fits g X P) (hQ : Spec.Fits g X Q) (uP : Spec.IsUnit P.1) (uQ : Spec.IsUnit Q.1)
    (hp : Spec.MeasuredWith κ p P) (hq : Spec.MeasuredWith κ q Q)
    (hL1 : Spec.translationLength (P.1.conj * Q.1) ≤ L) (hL2 : Spec.translationLength (P.2.conj * Q.2) ≤ L)
    (hw : κ * (2 + L) < |(P.1.conj * Q.1).rot.w|) : Spec.NoisyFit (κ * (2 + L)) X p q := by
  obtain ⟨δ, ε, a1, a2, a3, a4, a5, a6⟩ := hp
  obtain ⟨δ', ε', b1, b2, b3, b4, b5, b6⟩ := hq
  rw [fits_iff] at hP hQ
  have vP : Spec.IsUnit P.2 := by rw [hP]; exact DQuat.isUnit_mul (DQuat.isUnit_mul hg uP) hX
  have vQ : Spec.IsUnit Q.2 := by rw [hQ]; exact DQuat.isUnit_mul (DQuat.isUnit_mul hg uQ) hX
  refine ⟨P.1.conj * Q.1, P.2.conj * Q.2, ?_, near_motion_of_measured hκ uP uQ a1 b1 a3 b3 hL1 a5 b5,
    near_motion_of_measured hκ vP vQ a2 b2 a4 b4 hL2 a6 b6, hw⟩
  rw [handEyeEq_iff, hP, hQ]
  calc P.1.conj * Q.1 * X = 1 * P.1.conj * 1 * Q.1 * X := by rw [one_mul, mul_one]
    _ = (X * X.conj) * P.1.conj * (g.conj * g) * Q.1 * X := by rw [DQuat.mul_conj_unit hX, DQuat.conj_mul_unit hg]
    _ = X * ((g * P.1 * X).conj * (g * Q.1 * X)) := by
      rw [DQuat.conj_mul_rev, DQuat.conj_mul_rev]
      simp only [mul_assoc]

end HandEye
