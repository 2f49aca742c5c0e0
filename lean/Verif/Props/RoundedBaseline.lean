import Verif.Lemmas.RoundedBaseline

/-! # Property C116: the baseline algorithm in floating-point arithmetic -/

open Quaternion

namespace HandEye

theorem hypot_add_le {a b f g P Q : ℝ} (hP : 0 ≤ P) (hQ : 0 ≤ Q) (h1 : a ^ 2 + b ^ 2 ≤ P ^ 2) (h2 : f ^ 2 + g ^ 2 ≤ Q ^ 2) :
    (a + f) ^ 2 + (b + g) ^ 2 ≤ (P + Q) ^ 2 := by
  have h3 : a * f + b * g ≤ P * Q := by
    refine (abs_le_of_sq_le_sq' ?_ (by positivity)).2
    have : (a ^ 2 + b ^ 2) * (f ^ 2 + g ^ 2) ≤ P ^ 2 * Q ^ 2 := mul_le_mul h1 h2 (by positivity) (by positivity)
    nlinarith [sq_nonneg (a * g - b * f)]
  nlinarith

/-- The normalisation after the solver (HE.py:583-584). -/
theorem normalize_decomposition {u R : ℝ} {A : Arith} (hA : Spec.Machine u A) (hR : 0 ≤ R) {X a b : DQuat} (hN : |‖a.rot.toH‖ - 1| ≤ 9 * u) {α β : ℝ}
    {er ed : ℍ[ℝ]} (h1 : a.rot.toH = α • X.rot.toH + er) (h2 : a.dual.toH = α • X.dual.toH + β • X.rot.toH + ed)
    (h3 : ‖er‖ ^ 2 + ‖ed‖ ^ 2 ≤ (R * Real.sqrt (1 + Spec.translationLength a ^ 2 / 4) * ‖a.rot.toH‖) ^ 2) (hb : A.dqNormalize a = .ok b) :
    |‖b.rot.toH‖ - 1| ≤ 9 * u ∧
    ∃ (α β : ℝ) (er ed : ℍ[ℝ]), b.rot.toH = α • X.rot.toH + er ∧ b.dual.toH = α • X.dual.toH + β • X.rot.toH + ed ∧
      ‖er‖ ^ 2 + ‖ed‖ ^ 2 ≤ ((1.03 * R + 9.3 * u) * Real.sqrt (1 + Spec.translationLength b ^ 2 / 4) * ‖b.rot.toH‖) ^ 2 := by
  have hu := hA.nonneg
  have hu1 := hA.small
  obtain ⟨n1, n2⟩ := abs_le.mp hN
  have hpos : 0 < ‖a.rot.toH‖ := by linarith
  obtain ⟨b', hb', e1, e2⟩ := dqNormalize_near hA (norm_pos_iff.mp hpos)
  obtain rfl : b = b' := Except.ok.inj (hb.symm.trans hb')
  have hone : ‖‖a.rot.toH‖⁻¹ • a.rot.toH‖ = 1 := by rw [norm_smul, norm_inv, norm_norm, inv_mul_cancel₀ hpos.ne']
  have hdn : ‖‖a.rot.toH‖⁻¹ • a.dual.toH‖ = ‖a.rot.toH‖⁻¹ * ‖a.dual.toH‖ := by rw [norm_smul, norm_inv, norm_norm]
  rw [translationLength_eq] at h3 ⊢
  rw [show 1 + (2 * ‖a.dual.toH‖) ^ 2 / 4 = 1 + ‖a.dual.toH‖ ^ 2 by ring] at h3
  rw [show 1 + (2 * ‖b.dual.toH‖) ^ 2 / 4 = 1 + ‖b.dual.toH‖ ^ 2 by ring]
  have hbr : |‖b.rot.toH‖ - 1| ≤ 9 * u := by
    have := abs_norm_sub_norm_le b.rot.toH (‖a.rot.toH‖⁻¹ • a.rot.toH)
    rw [hone] at this
    exact this.trans e1
  have hbd : ‖a.rot.toH‖⁻¹ * ‖a.dual.toH‖ ≤ 1.0091 * ‖b.dual.toH‖ := by
    have := norm_sub_norm_le (‖a.rot.toH‖⁻¹ • a.dual.toH) b.dual.toH
    rw [hdn, norm_sub_rev] at this
    have h0 : 0 ≤ ‖a.rot.toH‖⁻¹ * ‖a.dual.toH‖ := by positivity
    nlinarith
  refine ⟨hbr, ‖a.rot.toH‖⁻¹ * α, ‖a.rot.toH‖⁻¹ * β, ‖a.rot.toH‖⁻¹ • er + (b.rot.toH - ‖a.rot.toH‖⁻¹ • a.rot.toH),
    ‖a.rot.toH‖⁻¹ • ed + (b.dual.toH - ‖a.rot.toH‖⁻¹ • a.dual.toH), ?_, ?_, ?_⟩
  · rw [h1]
    simp only [smul_add, smul_smul]
    abel
  · rw [h2]
    simp only [smul_add, smul_smul]
    abel
  set f := b.rot.toH - ‖a.rot.toH‖⁻¹ • a.rot.toH
  set g := b.dual.toH - ‖a.rot.toH‖⁻¹ • a.dual.toH
  set W := Real.sqrt (1 + ‖b.dual.toH‖ ^ 2) with hW
  have hW0 : 0 ≤ W := Real.sqrt_nonneg _
  have hW2 : W ^ 2 = 1 + ‖b.dual.toH‖ ^ 2 := Real.sq_sqrt (by positivity)
  have hP : ‖‖a.rot.toH‖⁻¹ • er‖ ^ 2 + ‖‖a.rot.toH‖⁻¹ • ed‖ ^ 2 ≤ (R * Real.sqrt (1 + ‖a.dual.toH‖ ^ 2)) ^ 2 := by
    rw [norm_smul, norm_smul, norm_inv, norm_norm, mul_pow, mul_pow, ← mul_add, inv_pow, inv_mul_le_iff₀ (by positivity)]
    refine h3.trans (le_of_eq ?_)
    ring
  have hq : Real.sqrt (1 + ‖a.dual.toH‖ ^ 2) ≤ 1.0183 * W := by
    refine Real.sqrt_le_iff.mpr ⟨by positivity, ?_⟩
    have h4 : ‖a.dual.toH‖ ≤ 1.0183 * ‖b.dual.toH‖ := by
      rw [inv_mul_le_iff₀ hpos] at hbd
      have hb0 := norm_nonneg b.dual.toH
      have : ‖a.rot.toH‖ * (1.0091 * ‖b.dual.toH‖) ≤ 1.009 * (1.0091 * ‖b.dual.toH‖) := mul_le_mul_of_nonneg_right (by linarith) (by positivity)
      linarith
    have h5 := pow_le_pow_left₀ (norm_nonneg a.dual.toH) h4 2
    rw [mul_pow, hW2]
    nlinarith [sq_nonneg ‖b.dual.toH‖]
  have hQ : ‖f‖ ^ 2 + ‖g‖ ^ 2 ≤ (9 * u * (1.0092 * W)) ^ 2 := by
    have k1 := pow_le_pow_left₀ (norm_nonneg f) e1 2
    have e3 : ‖g‖ ≤ 9 * u * (1.0091 * ‖b.dual.toH‖) := e2.trans (mul_le_mul_of_nonneg_left hbd (by linarith))
    have k2 := pow_le_pow_left₀ (norm_nonneg g) e3 2
    have k3 : 1 + (1.0091 * ‖b.dual.toH‖) ^ 2 ≤ (1.0092 * W) ^ 2 := by
      rw [mul_pow, mul_pow, hW2]
      nlinarith [sq_nonneg ‖b.dual.toH‖]
    calc ‖f‖ ^ 2 + ‖g‖ ^ 2 ≤ (9 * u) ^ 2 * (1 + (1.0091 * ‖b.dual.toH‖) ^ 2) := by linarith
      _ ≤ (9 * u) ^ 2 * (1.0092 * W) ^ 2 := mul_le_mul_of_nonneg_left k3 (by positivity)
      _ = _ := by ring
  have hsum := hypot_add_le (by positivity) (by positivity) hP hQ
  have t1 := pow_le_pow_left₀ (norm_nonneg _) (norm_add_le (‖a.rot.toH‖⁻¹ • er) f) 2
  have t2 := pow_le_pow_left₀ (norm_nonneg _) (norm_add_le (‖a.rot.toH‖⁻¹ • ed) g) 2
  refine (add_le_add t1 t2).trans (hsum.trans (pow_le_pow_left₀ (by positivity) ?_ 2))
  have k6 : R * Real.sqrt (1 + ‖a.dual.toH‖ ^ 2) ≤ R * (1.0183 * W) := mul_le_mul_of_nonneg_left hq hR
  have k7 : 0.991 ≤ ‖b.rot.toH‖ := by linarith [(abs_le.mp hbr).1]
  have k8 : (1.03 * R + 9.3 * u) * W * 0.991 ≤ (1.03 * R + 9.3 * u) * W * ‖b.rot.toH‖ := mul_le_mul_of_nonneg_left k7 (by positivity)
  have k9 : 0 ≤ R * W := by positivity
  have k10 : 0 ≤ u * W := by positivity
  nlinarith

theorem compress_zip {α β : Type} (l : List α) (m : List β) (fl : List Bool) : ((compress l fl).zip (compress m fl)).Sublist (l.zip m) := by
  induction l generalizing m fl with
  | nil => cases fl <;> simp [compress]
  | cons a l ih =>
    cases fl with
    | nil => simp [compress]
    | cons f fl =>
      cases m with
      | nil => simp [compress]
      | cons b m =>
        cases f with
        | true => simpa [compress] using ih m fl
        | false => simpa [compress] using (ih m fl).cons _

/-- The inliers that are found are some of the pairs, aligned at one of them. -/
theorem firstInliers_ok {A : Arith} {n : ℕ} {bf wf : List DQuat} : ∀ {js : List ℕ} {r : ℕ × List DQuat × List DQuat}, A.firstInliers n bf wf js = .ok r →
    ∃ bs ws, A.alignPaths bf r.1 true = .ok bs ∧ A.alignPaths wf r.1 true = .ok ws ∧ r.2.2.length = r.2.1.length ∧ (r.2.1.zip r.2.2).Sublist (bs.zip ws) := by
  intro js
  induction js with
  | nil => intro r h; cases h
  | cons j js ih =>
    intro r h
    rw [Arith.firstInliers] at h
    obtain ⟨inl, h1, h⟩ := Py.bind_eq_ok.mp h
    obtain ⟨_, h2, h⟩ := Py.bind_eq_ok.mp h
    split at h
    · cases h
      unfold Arith.inliersAt at h1
      obtain ⟨ws, hw, h1⟩ := Py.bind_eq_ok.mp h1
      obtain ⟨bs, hb, h1⟩ := Py.bind_eq_ok.mp h1
      obtain ⟨fl, _, h1⟩ := Py.bind_eq_ok.mp h1
      cases h1
      refine ⟨bs, ws, hb, hw, ?_, compress_zip _ _ _⟩
      by_contra hc
      rw [pyAssert_neg hc] at h2
      cases h2
    · obtain ⟨_, _, h⟩ := Py.bind_eq_ok.mp h
      exact ih h

theorem enforceSameSign_zip : ∀ {bs ws ws' : List DQuat}, enforceSameSign bs ws = .ok ws' → ws'.length = ws.length ∧
    ∀ p ∈ bs.zip ws', ∃ w, (p.1, w) ∈ bs.zip ws ∧ (p.2 = w ∨ p.2 = -w) := by
  intro bs
  induction bs with
  | nil => intro ws ws' h; rw [enforceSameSign] at h; cases h; simp
  | cons b bs ih =>
    intro ws ws' h
    cases ws with
    | nil => cases h
    | cons w ws =>
      rw [enforceSameSign] at h
      obtain ⟨r, h1, h2⟩ := Py.bind_eq_ok.mp h
      cases h2
      obtain ⟨e1, e2⟩ := ih h1
      refine ⟨by simp [e1], ?_⟩
      intro p hp
      rw [List.zip_cons_cons, List.mem_cons] at hp
      rcases hp with rfl | hp
      · refine ⟨w, by simp, ?_⟩
        dsimp only
        split_ifs
        · exact .inr rfl
        · exact .inl rfl
      · obtain ⟨v, hv, e⟩ := e2 p hp
        exact ⟨v, by rw [List.zip_cons_cons]; exact List.mem_cons_of_mem _ hv, e⟩

theorem recorded_neg {δ θ D : ℝ} {a a₀ : DQuat} (h : Spec.RecordedPose δ θ D a a₀) : Spec.RecordedPose δ θ D (-a) (-a₀) := by
  obtain ⟨h1, h2, h3, h5⟩ := h
  rw [gap_eq] at h2 h3
  rw [len_eq] at h5
  refine ⟨DQuat.isUnit_neg h1, ?_, ?_, ?_⟩
  · rw [gap_eq, DQuat.neg_rot, DQuat.neg_rot, Quat.toH_neg, Quat.toH_neg, neg_sub_neg, norm_sub_rev]; exact h2
  · rw [gap_eq, DQuat.neg_dual, DQuat.neg_dual, Quat.toH_neg, Quat.toH_neg, neg_sub_neg, norm_sub_rev]; exact h3
  · rw [len_eq, DQuat.neg_dual, Quat.toH_neg, norm_neg]; exact h5

/-- The decomposition for the result of the baseline algorithm. -/
theorem baseline_decomposition {A : Arith} {u κ ω δ θ D : ℝ} (hA : Spec.Machine u A) (hκ : 0 ≤ κ) (hω : 0 ≤ ω) (hω1 : ω ≤ 1 / 1000) {svd : Svd}
    (hsvd : ∀ T s V, svd T = .ok (s, V) → Spec.NearSVD κ ω T s V) (hδ0 : 0 ≤ δ) (hδ : δ ≤ 1 / 100) (hθ : 0 ≤ θ) (hD : 0 ≤ D) {g X : DQuat}
    (hg : Spec.IsUnit g) (hX : Spec.IsUnit X) {bs ws : List DQuat} {L₀ : List (DQuat × DQuat)}
    (hmem : ∀ p ∈ bs.zip ws, ∃ p₀ ∈ L₀, Spec.RecordedPair δ θ D p p₀) (hf : ∀ p ∈ L₀, Spec.FitsMotion g X p)
    (ht : ∀ p ∈ L₀, ∀ q ∈ L₀, Spec.relativeError u δ θ D < Spec.cosHalf p.1.rot q.1.rot) {cfg : HandEyeConfig}
    {filter : List DQuat → List DQuat → Py (List DQuat × List DQuat)} (hfi : Spec.KeepsPairs filter) {c : Calibration}
    (h : A.baselineCalibration svd cfg filter bs ws = .ok (some c)) {σ : ℝ} (hσ : 0 < σ) (hs : c.singular_values[5]? = some σ) :
    |‖c.dq_H_E.rot.toH‖ - 1| ≤ 9 * u ∧
    ∃ (α β : ℝ) (er ed : ℍ[ℝ]), c.dq_H_E.rot.toH = α • X.rot.toH + er ∧ c.dq_H_E.dual.toH = α • X.dual.toH + β • X.rot.toH + ed ∧
      ‖er‖ ^ 2 + ‖ed‖ ^ 2 ≤ ((1.06 * (4 * (Spec.relativeError u δ θ D + (u + 1.001 * κ) * (1 + 2 * D + Spec.relativeError u δ θ D)) * Real.sqrt bs.length / σ) +
        15 * u + 2.1 * ω) * Real.sqrt (1 + Spec.translationLength c.dq_H_E ^ 2 / 4) * ‖c.dq_H_E.rot.toH‖) ^ 2 := by
  have hu := hA.nonneg
  have hη := relativeError_nonneg (D := D) hu hδ0 hθ hD
  unfold Arith.baselineCalibration at h
  obtain ⟨_, hl, h⟩ := Py.bind_eq_ok.mp h
  obtain ⟨ws', hs', h⟩ := Py.bind_eq_ok.mp h
  obtain ⟨⟨bf, wf⟩, hfl, h⟩ := Py.bind_eq_ok.mp h
  obtain ⟨⟨j, bi, wi⟩, hfo, h⟩ := Py.bind_eq_ok.mp h
  obtain ⟨_, _, h⟩ := Py.bind_eq_ok.mp h
  obtain ⟨_, _, h⟩ := Py.bind_eq_ok.mp h
  have hlen : ws.length = bs.length := by
    by_contra hc
    rw [pyAssert_neg hc] at hl
    cases hl
  have hc : A.tryCalibrate svd cfg.hand_eye_calibration_scalar_part_equality_tolerance bi wi = some c := Except.ok.inj h
  obtain ⟨z1, z2⟩ := enforceSameSign_zip hs'
  obtain ⟨f1, f2⟩ := hfi bs ws' (bf, wf) (by omega) hfl
  dsimp only at f1 f2
  obtain ⟨ba, wa, a1, a2, a3, a4⟩ := firstInliers_ok hfo
  dsimp only at a1 a2 a3 a4
  -- the true poses, with either sign for the eye
  have m1 : ∀ q ∈ bf.zip wf, ∃ q₀ ∈ L₀ ++ L₀.map fun p => (p.1, -p.2), Spec.RecordedPair δ θ D q q₀ := by
    intro q hq
    obtain ⟨w, hw, e⟩ := z2 q (f2.subset hq)
    obtain ⟨p₀, hp₀, r⟩ := hmem _ hw
    rcases e with e | e
    · refine ⟨p₀, List.mem_append_left _ hp₀, r.1, ?_⟩
      rw [e]; exact r.2
    · refine ⟨(p₀.1, -p₀.2), List.mem_append_right _ (List.mem_map.mpr ⟨p₀, hp₀, rfl⟩), r.1, ?_⟩
      rw [e]; exact recorded_neg r.2
  have m2 : ∀ p ∈ L₀ ++ L₀.map (fun p => (p.1, -p.2)), Spec.FitsMotion g X p := by
    intro p hp
    rcases List.mem_append.mp hp with hp | hp
    · exact hf p hp
    · obtain ⟨q, hq, rfl⟩ := List.mem_map.mp hp
      intro x
      have := hf q hq x
      dsimp only
      rw [motion_neg]
      exact this
  have m3 : ∀ p ∈ L₀ ++ L₀.map (fun p => (p.1, -p.2)), ∃ p' ∈ L₀, p'.1 = p.1 := by
    intro p hp
    rcases List.mem_append.mp hp with hp | hp
    · exact ⟨p, hp, rfl⟩
    · obtain ⟨q, hq, rfl⟩ := List.mem_map.mp hp
      exact ⟨q, hq, rfl⟩
  have m4 : ∀ p ∈ L₀ ++ L₀.map (fun p => (p.1, -p.2)), ∀ q ∈ L₀ ++ L₀.map (fun p => (p.1, -p.2)),
      Spec.relativeError u δ θ D < Spec.cosHalf p.1.rot q.1.rot := by
    intro p hp q hq
    obtain ⟨p', hp', e1⟩ := m3 p hp
    obtain ⟨q', hq', e2⟩ := m3 q hq
    rw [← e1, ← e2]
    exact ht p' hp' q' hq'
  have g1 : (bf.zip wf).map Prod.fst = bf := List.map_fst_zip (by omega)
  have g2 : (bf.zip wf).map Prod.snd = wf := List.map_snd_zip (by omega)
  obtain ⟨bs₀, ws₀, s1, s2, s3, s4⟩ := selection_measured hA hδ0 hδ hθ hD hg hX m1 m2 m4 (by rw [g1]; exact a1) (by rw [g2]; exact a2) (bi.zip wi)
    fun s hs => a4.subset hs
  rw [show (bi.zip wi).map Prod.fst = bi from List.map_fst_zip (by omega)] at s2 s3
  rw [show (bi.zip wi).map Prod.snd = wi from List.map_snd_zip (by omega)] at s2 s4
  -- the solver
  unfold Arith.tryCalibrate at hc
  split at hc
  case h_2 => cases hc
  case h_1 r hr =>
    cases hc
    obtain ⟨a, ha, hr⟩ := Py.bind_eq_ok.mp hr
    obtain ⟨b, hb, hr⟩ := Py.bind_eq_ok.mp hr
    cases hr
    dsimp only at hs ⊢
    obtain ⟨q1, α, β, er, ed, q2, q3, q4⟩ := calibrate_decomposition hA hκ hω hω1 hsvd hη (by positivity) hX s1 s2 s3 s4 ha hσ hs
    obtain ⟨o1, α', β', er', ed', o2, o3, o4⟩ := normalize_decomposition hA (by positivity) q1 q2 q3 q4 hb
    refine ⟨o1, α', β', er', ed', o2, o3, o4.trans (pow_le_pow_left₀ (by positivity) ?_ 2)⟩
    have hbl : (bi.length : ℝ) ≤ bs.length := by
      have k1 : bi.length ≤ bf.length := by
        have e1 := a4.length_le
        obtain ⟨k, a, inv, _, _, _, e⟩ := alignPaths_ok a1
        have : ba.length = bf.length := by
          rw [e]
          simp
          omega
        simp only [List.length_zip] at e1
        omega
      have k2 := f2.length_le
      simp only [List.length_zip] at k2
      exact_mod_cast (by omega : bi.length ≤ bs.length)
    have hsq := Real.sqrt_le_sqrt hbl
    set E := Spec.relativeError u δ θ D + (u + 1.001 * κ) * (1 + 2 * D + Spec.relativeError u δ θ D) with hE
    have hE0 : 0 ≤ E := by positivity
    have hmono : 4 * E * Real.sqrt bi.length / σ ≤ 4 * E * Real.sqrt bs.length / σ := by gcongr
    have h0 : 0 ≤ 4 * E * Real.sqrt bi.length / σ := by positivity
    refine mul_le_mul_of_nonneg_right (mul_le_mul_of_nonneg_right ?_ (Real.sqrt_nonneg _)) (norm_nonneg _)
    linarith

/-- **C116**, the rotation, in floating-point arithmetic: let every rounding have a relative error of at most `u`, and let the singular value
decomposition be that of a matrix within `κ` of the given one, with rows of `V` within `ω`.  Let the poses be recorded with errors `δ` and `θ` of the real and of
the dual part, and let the true poses fit the calibration `X`.  Then the sine of half the angle between the rotation that the baseline algorithm returns and
the true one is at most `(1.06 · 4 (η + (u + 1.001 κ) (1 + 2 D + η)) √n / σ + 15 u + 2.1 ω) √(1 + |t|² / 4)` with `η = 19 u + 2.1 δ + (70 u + 4.2 δ)(D + θ) + 2.1 θ`,
for every set of inliers, every pair at which the trajectories are aligned, and every prefilter.  The returned rotation has length 1 up to `9 u`.
Partial: no two poses may be within `η` of a half turn of each other, and the exhaustive search (which ends in a `NameError`, HE.py:561) and the evaluation
are left out. -/
theorem C116_rotation_partial {A : Arith} {u : ℝ} (hA : Spec.Machine u A) (κ ω : ℝ) (hκ : 0 ≤ κ) (hω : 0 ≤ ω) (hω1 : ω ≤ 1 / 1000) (svd : Svd)
    (hsvd : ∀ T s V, svd T = .ok (s, V) → Spec.NearSVD κ ω T s V) (δ θ D : ℝ) (hδ0 : 0 ≤ δ) (hδ : δ ≤ 1 / 100) (hθ : 0 ≤ θ) (hD : 0 ≤ D) (g X : DQuat)
    (hg : Spec.IsUnit g) (hX : Spec.IsUnit X) (bs ws : List DQuat) (L₀ : List (DQuat × DQuat))
    (hmem : ∀ p ∈ bs.zip ws, ∃ p₀ ∈ L₀, Spec.RecordedPair δ θ D p p₀) (hf : ∀ p ∈ L₀, Spec.FitsMotion g X p) (η : ℝ)
    (hη : η = Spec.relativeError u δ θ D) (ht : ∀ p ∈ L₀, ∀ q ∈ L₀, η < Spec.cosHalf p.1.rot q.1.rot) (cfg : HandEyeConfig)
    (filter : List DQuat → List DQuat → Py (List DQuat × List DQuat)) (hfi : Spec.KeepsPairs filter) (c : Calibration)
    (h : A.baselineCalibration svd cfg filter bs ws = .ok (some c)) (σ : ℝ) (hσ : 0 < σ) (hs : c.singular_values[5]? = some σ) :
    |Spec.len c.dq_H_E.rot - 1| ≤ 9 * u ∧
    1 - Spec.cosHalf c.dq_H_E.rot X.rot ^ 2 ≤
      (1.06 * (4 * (η + (u + 1.001 * κ) * (1 + 2 * D + η)) * Real.sqrt bs.length / σ) + 15 * u + 2.1 * ω) ^ 2 *
        (1 + Spec.translationLength c.dq_H_E ^ 2 / 4) := by
  subst hη
  obtain ⟨hr, α, β, er, ed, d1, _, d3⟩ := baseline_decomposition hA hκ hω hω1 hsvd hδ0 hδ hθ hD hg hX hmem hf ht hfi h hσ hs
  have hpos : 0 < ‖c.dq_H_E.rot.toH‖ := by linarith [(abs_le.mp hr).1, hA.small]
  refine ⟨by rw [len_eq]; exact hr, ?_⟩
  refine (angle_estimate hX hpos d1 (le_trans ?_ d3)).trans (le_of_eq ?_)
  · linarith [sq_nonneg ‖ed‖]
  · rw [mul_pow, Real.sq_sqrt (by positivity)]

/-- **C116**, the whole motion, in floating-point arithmetic: if `ρ`, the bound of the rotation, is at most one half, then every point `p` is moved to within
`ρ (2 |p| + 4 + 4 |t₀| + 3 |t|)` of where the true calibration moves it.  Partial for the same reasons. -/
theorem C116_motion_partial {A : Arith} {u : ℝ} (hA : Spec.Machine u A) (κ ω : ℝ) (hκ : 0 ≤ κ) (hω : 0 ≤ ω) (hω1 : ω ≤ 1 / 1000) (svd : Svd)
    (hsvd : ∀ T s V, svd T = .ok (s, V) → Spec.NearSVD κ ω T s V) (δ θ D : ℝ) (hδ0 : 0 ≤ δ) (hδ : δ ≤ 1 / 100) (hθ : 0 ≤ θ) (hD : 0 ≤ D) (g X : DQuat)
    (hg : Spec.IsUnit g) (hX : Spec.IsUnit X) (bs ws : List DQuat) (L₀ : List (DQuat × DQuat))
    (hmem : ∀ p ∈ bs.zip ws, ∃ p₀ ∈ L₀, Spec.RecordedPair δ θ D p p₀) (hf : ∀ p ∈ L₀, Spec.FitsMotion g X p) (η : ℝ)
    (hη : η = Spec.relativeError u δ θ D) (ht : ∀ p ∈ L₀, ∀ q ∈ L₀, η < Spec.cosHalf p.1.rot q.1.rot) (cfg : HandEyeConfig)
    (filter : List DQuat → List DQuat → Py (List DQuat × List DQuat)) (hfi : Spec.KeepsPairs filter) (c : Calibration)
    (h : A.baselineCalibration svd cfg filter bs ws = .ok (some c)) (σ : ℝ) (hσ : 0 < σ) (hs : c.singular_values[5]? = some σ) (ρ : ℝ)
    (hρ : ρ = (1.06 * (4 * (η + (u + 1.001 * κ) * (1 + 2 * D + η)) * Real.sqrt bs.length / σ) + 15 * u + 2.1 * ω) *
      Real.sqrt (1 + Spec.translationLength c.dq_H_E ^ 2 / 4)) (hρ2 : ρ ≤ 1 / 2) (p : Vec3) :
    Spec.dist (Spec.motion c.dq_H_E p) (Spec.motion X p) ≤
      ρ * (2 * Spec.dist p ⟨0, 0, 0⟩ + 4 + 4 * Spec.translationLength X + 3 * Spec.translationLength c.dq_H_E) := by
  subst hη
  have hu := hA.nonneg
  have hη := relativeError_nonneg (D := D) hu hδ0 hθ hD
  obtain ⟨hr, α, β, er, ed, d1, d2, d3⟩ := baseline_decomposition hA hκ hω hω1 hsvd hδ0 hδ hθ hD hg hX hmem hf ht hfi h hσ hs
  have hN : 0.991 ≤ ‖c.dq_H_E.rot.toH‖ := by linarith [(abs_le.mp hr).1, hA.small]
  rw [← hρ] at d3
  have hρ0 : 0 ≤ ρ := by rw [hρ]; positivity
  refine (motion_estimate hX (by linarith) d1 d2 d3 hρ0 hρ2 p).trans ?_
  have ht : 0 ≤ Spec.translationLength c.dq_H_E := by rw [translationLength_eq]; positivity
  have : 2 * (Spec.translationLength c.dq_H_E / ‖c.dq_H_E.rot.toH‖) ≤ 3 * Spec.translationLength c.dq_H_E := by
    rw [← mul_div_assoc, div_le_iff₀ (by linarith)]
    nlinarith
  gcongr

/-! ## Without rounding, this is the model of the other properties -/

theorem exact_alignPaths_at (v : List DQuat) (i : ℤ) : exactArith.alignPaths v i true = alignPathsAtIndex v i := by
  unfold Arith.alignPaths alignPathsAtIndex
  cases pyGet v i with
  | error e => rfl
  | ok a =>
    rw [Py.ok_bind, Py.ok_bind, exact_dqInverse]
    rfl

theorem exact_inliersAt (bf wf : List DQuat) (j : ℕ) : exactArith.inliersAt bf wf j = baselineInliers bf wf j := by
  unfold Arith.inliersAt baselineInliers
  simp only [exact_alignPaths_at]
  rfl

theorem exact_tryCalibrate (svd : Svd) (tol : ℝ) (bs ws : List DQuat) : exactArith.tryCalibrate svd tol bs ws = tryCalibration svd tol bs ws := by
  unfold Arith.tryCalibrate tryCalibration
  simp only [C115_exact, exact_dqNormalize]
  rfl

/-- The search for the first sufficient set of inliers. -/
theorem exact_firstInliers {cfg : HandEyeConfig} (he : cfg.enable_exhaustive_search = false) (bf wf : List DQuat) :
    ∀ (js : List ℕ) (st : BaselineSearch), js ≠ [] →  (js.getLast? = some (wf.length - 1)) → (∀ j ∈ js, j < wf.length) →
    (∃ e, exactArith.firstInliers cfg.min_num_inliers bf wf js = .error e ∧ baselineLoop cfg bf wf js st = .error e) ∨
    ∃ r st', exactArith.firstInliers cfg.min_num_inliers bf wf js = .ok r ∧ baselineLoop cfg bf wf js st = .ok st' ∧ st'.best_idx = r.1 ∧
      st'.cur_inlier = some r.2 := by
  intro js
  induction js with
  | nil => intro st h; exact absurd rfl h
  | cons j js ih =>
    intro st _ hlast hlt
    rw [Arith.firstInliers, baselineLoop, exact_inliersAt]
    cases hi : baselineInliers bf wf j with
    | error e => exact .inl ⟨e, rfl, rfl⟩
    | ok inl =>
      rw [Py.ok_bind, Py.ok_bind]
      by_cases hl : inl.2.length = inl.1.length
      swap
      · simp only [pyAssert_neg hl]
        exact .inl ⟨_, rfl, rfl⟩
      simp only [pyAssert_pos hl, Py.ok_bind, he, Bool.false_eq_true, if_false]
      by_cases hn : inl.2.length > cfg.min_num_inliers
      · rw [if_pos hn, if_pos hn]
        exact .inr ⟨_, _, rfl, rfl, rfl, rfl⟩
      · rw [if_neg hn, if_neg hn]
        by_cases hj : j + 1 < wf.length
        · simp only [pyAssert_pos hj, Py.ok_bind]
          have hne : js ≠ [] := by
            rintro rfl
            simp at hlast
            omega
          refine ih _ hne ?_ fun k hk => hlt k (List.mem_cons_of_mem _ hk)
          rwa [List.getLast?_cons_of_ne_nil hne] at hlast
        · simp only [pyAssert_neg hj]
          exact .inl ⟨_, rfl, rfl⟩

/-- **C116**: without rounding the model is that of `compute_hand_eye_calibration_BASELINE` over the real numbers: it fails in the same way, it finds no
calibration in the same cases, and the pose that is returned is that of the calibration. -/
theorem C116_exact (svd : Svd) (cfg : HandEyeConfig) (he : cfg.enable_exhaustive_search = false) (bs ws : List DQuat) :
    (∀ e, exactArith.baselineCalibration svd cfg (baselineFilter cfg) bs ws = .error e → baseline svd cfg bs ws = .error e) ∧
    (exactArith.baselineCalibration svd cfg (baselineFilter cfg) bs ws = .ok none → ∃ r, baseline svd cfg bs ws = .ok r ∧ r.found = none) ∧
    ∀ c, exactArith.baselineCalibration svd cfg (baselineFilter cfg) bs ws = .ok (some c) → ∀ r, baseline svd cfg bs ws = .ok r →
      ∃ k p, r.found = some k ∧ k.singular_values = c.singular_values ∧ k.bad_singular_values = c.bad_singular_values ∧
        c.dq_H_E.toPose = .ok (p, k.dq_H_E) := by
  unfold Arith.baselineCalibration baseline
  by_cases hl : ws.length = bs.length
  swap
  · simp only [pyAssert_neg hl]
    exact ⟨fun _ h => (by cases h; rfl), fun h => (by cases h), fun _ h => (by cases h)⟩
  simp only [pyAssert_pos hl, Py.ok_bind]
  cases enforceSameSign bs ws with
  | error e => exact ⟨fun _ h => (by cases h; rfl), fun h => (by cases h), fun _ h => (by cases h)⟩
  | ok ws' =>
    simp only [Py.ok_bind]
    cases baselineFilter cfg bs ws' with
    | error e => exact ⟨fun _ h => (by cases h; rfl), fun h => (by cases h), fun _ h => (by cases h)⟩
    | ok f =>
      obtain ⟨bf, wf⟩ := f
      simp only [Py.ok_bind]
      by_cases h0 : wf.length = 0
      · rw [h0, List.range_zero]
        refine ⟨fun e h => ?_, fun h => (by cases h), fun _ h => (by cases h)⟩
        cases h
        simp only [baselineLoop, Py.ok_bind, baselineSelect, he, Bool.false_eq_true, if_false]
        rfl
      have hmem : ∀ j ∈ List.range wf.length, j < wf.length := fun j hj => List.mem_range.mp hj
      have hlast : (List.range wf.length).getLast? = some (wf.length - 1) := by
        obtain ⟨n, hn⟩ : ∃ n, wf.length = n + 1 := ⟨wf.length - 1, by omega⟩
        rw [hn, List.range_succ, List.getLast?_concat, Nat.add_sub_cancel]
      rcases exact_firstInliers he bf wf (List.range wf.length) { best_num_inliers := (cfg.min_num_inliers : ℤ) - 1 } (by simpa using h0) hlast hmem with
        ⟨e, e1, e2⟩ | ⟨r, st, e1, e2, e3, e4⟩
      · rw [e1, e2]
        exact ⟨fun _ h => (by cases h; rfl), fun h => (by cases h), fun _ h => (by cases h)⟩
      rw [e1, e2]
      have hsel : baselineSelect cfg st = .ok r.2 := by
        unfold baselineSelect
        simp only [he, Bool.false_eq_true, if_false, e4]
      simp only [Py.ok_bind, hsel, exact_alignPaths_at, e3]
      cases alignPathsAtIndex r.2.1 r.1 with
      | error e => exact ⟨fun _ h => (by cases h; rfl), fun h => (by cases h), fun _ h => (by cases h)⟩
      | ok b1 =>
        simp only [Py.ok_bind]
        cases alignPathsAtIndex r.2.2 r.1 with
        | error e => exact ⟨fun _ h => (by cases h; rfl), fun h => (by cases h), fun _ h => (by cases h)⟩
        | ok b2 =>
          simp only [Py.ok_bind, Py.pure_eq, exact_tryCalibrate, baselineSolve]
          cases tryCalibration svd cfg.hand_eye_calibration_scalar_part_equality_tolerance r.2.1 r.2.2 with
          | none => exact ⟨fun _ h => (by cases h), fun _ => ⟨_, rfl, rfl⟩, fun _ h => by cases h⟩
          | some c =>
            refine ⟨fun _ h => (by cases h), fun h => (by cases h), fun c' h res hres => ?_⟩
            cases h
            dsimp only at hres
            obtain ⟨_, _, hres⟩ := Py.bind_eq_ok.mp hres
            obtain ⟨_, _, hres⟩ := Py.bind_eq_ok.mp hres
            obtain ⟨⟨p, dq⟩, hp, hres⟩ := Py.bind_eq_ok.mp hres
            cases hres
            exact ⟨_, p, rfl, rfl, rfl, hp⟩

end HandEye
