import Verif.Props.RoundedBaseline
import Verif.Model.RoundedRansac

/-! # Lemmas: the pairs of poses that RANSAC hands to the solver -/

open Quaternion

namespace HandEye

theorem nearDQ_mono {a b : DQuat} {η η' : ℝ} (hη : 0 ≤ η) (h : η ≤ η') (hn : Spec.NearDQ η a b) : Spec.NearDQ η' a b :=
  le_trans hn (pow_le_pow_left₀ hη h 2)

theorem GoodPair.mono {τ η η' D : ℝ} {X : DQuat} {s : DQuat × DQuat} (hη : 0 ≤ η) (h : η ≤ η') (hs : GoodPair τ η D X s) : GoodPair τ η' D X s := by
  obtain ⟨b₀, w₀, y1, y2, y3, y4⟩ := hs
  refine ⟨b₀, w₀, y1, nearDQ_mono hη h y2, ?_, y4⟩
  rcases y3 with n | ⟨e, n⟩
  · exact .inl (nearDQ_mono hη h n)
  · exact .inr ⟨e, n.trans (pow_le_pow_left₀ hη h 2)⟩

theorem le_normalisedError {u η D : ℝ} (hu : 0 ≤ u) (hη : 0 ≤ η) (hD : 0 ≤ D) : η ≤ Spec.normalisedError u η D := by
  unfold Spec.normalisedError
  nlinarith [mul_nonneg hD hη, mul_nonneg hD hu]

/-- A motion after a normalisation. -/
theorem normalise_near {A : Arith} {u η D : ℝ} (h : Spec.Machine u A) (hη : 0 ≤ η) (hη1 : η ≤ 1 / 10) (hD : 0 ≤ D) {a b m : DQuat} (r1 : ‖m.rot.toH‖ = 1)
    (d1 : ‖m.dual.toH‖ ≤ 2 * D) (hn : Spec.NearDQ η a m) (hb : A.dqNormalize a = .ok b) : Spec.NearDQ (Spec.normalisedError u η D) b m := by
  have hu := h.nonneg
  obtain ⟨hx, hy⟩ := nearDQ_parts hη hn
  have hN : |‖a.rot.toH‖ - 1| ≤ η := by
    have := abs_norm_sub_norm_le a.rot.toH m.rot.toH
    rw [r1] at this
    exact this.trans hx
  obtain ⟨n1, n2⟩ := abs_le.mp hN
  have hpos : 0 < ‖a.rot.toH‖ := by linarith
  obtain ⟨b', hb', e1, e2⟩ := dqNormalize_near h (norm_pos_iff.mp hpos)
  obtain rfl : b = b' := Except.ok.inj (hb.symm.trans hb')
  have hinv : ‖a.rot.toH‖⁻¹ ≤ 1.12 := by
    rw [inv_le_comm₀ hpos (by norm_num)]
    refine le_trans (by norm_num) (show (0.9 : ℝ) ≤ _ by linarith)
  have hinv0 : 0 ≤ ‖a.rot.toH‖⁻¹ := by positivity
  have had : ‖a.dual.toH‖ ≤ 2 * D + 1 / 10 := by
    have := norm_le_insert' a.dual.toH m.dual.toH
    linarith
  have had0 := norm_nonneg a.dual.toH
  have k1 : ‖‖a.rot.toH‖⁻¹ • a.rot.toH - a.rot.toH‖ ≤ η := by
    have : ‖a.rot.toH‖⁻¹ • a.rot.toH - a.rot.toH = (‖a.rot.toH‖⁻¹ - 1) • a.rot.toH := by rw [sub_smul, one_smul]
    rw [this, norm_smul, Real.norm_eq_abs, ← abs_of_nonneg (norm_nonneg a.rot.toH), ← abs_mul, abs_of_nonneg (norm_nonneg a.rot.toH), sub_mul,
      inv_mul_cancel₀ hpos.ne', one_mul, abs_sub_comm]
    exact hN
  have k2 : |‖a.rot.toH‖⁻¹ - 1| ≤ 1.12 * η := by
    have : ‖a.rot.toH‖⁻¹ - 1 = ‖a.rot.toH‖⁻¹ * (1 - ‖a.rot.toH‖) := by rw [mul_sub, mul_one, inv_mul_cancel₀ hpos.ne']
    rw [this, abs_mul, abs_of_nonneg hinv0, abs_sub_comm]
    exact mul_le_mul hinv hN (abs_nonneg _) (by norm_num)
  have k3 : ‖‖a.rot.toH‖⁻¹ • a.dual.toH - a.dual.toH‖ ≤ 1.12 * η * (2 * D + 1 / 10) := by
    have : ‖a.rot.toH‖⁻¹ • a.dual.toH - a.dual.toH = (‖a.rot.toH‖⁻¹ - 1) • a.dual.toH := by rw [sub_smul, one_smul]
    rw [this, norm_smul, Real.norm_eq_abs]
    exact mul_le_mul k2 had had0 (by positivity)
  have k4 : 9 * u * (‖a.rot.toH‖⁻¹ * ‖a.dual.toH‖) ≤ 9 * u * (1.12 * (2 * D + 1 / 10)) :=
    mul_le_mul_of_nonneg_left (mul_le_mul hinv had had0 (by norm_num)) (by positivity)
  have t1 : ‖b.rot.toH - m.rot.toH‖ ≤ 9 * u + η + η := by
    have e : b.rot.toH - m.rot.toH = (b.rot.toH - ‖a.rot.toH‖⁻¹ • a.rot.toH) + (‖a.rot.toH‖⁻¹ • a.rot.toH - a.rot.toH) + (a.rot.toH - m.rot.toH) := by abel
    rw [e]
    exact (norm_add₃_le).trans (add_le_add (add_le_add e1 k1) hx)
  have t2 : ‖b.dual.toH - m.dual.toH‖ ≤ 9 * u * (1.12 * (2 * D + 1 / 10)) + 1.12 * η * (2 * D + 1 / 10) + η := by
    have e : b.dual.toH - m.dual.toH = (b.dual.toH - ‖a.rot.toH‖⁻¹ • a.dual.toH) + (‖a.rot.toH‖⁻¹ • a.dual.toH - a.dual.toH) + (a.dual.toH - m.dual.toH) := by
      abel
    rw [e]
    exact (norm_add₃_le).trans (add_le_add (add_le_add (e2.trans k4) k3) hy)
  refine nearDQ_mono (by positivity) ?_ (nearDQ_of_parts t1 t2)
  unfold Spec.normalisedError
  nlinarith [mul_nonneg hD hη, mul_nonneg hD hu]

/-- A pair after the normalisation of the hand's motion. -/
theorem GoodPair.normalise {A : Arith} {u τ η D : ℝ} (h : Spec.Machine u A) (hη : 0 ≤ η) (hη1 : η ≤ 1 / 10) (hD : 0 ≤ D) {X b : DQuat} {s : DQuat × DQuat}
    (hs : GoodPair τ η D X s) (hb : A.dqNormalize s.1 = .ok b) : GoodPair τ (Spec.normalisedError u η D) D X (b, s.2) := by
  have hle := le_normalisedError (D := D) h.nonneg hη hD
  obtain ⟨b₀, w₀, y1, y2, y3, y4, v1, v2, v3⟩ := hs
  refine ⟨b₀, w₀, y1, normalise_near h hη hη1 hD v1 v2 y2 hb, ?_, y4, v1, v2, v3⟩
  rcases y3 with n | ⟨e, n⟩
  · exact .inl (nearDQ_mono hη hle n)
  · exact .inr ⟨e, n.trans (pow_le_pow_left₀ hη hle 2)⟩

/-- The pairs of a list, normalised one by one. -/
theorem mapM_normalise {A : Arith} : ∀ {bs ws bs' : List DQuat}, bs.mapM A.dqNormalize = .ok bs' → bs'.length = bs.length ∧
    ∀ s ∈ bs'.zip ws, ∃ b, (b, s.2) ∈ bs.zip ws ∧ A.dqNormalize b = .ok s.1 := by
  intro bs
  induction bs with
  | nil => intro ws bs' h; cases h; simp
  | cons b bs ih =>
    intro ws bs' h
    rw [List.mapM_cons] at h
    obtain ⟨c, h1, h⟩ := Py.bind_eq_ok.mp h
    obtain ⟨cs, h2, h⟩ := Py.bind_eq_ok.mp h
    cases h
    refine ⟨by simp [(ih (ws := ws) h2).1], ?_⟩
    intro s hs
    cases ws with
    | nil => simp at hs
    | cons w ws =>
      rw [List.zip_cons_cons, List.mem_cons] at hs
      rcases hs with rfl | hs
      · exact ⟨b, by simp, h1⟩
      · obtain ⟨b', q1, q2⟩ := (ih h2).2 s hs
        exact ⟨b', by rw [List.zip_cons_cons]; exact List.mem_cons_of_mem _ q1, q2⟩

/-- A calibration that the solver has computed from at most `n` such pairs. -/
def CalibratedFrom (A : Arith) (svd : Svd) (tol : ℝ) (η D : ℝ) (X : DQuat) (n : ℕ) (c : Calibration) : Prop :=
  ∃ bs ws, A.tryCalibrate svd tol bs ws = some c ∧ bs.length = ws.length ∧ bs.length ≤ n ∧ ∀ s ∈ bs.zip ws, GoodPair η η D X s

/-- The decomposition for such a calibration. -/
theorem CalibratedFrom.decomposition {A : Arith} {u κ ω η D tol : ℝ} (hA : Spec.Machine u A) (hκ : 0 ≤ κ) (hω : 0 ≤ ω) (hω1 : ω ≤ 1 / 1000) {svd : Svd}
    (hsvd : ∀ T s V, svd T = .ok (s, V) → Spec.NearSVD κ ω T s V) (hη : 0 ≤ η) (hD : 0 ≤ D) {X : DQuat} (hX : Spec.IsUnit X) {n : ℕ} {c : Calibration}
    (h : CalibratedFrom A svd tol η D X n c) {σ : ℝ} (hσ : 0 < σ) (hs : c.singular_values[5]? = some σ) :
    |‖c.dq_H_E.rot.toH‖ - 1| ≤ 9 * u ∧
    ∃ (α β : ℝ) (er ed : ℍ[ℝ]), c.dq_H_E.rot.toH = α • X.rot.toH + er ∧ c.dq_H_E.dual.toH = α • X.dual.toH + β • X.rot.toH + ed ∧
      ‖er‖ ^ 2 + ‖ed‖ ^ 2 ≤ ((1.06 * (4 * (η + (u + 1.001 * κ) * (1 + 2 * D + η)) * Real.sqrt n / σ) +
        15 * u + 2.1 * ω) * Real.sqrt (1 + Spec.translationLength c.dq_H_E ^ 2 / 4) * ‖c.dq_H_E.rot.toH‖) ^ 2 := by
  have hu := hA.nonneg
  obtain ⟨bi, wi, hc, hl, hn, hp⟩ := h
  obtain ⟨bs₀, ws₀, s1, s2, s3, s4⟩ := measured_of_pairs hη hD hp
  rw [show (bi.zip wi).map Prod.fst = bi from List.map_fst_zip (by omega)] at s2 s3
  rw [show (bi.zip wi).map Prod.snd = wi from List.map_snd_zip (by omega)] at s2 s4
  unfold Arith.tryCalibrate at hc
  split at hc
  case h_2 => cases hc
  case h_1 r hr =>
    cases hc
    obtain ⟨a, ha, hr⟩ := Py.bind_eq_ok.mp hr
    obtain ⟨b, hb, hr⟩ := Py.bind_eq_ok.mp hr
    cases hr
    dsimp only at hs ⊢
    obtain ⟨q1, α, β, er, ed, q2, q3, q4⟩ := calibrate_decomposition hA hκ hω hω1 hsvd hη (by positivity) hX s1 s2 s3 s4 ha hσ hs
    obtain ⟨o1, α', β', er', ed', o2, o3, o4⟩ := normalize_decomposition hA (by positivity) q1 q2 q3 q4 hb
    refine ⟨o1, α', β', er', ed', o2, o3, o4.trans (pow_le_pow_left₀ (by positivity) ?_ 2)⟩
    have hsq := Real.sqrt_le_sqrt (show (bi.length : ℝ) ≤ n by exact_mod_cast hn)
    set E := η + (u + 1.001 * κ) * (1 + 2 * D + η) with hE
    have hE0 : 0 ≤ E := by positivity
    have hmono : 4 * E * Real.sqrt bi.length / σ ≤ 4 * E * Real.sqrt n / σ := by gcongr
    have h0 : 0 ≤ 4 * E * Real.sqrt bi.length / σ := by positivity
    refine mul_le_mul_of_nonneg_right (mul_le_mul_of_nonneg_right ?_ (Real.sqrt_nonneg _)) (norm_nonneg _)
    linarith

end HandEye
