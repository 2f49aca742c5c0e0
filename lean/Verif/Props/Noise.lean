import Verif.Lemmas.Noise2
import Verif.Spec.Noise
import Verif.Props.HandEye3

/-! # Property C85: the hand-eye solver on noisy data -/

open Quaternion Matrix

namespace HandEye

theorem near_w {η : ℝ} (h0 : 0 ≤ η) {a b : DQuat} (h : Spec.NearDQ η a b) : |a.rot.w - b.rot.w| ≤ η := by
  apply abs_le_of_sq_le_sq _ h0
  refine le_trans ?_ h
  exact Finset.single_le_sum (f := fun j => (Spec.vec8 a j - Spec.vec8 b j) ^ 2) (fun j _ => sq_nonneg _) (Finset.mem_univ (3 : Fin 8))

theorem near_neg {η : ℝ} {w w₀ : DQuat} (h : ∑ j, (Spec.vec8 w j + Spec.vec8 w₀ j) ^ 2 ≤ η ^ 2) : Spec.NearDQ η (-w) w₀ := by
  unfold Spec.NearDQ
  refine le_trans (le_of_eq ?_) h
  apply Finset.sum_congr rfl
  intro j _
  have : Spec.vec8 (-w) j = -Spec.vec8 w j := by fin_cases j <;> simp [Spec.vec8]
  rw [this]; ring

/-- The sign loop turns measurements of either sign into measurements of the right sign. -/
theorem enforceSameSign_near {η : ℝ} (h0 : 0 ≤ η) {X : DQuat} (hX : Spec.IsUnit X) :
    ∀ {bs ws bs₀ ws₀ ws' : List DQuat}, Spec.Exact bs₀ ws₀ X → Spec.Measured true η bs₀ ws₀ bs ws →
      enforceSameSign bs ws = .ok ws' → List.Forall₂ (Spec.NearDQ η) ws' ws₀ := by
  intro bs ws bs₀ ws₀ ws' he
  induction he generalizing bs ws ws' with
  | nil =>
    rintro ⟨hb, hw, _⟩ h
    cases hb
    cases hw
    cases h
    exact .nil
  | @cons b₀ w₀ bs₀ ws₀ he hes ih =>
    rintro ⟨hb, hw, ht⟩ h
    cases hb with
    | @cons b _ bs _ hb hbs =>
    cases hw with
    | @cons w _ ws _ hw hws =>
    rw [enforceSameSign] at h
    obtain ⟨ws1, h1, h⟩ := Py.bind_eq_ok.mp h
    cases h
    refine .cons ?_ (ih ⟨hbs, hws, fun e b hb => ht e b (List.mem_cons_of_mem _ hb)⟩ h1)
    have hs : b₀.rot.w = w₀.rot.w := by
      have := sameScalars_of_exact hX he
      exact this.1
    have hη := ht rfl b₀ (List.mem_cons_self ..)
    have hb' := abs_le.mp (near_w h0 hb)
    rcases hw with hw | ⟨_, hw⟩
    · have hw' := abs_le.mp (near_w h0 hw)
      rw [if_neg]
      · exact hw
      · rcases lt_abs.mp hη with h | h
        · rintro (⟨h3, h4⟩ | ⟨h3, h4⟩) <;> linarith
        · rintro (⟨h3, h4⟩ | ⟨h3, h4⟩) <;> linarith
    · have hw := near_neg hw
      have hw' := abs_le.mp (near_w h0 hw)
      rw [DQuat.neg_rot, Quat.neg_w] at hw'
      rw [if_pos]
      · exact hw
      · rcases lt_abs.mp hη with h | h
        · left; constructor <;> linarith
        · right; constructor <;> linarith

theorem used_near {η : ℝ} (h0 : 0 ≤ η) {X : DQuat} (hX : Spec.IsUnit X) {enf : Bool} {bs ws bs₀ ws₀ ws' : List DQuat}
    (he : Spec.Exact bs₀ ws₀ X) (hm : Spec.Measured enf η bs₀ ws₀ bs ws)
    (h : (if enf then enforceSameSign bs ws else .ok ws) = .ok ws') : List.Forall₂ (Spec.NearDQ η) ws' ws₀ := by
  cases enf with
  | true => exact enforceSameSign_near h0 hX he hm h
  | false =>
    cases h
    exact hm.eye.imp fun a b hab => by
      rcases hab with h | ⟨h, _⟩
      · exact h
      · cases h

/-- The solutions for the exact data almost solve the system of the measured data. -/
theorem measured_residual {svd : Svd} {η : ℝ} (h0 : 0 ≤ η) {X : DQuat} (hX : Spec.IsUnit X) {enf : Bool} {bs ws bs₀ ws₀ : List DQuat}
    (he : Spec.Exact bs₀ ws₀ X) (hm : Spec.Measured enf η bs₀ ws₀ bs ws) {tol : ℝ} {r : Calibration}
    (h : computeHandEyeCalibration svd bs ws tol enf = .ok r) {T : List (Fin 8 → ℝ)}
    (hT : setupTMatrix bs r.dq_W_E_vec = .ok T) (l m : ℝ) :
    Spec.residualSq T (l • Spec.vec8 X + m • Spec.vec8 ⟨⟨0, 0, 0, 0⟩, X.rot⟩) ≤
      bs.length * (16 * η ^ 2 * Spec.sumSq (l • Spec.vec8 X + m • Spec.vec8 ⟨⟨0, 0, 0, 0⟩, X.rot⟩)) := by
  obtain ⟨_, _, _, _, hs, _, _, _, _, _⟩ := compute_eq_ok h
  obtain ⟨T₀, hT₀, _, s1, s2⟩ := C25_true_calibration_solves bs₀ ws₀ X hX he
  refine setupTMatrix_noise hT hT₀ hm.hand (used_near h0 hX he hm hs) ?_
  intro row hrow
  have e1 := s1 row hrow
  have e2 := s2 row hrow
  have : ∑ j, row j * (l • Spec.vec8 X + m • Spec.vec8 ⟨⟨0, 0, 0, 0⟩, X.rot⟩) j = l * ∑ j, row j * Spec.vec8 X j +
      m * ∑ j, row j * Spec.vec8 ⟨⟨0, 0, 0, 0⟩, X.rot⟩ j := by
    rw [Finset.mul_sum, Finset.mul_sum, ← Finset.sum_add_distrib]
    exact Finset.sum_congr rfl fun j _ => by simp only [Pi.add_apply, Pi.smul_apply, smul_eq_mul]; ring
  rw [this, e1, e2]; ring

/-- The part of a solution for the exact data that is off the plane the solver works in. -/
theorem measured_off_plane {svd : Svd} (hsvd : ∀ T s V, svd T = .ok (s, V) → Spec.IsSVD T s V) {η : ℝ} (h0 : 0 ≤ η)
    {X : DQuat} (hX : Spec.IsUnit X) {enf : Bool} {bs ws bs₀ ws₀ : List DQuat}
    (he : Spec.Exact bs₀ ws₀ X) (hm : Spec.Measured enf η bs₀ ws₀ bs ws) {tol : ℝ} {r : Calibration}
    (h : computeHandEyeCalibration svd bs ws tol enf = .ok r) {T : List (Fin 8 → ℝ)} {V : Matrix (Fin 8) (Fin 8) ℝ}
    (hT : setupTMatrix bs r.dq_W_E_vec = .ok T) (hV : svd T = .ok (r.singular_values, V)) {σ : ℝ} (hσ : 0 < σ)
    (hs : r.singular_values[5]? = some σ) (l m : ℝ) (y : Fin 8 → ℝ)
    (hy : y = l • Spec.vec8 X + m • Spec.vec8 ⟨⟨0, 0, 0, 0⟩, X.rot⟩) :
    Spec.sumSq y - (V *ᵥ y) 6 ^ 2 - (V *ᵥ y) 7 ^ 2 ≤ (4 * η * Real.sqrt bs.length / σ) ^ 2 * Spec.sumSq y := by
  have h6 : 6 ≤ r.singular_values.length := by
    have := (List.getElem?_eq_some_iff.mp hs).1
    omega
  have e := off_plane_le (hsvd _ _ _ hV) h6 y
  rw [List.getD_eq_getElem?_getD, hs] at e
  have e2 := measured_residual h0 hX he hm h hT l m
  rw [← hy] at e2
  have e' : σ ^ 2 * (Spec.sumSq y - (V *ᵥ y) 6 ^ 2 - (V *ᵥ y) 7 ^ 2) ≤ bs.length * (16 * η ^ 2 * Spec.sumSq y) := e.trans e2
  rw [div_pow, mul_pow, Real.sq_sqrt (by positivity), div_mul_eq_mul_div, le_div_iff₀ (by positivity)]
  nlinarith

theorem norm_sq_toH (q : Quat) : ‖q.toH‖ ^ 2 = q.x ^ 2 + q.y ^ 2 + q.z ^ 2 + q.w ^ 2 := by
  rw [sq, ← Quaternion.normSq_eq_norm_mul_self, Quat.normSq_toH, Quat.dot]; ring

theorem norm_toH (q : Quat) : ‖q.toH‖ = Real.sqrt (q.x ^ 2 + q.y ^ 2 + q.z ^ 2 + q.w ^ 2) := by
  rw [← norm_sq_toH, Real.sqrt_sq (norm_nonneg _)]

theorem sumSq_vec8 (a : DQuat) : Spec.sumSq (Spec.vec8 a) = ‖a.rot.toH‖ ^ 2 + ‖a.dual.toH‖ ^ 2 := by
  rw [norm_sq_toH, norm_sq_toH, Spec.sumSq, Fin.sum_univ_eight]
  simp only [Spec.vec8]
  simp
  ring

theorem isUnit_norm {X : DQuat} (hX : Spec.IsUnit X) : ‖X.rot.toH‖ = 1 ∧ (X.rot.toH * star X.dual.toH).re = 0 := by
  refine ⟨?_, hX.2⟩
  have := hX.1
  rw [Quaternion.normSq_eq_norm_mul_self] at this
  nlinarith [norm_nonneg X.rot.toH]

theorem norm_of_unit {q : Quat} (h : q.norm = 1) : ‖q.toH‖ = 1 := by
  have := Quat.norm_eq_one.mp h
  rw [← Quat.normSq_toH, Quaternion.normSq_eq_norm_mul_self] at this
  nlinarith [norm_nonneg q.toH]

/-- The returned dual quaternion is a combination of the two solutions for the exact data, up to an error proportional to the
noise. -/
theorem measured_decomposition {svd : Svd} (hsvd : ∀ T s V, svd T = .ok (s, V) → Spec.IsSVD T s V) {η : ℝ} (h0 : 0 ≤ η)
    {X : DQuat} (hX : Spec.IsUnit X) {enf : Bool} {bs ws bs₀ ws₀ : List DQuat}
    (he : Spec.Exact bs₀ ws₀ X) (hm : Spec.Measured enf η bs₀ ws₀ bs ws) {tol : ℝ} {r : Calibration}
    (h : computeHandEyeCalibration svd bs ws tol enf = .ok r) {σ : ℝ} (hσ : 0 < σ)
    (hs : r.singular_values[5]? = some σ) :
    ∃ (α β : ℝ) (er ed : ℍ[ℝ]), r.dq_H_E.rot.toH = α • X.rot.toH + er ∧
      r.dq_H_E.dual.toH = α • X.dual.toH + β • X.rot.toH + ed ∧
      ‖er‖ ^ 2 + ‖ed‖ ^ 2 ≤ (4 * η * Real.sqrt bs.length / σ) ^ 2 * (1 + ‖r.dq_H_E.dual.toH‖ ^ 2) := by
  obtain ⟨hn, _⟩ := C29_returned_calibration svd bs ws tol enf r h
  obtain ⟨T, V, hT, hV, s, k, _, hz, _⟩ := C29_best_combination svd bs ws tol enf r h
  have hIs := hsvd _ _ _ hV
  obtain ⟨hXr, hXd⟩ := isUnit_norm hX
  set N := Real.sqrt (1 + ‖X.dual.toH‖ ^ 2) with hN
  have hN2 : N ^ 2 = 1 + ‖X.dual.toH‖ ^ 2 := Real.sq_sqrt (by positivity)
  have hN0 : N ≠ 0 := by intro e; rw [e] at hN2; nlinarith [sq_nonneg ‖X.dual.toH‖]
  have hxx : Spec.vec8 X ⬝ᵥ Spec.vec8 X = N ^ 2 := by rw [← sumSq_eq_dot, sumSq_vec8, hXr, hN2]; ring
  have h22 : Spec.vec8 ⟨⟨0, 0, 0, 0⟩, X.rot⟩ ⬝ᵥ Spec.vec8 ⟨⟨0, 0, 0, 0⟩, X.rot⟩ = 1 := by
    rw [← sumSq_eq_dot, sumSq_vec8, norm_sq_toH]; simp only []; rw [hXr]; norm_num
  have h12 : Spec.vec8 X ⬝ᵥ Spec.vec8 ⟨⟨0, 0, 0, 0⟩, X.rot⟩ = 0 := by
    rw [dotProduct, Fin.sum_univ_eight]
    simp [Spec.vec8]
    simp at hXd
    linarith
  obtain ⟨α, β, hαβ⟩ := plane_gap hIs.orthogonal (k₁ := N⁻¹ • Spec.vec8 X) (k₂ := Spec.vec8 ⟨⟨0, 0, 0, 0⟩, X.rot⟩)
    (g := (4 * η * Real.sqrt bs.length / σ) ^ 2)
    (by rw [smul_dotProduct, dotProduct_smul, hxx]; simp only [smul_eq_mul]; field_simp) h22
    (by rw [smul_dotProduct, h12, smul_zero])
    (fun x y => measured_off_plane hsvd h0 hX he hm h hT hV hσ hs (x * N⁻¹) y _ (by rw [smul_smul])) (k * s) k
  have hz8 : (k * s) • V 6 + k • V 7 = Spec.vec8 r.dq_H_E := by
    rw [hz]
    funext j
    fin_cases j <;> simp [Spec.vec8] <;> ring
  rw [hz8, sumSq_vec8, norm_of_unit hn] at hαβ
  refine ⟨α * N⁻¹, β, r.dq_H_E.rot.toH - (α * N⁻¹) • X.rot.toH,
    r.dq_H_E.dual.toH - ((α * N⁻¹) • X.dual.toH + β • X.rot.toH), by abel, by abel, ?_⟩
  have e := hαβ
  rw [smul_smul] at e
  refine le_trans (le_of_eq ?_) (e.trans (le_of_eq (by ring)))
  rw [← Quat.toH_smul, ← Quat.toH_smul, ← Quat.toH_smul, ← Quat.toH_sub, ← Quat.toH_add, ← Quat.toH_sub, norm_sq_toH, norm_sq_toH,
    Spec.sumSq, Fin.sum_univ_eight]
  simp [Spec.vec8]
  ring

theorem translationLength_eq (a : DQuat) : Spec.translationLength a = 2 * ‖a.dual.toH‖ := by
  rw [norm_toH]; rfl

theorem dist_imPart (a b : ℍ[ℝ]) : Spec.dist (Spec.imPart a) (Spec.imPart b) ≤ ‖a - b‖ := by
  rw [Spec.dist]
  apply Real.sqrt_le_iff.mpr ⟨norm_nonneg _, ?_⟩
  rw [sq ‖a - b‖, ← Quaternion.normSq_eq_norm_mul_self, Quaternion.normSq_def']
  simp only [Spec.imPart, Quaternion.re_sub, Quaternion.imI_sub, Quaternion.imJ_sub, Quaternion.imK_sub]
  nlinarith [sq_nonneg (a.re - b.re)]

theorem dist_zero_toH (p : Vec3) : Spec.dist p ⟨0, 0, 0⟩ = ‖p.toH‖ := by
  have : ‖p.toH‖ ^ 2 = p.x ^ 2 + p.y ^ 2 + p.z ^ 2 := by
    rw [sq, ← Quaternion.normSq_eq_norm_mul_self, Quaternion.normSq_def']; simp
  rw [Spec.dist, ← Real.sqrt_sq (norm_nonneg p.toH), this]; simp

/-- **C85**, the rotation: the sine of half the angle between the returned rotation and the true one is at most
`4 η √n / σ · √(1 + |t|² / 4)`, where `η` bounds the error of every pose, `n` is the number of pairs, `σ` is the sixth singular value
that the solver returns and `t` is the translation that it returns.  Partial: with the loop that makes the signs equal, no rotation
may be within `η` of a half turn (`C85_half_turns_refuted`). -/
theorem C85_rotation_error_partial (svd : Svd) (hsvd : ∀ T s V, svd T = .ok (s, V) → Spec.IsSVD T s V) (η : ℝ) (h0 : 0 ≤ η)
    (X : DQuat) (hX : Spec.IsUnit X) (enf : Bool) (bs ws bs₀ ws₀ : List DQuat)
    (he : Spec.Exact bs₀ ws₀ X) (hm : Spec.Measured enf η bs₀ ws₀ bs ws) (tol : ℝ) (r : Calibration)
    (h : computeHandEyeCalibration svd bs ws tol enf = .ok r) (σ : ℝ) (hσ : 0 < σ)
    (hs : r.singular_values[5]? = some σ) :
    1 - Spec.cosHalf r.dq_H_E.rot X.rot ^ 2 ≤
      (4 * η * Real.sqrt bs.length / σ) ^ 2 * (1 + Spec.translationLength r.dq_H_E ^ 2 / 4) := by
  obtain ⟨hn, _⟩ := C29_returned_calibration svd bs ws tol enf r h
  have hz := norm_of_unit hn
  obtain ⟨hXr, _⟩ := isUnit_norm hX
  obtain ⟨α, β, er, ed, e1, _, e3⟩ := measured_decomposition hsvd h0 hX he hm h hσ hs
  have hz' := hz
  rw [norm_toH] at hz'
  have hXr' := hXr
  rw [norm_toH] at hXr'
  have h4 : ‖er‖ ^ 2 ≤ (4 * η * Real.sqrt bs.length / σ) ^ 2 * (1 + Spec.translationLength r.dq_H_E ^ 2 / 4) := by
    rw [translationLength_eq]
    nlinarith [sq_nonneg ‖ed‖]
  refine le_trans ?_ h4
  rw [Spec.cosHalf, hz', hXr', mul_one, div_one, sq_abs]
  have hz2 := norm_sq_toH r.dq_H_E.rot
  have hx2 := norm_sq_toH X.rot
  rw [hz] at hz2
  rw [hXr] at hx2
  have e5 : er = (r.dq_H_E.rot - α • X.rot).toH := by rw [Quat.toH_sub, Quat.toH_smul, e1]; abel
  rw [e5, norm_sq_toH]
  simp only [Quat.sub_x, Quat.sub_y, Quat.sub_z, Quat.sub_w, Quat.smul_x, Quat.smul_y, Quat.smul_z, Quat.smul_w]
  generalize hc : r.dq_H_E.rot.x * X.rot.x + r.dq_H_E.rot.y * X.rot.y + r.dq_H_E.rot.z * X.rot.z + r.dq_H_E.rot.w * X.rot.w = c
  have e6 : (r.dq_H_E.rot.x - α * X.rot.x) ^ 2 + (r.dq_H_E.rot.y - α * X.rot.y) ^ 2 + (r.dq_H_E.rot.z - α * X.rot.z) ^ 2 +
      (r.dq_H_E.rot.w - α * X.rot.w) ^ 2 = 1 - 2 * α * c + α ^ 2 := by
    rw [← hc]; linear_combination -hz2 - α ^ 2 * hx2
  rw [e6]
  nlinarith [sq_nonneg (α - c)]

/-- **C85**, the whole motion: if the returned calibration is a rigid motion and `ρ = 4 η √n / σ · √(1 + |t|² / 4)` is at most one half,
then every point `p` is moved to within `ρ (2 |p| + 4 + 3 |t₀| + 2 |t|)` of where the true calibration moves it.  Partial for the same reason. -/
theorem C85_motion_error_partial (svd : Svd) (hsvd : ∀ T s V, svd T = .ok (s, V) → Spec.IsSVD T s V) (η : ℝ) (h0 : 0 ≤ η)
    (X : DQuat) (hX : Spec.IsUnit X) (enf : Bool) (bs ws bs₀ ws₀ : List DQuat)
    (he : Spec.Exact bs₀ ws₀ X) (hm : Spec.Measured enf η bs₀ ws₀ bs ws) (tol : ℝ) (r : Calibration)
    (h : computeHandEyeCalibration svd bs ws tol enf = .ok r) (hu : Spec.IsUnit r.dq_H_E) (σ : ℝ) (hσ : 0 < σ)
    (hs : r.singular_values[5]? = some σ) (ρ : ℝ)
    (hρ : ρ = 4 * η * Real.sqrt bs.length / σ * Real.sqrt (1 + Spec.translationLength r.dq_H_E ^ 2 / 4)) (hρ2 : ρ ≤ 1 / 2) (p : Vec3) :
    Spec.dist (Spec.motion r.dq_H_E p) (Spec.motion X p) ≤
      ρ * (2 * Spec.dist p ⟨0, 0, 0⟩ + 4 + 3 * Spec.translationLength X + 2 * Spec.translationLength r.dq_H_E) := by
  obtain ⟨hz, hzd⟩ := isUnit_norm hu
  obtain ⟨hXr, hXd⟩ := isUnit_norm hX
  obtain ⟨α, β, er, ed, e1, e2, e3⟩ := measured_decomposition hsvd h0 hX he hm h hσ hs
  have hρ0 : 0 ≤ ρ := by rw [hρ]; positivity
  have hρs : ρ ^ 2 = (4 * η * Real.sqrt bs.length / σ) ^ 2 * (1 + ‖r.dq_H_E.dual.toH‖ ^ 2) := by
    rw [hρ, mul_pow, Real.sq_sqrt (by positivity), translationLength_eq]; ring
  rw [← hρs] at e3
  have n1 : ‖er‖ ≤ ρ := by
    apply abs_le_of_sq_le_sq' _ hρ0 |>.2
    nlinarith [sq_nonneg ‖ed‖]
  have n2 : ‖ed‖ ≤ ρ := by
    apply abs_le_of_sq_le_sq' _ hρ0 |>.2
    nlinarith [sq_nonneg ‖er‖]
  have r1 := rotation_estimate (v := p.toH) hz hXr e1 n1
  have r2 := translation_estimate hz hXr hzd hXd e1 e2 n1 n2 hρ2
  rw [Spec.motion, Spec.motion, hu.1, hX.1]
  refine (dist_imPart _ _).trans ?_
  rw [one_div_one, one_smul, one_smul, dist_zero_toH, translationLength_eq, translationLength_eq]
  rw [show ∀ a b c d : ℍ[ℝ], a + b - (c + d) = (a - c) + (b - d) by intros; abel]
  refine (norm_add_le _ _).trans ?_
  nlinarith

/-- The sign of the quadratic form of the solver on the projection of a vector that is almost in the plane. -/
theorem projected_sign {V : Matrix (Fin 8) (Fin 8) ℝ} (hV : V * V.transpose = 1) {ε : ℝ} (hε : ε ^ 2 = 1) {y : Fin 8 → ℝ} {D γ : ℝ}
    (hyN : Spec.sumSq y = 2 + D ^ 2) (hqy : ∑ i : Fin 4, y (Fin.castAdd 4 i) * y (Fin.natAdd 4 i) = ε)
    (hp : 2 + D ^ 2 - (V *ᵥ y) 6 ^ 2 - (V *ᵥ y) 7 ^ 2 ≤ γ ^ 2 * (2 + D ^ 2)) (hγ0 : 0 ≤ γ) (hγ : γ * (2 + D ^ 2) ≤ 1 / 2) :
    0 < ε * ∑ i : Fin 4, ((V *ᵥ y) 6 * V 6 (Fin.castAdd 4 i) + (V *ᵥ y) 7 * V 7 (Fin.castAdd 4 i)) *
      ((V *ᵥ y) 6 * V 6 (Fin.natAdd 4 i) + (V *ᵥ y) 7 * V 7 (Fin.natAdd 4 i)) := by
  have h66 : V 6 ⬝ᵥ V 6 = 1 := by have := congrFun (congrFun hV 6) 6; simpa [mul_apply, dotProduct] using this
  have h77 : V 7 ⬝ᵥ V 7 = 1 := by have := congrFun (congrFun hV 7) 7; simpa [mul_apply, dotProduct] using this
  have h67 : V 6 ⬝ᵥ V 7 = 0 := by have := congrFun (congrFun hV 6) 7; simpa [mul_apply, dotProduct] using this
  have h6y : V 6 ⬝ᵥ y = (V *ᵥ y) 6 := rfl
  have h7y : V 7 ⬝ᵥ y = (V *ᵥ y) 7 := rfl
  generalize (V *ᵥ y) 6 = a at *
  generalize (V *ᵥ y) 7 = b at *
  set e : Fin 8 → ℝ := y - (a • V 6 + b • V 7) with he
  have hes : Spec.sumSq e = 2 + D ^ 2 - a ^ 2 - b ^ 2 := by
    rw [← hyN, sumSq_eq_dot, sumSq_eq_dot, he]
    simp only [sub_dotProduct, dotProduct_sub, add_dotProduct, dotProduct_add, smul_dotProduct, dotProduct_smul, h66, h77, h67,
      dotProduct_comm (V 7) (V 6), dotProduct_comm y (V 6), dotProduct_comm y (V 7), h6y, h7y, smul_eq_mul]
    ring
  rw [← hes] at hp
  have hpe : ∀ j, a * V 6 j + b * V 7 j = y j - e j := by
    intro j
    simp [he]
  simp only [hpe]
  have hS2 : (∑ j : Fin 8, y (j + 4) * e j) ^ 2 ≤ (γ * (2 + D ^ 2)) ^ 2 := by
    refine (Finset.sum_mul_sq_le_sq_mul_sq _ _ _).trans ?_
    have h1 : ∑ j : Fin 8, y (j + 4) ^ 2 = 2 + D ^ 2 := by
      rw [← hyN, Spec.sumSq, Fin.sum_univ_eight, Fin.sum_univ_eight]
      simp
      ring
    rw [h1]
    change _ * Spec.sumSq e ≤ _
    have : 0 ≤ 2 + D ^ 2 := by positivity
    nlinarith
  have hS := abs_le.mp (abs_le_of_sq_le_sq hS2 (by positivity))
  have hq1 : ∑ i : Fin 4, e (Fin.castAdd 4 i) * e (Fin.natAdd 4 i) ≤ Spec.sumSq e / 2 := by
    rw [Spec.sumSq, Fin.sum_univ_eight, Fin.sum_univ_four]
    simp
    nlinarith [sq_nonneg (e 0 - e 4), sq_nonneg (e 1 - e 5), sq_nonneg (e 2 - e 6), sq_nonneg (e 3 - e 7)]
  have hq2 : -(Spec.sumSq e / 2) ≤ ∑ i : Fin 4, e (Fin.castAdd 4 i) * e (Fin.natAdd 4 i) := by
    rw [Spec.sumSq, Fin.sum_univ_eight, Fin.sum_univ_four]
    simp
    nlinarith [sq_nonneg (e 0 + e 4), sq_nonneg (e 1 + e 5), sq_nonneg (e 2 + e 6), sq_nonneg (e 3 + e 7)]
  have hexp : ∑ i : Fin 4, (y (Fin.castAdd 4 i) - e (Fin.castAdd 4 i)) * (y (Fin.natAdd 4 i) - e (Fin.natAdd 4 i)) =
      ε - ∑ j : Fin 8, y (j + 4) * e j + ∑ i : Fin 4, e (Fin.castAdd 4 i) * e (Fin.natAdd 4 i) := by
    rw [← hqy, Fin.sum_univ_eight, Fin.sum_univ_four, Fin.sum_univ_four, Fin.sum_univ_four]
    simp
    ring
  rw [hexp]
  generalize ∑ j : Fin 8, y (j + 4) * e j = S at *
  generalize ∑ i : Fin 4, e (Fin.castAdd 4 i) * e (Fin.natAdd 4 i) = Q at *
  have hγ4 : γ ≤ 1 / 4 := by nlinarith [sq_nonneg D]
  have hγ2 : γ ^ 2 * (2 + D ^ 2) ≤ 1 / 8 := by nlinarith
  have hε' : (ε - 1) * (ε + 1) = 0 := by linear_combination hε
  rcases mul_eq_zero.mp hε' with h | h
  · rw [show ε = 1 by linarith]; linarith [hS.1, hS.2]
  · rw [show ε = -1 by linarith]; linarith [hS.1, hS.2]

/-- A quadratic form that takes both signs has a root of the form `(t, 1)`. -/
theorem indefinite_root {u v : Fin 8 → ℝ} {a b a' b' : ℝ}
    (h1 : 0 < ∑ i : Fin 4, (a * u (Fin.castAdd 4 i) + b * v (Fin.castAdd 4 i)) * (a * u (Fin.natAdd 4 i) + b * v (Fin.natAdd 4 i)))
    (h2 : ∑ i : Fin 4, (a' * u (Fin.castAdd 4 i) + b' * v (Fin.castAdd 4 i)) * (a' * u (Fin.natAdd 4 i) + b' * v (Fin.natAdd 4 i)) < 0) :
    ∃ t : ℝ, ∑ i : Fin 4, (t * u (Fin.castAdd 4 i) + v (Fin.castAdd 4 i)) * (t * u (Fin.natAdd 4 i) + v (Fin.natAdd 4 i)) = 0 := by
  obtain ⟨A, B, C, hf⟩ : ∃ A B C : ℝ, ∀ a b : ℝ, ∑ i : Fin 4, (a * u (Fin.castAdd 4 i) + b * v (Fin.castAdd 4 i)) *
      (a * u (Fin.natAdd 4 i) + b * v (Fin.natAdd 4 i)) = A * a ^ 2 + B * a * b + C * b ^ 2 := by
    refine ⟨∑ i : Fin 4, u (Fin.castAdd 4 i) * u (Fin.natAdd 4 i),
      ∑ i : Fin 4, (u (Fin.castAdd 4 i) * v (Fin.natAdd 4 i) + v (Fin.castAdd 4 i) * u (Fin.natAdd 4 i)),
      ∑ i : Fin 4, v (Fin.castAdd 4 i) * v (Fin.natAdd 4 i), fun a b => ?_⟩
    simp only [Fin.sum_univ_four]
    ring
  rw [hf] at h1 h2
  have hd : 0 ≤ B ^ 2 - 4 * A * C := by
    by_contra hd
    push Not at hd
    have k1 : 0 ≤ 4 * A * (A * a ^ 2 + B * a * b + C * b ^ 2) := by
      nlinarith [sq_nonneg (2 * A * a + B * b), sq_nonneg b]
    have k2 : 0 ≤ 4 * A * (A * a' ^ 2 + B * a' * b' + C * b' ^ 2) := by
      nlinarith [sq_nonneg (2 * A * a' + B * b'), sq_nonneg b']
    have hA0 : A = 0 := by
      apply le_antisymm
      · by_contra hA
        push Not at hA
        have := mul_neg_of_pos_of_neg (by linarith : (0 : ℝ) < 4 * A) h2
        linarith
      · by_contra hA
        push Not at hA
        have := mul_neg_of_neg_of_pos (by linarith : 4 * A < 0) h1
        linarith
    rw [hA0] at hd
    nlinarith [sq_nonneg B]
  have hf' : ∀ t : ℝ, ∑ i : Fin 4, (t * u (Fin.castAdd 4 i) + v (Fin.castAdd 4 i)) * (t * u (Fin.natAdd 4 i) + v (Fin.natAdd 4 i)) =
      A * t ^ 2 + B * t + C := by
    intro t
    have := hf t 1
    simp only [one_mul] at this
    rw [this]; ring
  simp only [hf']
  by_cases hA : A = 0
  · have hB : B ≠ 0 := by
      intro hB
      rw [hA, hB] at h1 h2
      have : 0 < C * b ^ 2 := by linarith
      have hC : 0 < C := by
        by_contra hC
        push Not at hC
        nlinarith [sq_nonneg b]
      nlinarith [sq_nonneg b']
    refine ⟨-C / B, ?_⟩
    rw [hA]; field_simp; ring
  · refine ⟨(-B + Real.sqrt (B ^ 2 - 4 * A * C)) / (2 * A), ?_⟩
    have := Real.sq_sqrt hd
    generalize Real.sqrt (B ^ 2 - 4 * A * C) = w at *
    field_simp
    linear_combination this

/-- **C85**: if the noise is small compared with the sixth singular value and the size of the true translation, the returned
calibration is a rigid motion (the quadratic of the solver has real roots).  Partial for the same reason. -/
theorem C85_rigid_partial (svd : Svd) (hsvd : ∀ T s V, svd T = .ok (s, V) → Spec.IsSVD T s V) (η : ℝ) (h0 : 0 ≤ η)
    (X : DQuat) (hX : Spec.IsUnit X) (enf : Bool) (bs ws bs₀ ws₀ : List DQuat)
    (he : Spec.Exact bs₀ ws₀ X) (hm : Spec.Measured enf η bs₀ ws₀ bs ws) (tol : ℝ) (r : Calibration)
    (h : computeHandEyeCalibration svd bs ws tol enf = .ok r) (σ : ℝ) (hσ : 0 < σ)
    (hs : r.singular_values[5]? = some σ)
    (hγ : 4 * η * Real.sqrt bs.length / σ * (2 + Spec.translationLength X ^ 2 / 4) ≤ 1 / 2) : Spec.IsUnit r.dq_H_E := by
  obtain ⟨_, _, T, V, hT, hV, hroot⟩ := C29_returned_calibration svd bs ws tol enf r h
  apply hroot
  have hIs := hsvd _ _ _ hV
  obtain ⟨hXr, hXd⟩ := isUnit_norm hX
  set γ := 4 * η * Real.sqrt bs.length / σ with hγd
  have hγ0 : 0 ≤ γ := by rw [hγd]; positivity
  have hN : 2 + Spec.translationLength X ^ 2 / 4 = 2 + ‖X.dual.toH‖ ^ 2 := by rw [translationLength_eq]; ring
  rw [hN] at hγ
  -- the values of the quadratic form on the projections of X plus and minus the degenerate solution
  have key : ∀ ε : ℝ, ε ^ 2 = 1 → ∃ a b : ℝ, 0 < ε * ∑ i : Fin 4, (a * V 6 (Fin.castAdd 4 i) + b * V 7 (Fin.castAdd 4 i)) *
      (a * V 6 (Fin.natAdd 4 i) + b * V 7 (Fin.natAdd 4 i)) := by
    intro ε hε
    have hp := measured_off_plane hsvd h0 hX he hm h hT hV hσ hs 1 ε _ rfl
    rw [one_smul] at hp
    set y := Spec.vec8 X + ε • Spec.vec8 ⟨⟨0, 0, 0, 0⟩, X.rot⟩ with hy
    have hyN : Spec.sumSq y = 2 + ‖X.dual.toH‖ ^ 2 := by
      have hx2 := norm_sq_toH X.rot
      rw [hXr] at hx2
      have hd2 := norm_sq_toH X.dual
      simp at hXd
      rw [Spec.sumSq, Fin.sum_univ_eight, hy, hd2]
      simp [Spec.vec8]
      linear_combination (-1 - ε ^ 2) * hx2 + 2 * ε * hXd + hε
    have hqy : ∑ i : Fin 4, y (Fin.castAdd 4 i) * y (Fin.natAdd 4 i) = ε := by
      have hx2 := norm_sq_toH X.rot
      rw [hXr] at hx2
      simp at hXd
      rw [Fin.sum_univ_four, hy]
      simp [Spec.vec8]
      linear_combination -ε * hx2 + hXd
    rw [hyN] at hp
    exact ⟨_, _, projected_sign hIs.orthogonal hε hyN hqy hp hγ0 hγ⟩
  obtain ⟨a, b, h1⟩ := key 1 (by norm_num)
  obtain ⟨a', b', h2⟩ := key (-1) (by norm_num)
  rw [one_mul] at h1
  rw [neg_one_mul] at h2
  exact indefinite_root h1 (by linarith)

/-- **C85**, in terms of the noise alone: with `γ = 4 η √n / σ`, if `γ` is small compared with the true translation, then the returned
calibration is a rigid motion and either it moves every point `p` to within `γ (2 + 5/4 |t₀|) (2 |p| + 8 + 8 |t₀|)` of where the true
calibration moves it, or its translation is longer than `√(1 / (4 γ²) - 4)`.  Partial for the same reason, and because of the second alternative. -/
theorem C85_proportional_partial (svd : Svd) (hsvd : ∀ T s V, svd T = .ok (s, V) → Spec.IsSVD T s V) (η : ℝ) (h0 : 0 ≤ η)
    (X : DQuat) (hX : Spec.IsUnit X) (enf : Bool) (bs ws bs₀ ws₀ : List DQuat)
    (he : Spec.Exact bs₀ ws₀ X) (hm : Spec.Measured enf η bs₀ ws₀ bs ws) (tol : ℝ) (r : Calibration)
    (h : computeHandEyeCalibration svd bs ws tol enf = .ok r) (σ : ℝ) (hσ : 0 < σ)
    (hs : r.singular_values[5]? = some σ) (γ : ℝ) (hγ : γ = 4 * η * Real.sqrt bs.length / σ)
    (hγ2 : γ * (2 + Spec.translationLength X ^ 2 / 4) ≤ 1 / 2) :
    Spec.IsUnit r.dq_H_E ∧
      ((∀ p : Vec3, Spec.dist (Spec.motion r.dq_H_E p) (Spec.motion X p) ≤
          γ * (2 + 5 / 4 * Spec.translationLength X) * (2 * Spec.dist p ⟨0, 0, 0⟩ + 8 + 8 * Spec.translationLength X)) ∨
        1 / 4 < γ ^ 2 * (4 + Spec.translationLength r.dq_H_E ^ 2)) := by
  subst hγ
  have hu := C85_rigid_partial svd hsvd η h0 X hX enf bs ws bs₀ ws₀ he hm tol r h σ hσ hs hγ2
  refine ⟨hu, ?_⟩
  by_cases hbig : 1 / 4 < (4 * η * Real.sqrt bs.length / σ) ^ 2 * (4 + Spec.translationLength r.dq_H_E ^ 2)
  · exact Or.inr hbig
  left
  push Not at hbig
  intro p
  obtain ⟨hz, hzd⟩ := isUnit_norm hu
  obtain ⟨hXr, hXd⟩ := isUnit_norm hX
  obtain ⟨α, β, er, ed, e1, e2, e3⟩ := measured_decomposition hsvd h0 hX he hm h hσ hs
  obtain ⟨ρ, hρ⟩ : ∃ ρ, ρ = 4 * η * Real.sqrt bs.length / σ * Real.sqrt (1 + Spec.translationLength r.dq_H_E ^ 2 / 4) := ⟨_, rfl⟩
  have hγ0 : 0 ≤ 4 * η * Real.sqrt bs.length / σ := by positivity
  have hρ0 : 0 ≤ ρ := by rw [hρ]; positivity
  have hρs' : ρ ^ 2 = (4 * η * Real.sqrt bs.length / σ) ^ 2 * (1 + Spec.translationLength r.dq_H_E ^ 2 / 4) := by
    rw [hρ, mul_pow, Real.sq_sqrt (by positivity)]
  have hρs : ρ ^ 2 = (4 * η * Real.sqrt bs.length / σ) ^ 2 * (1 + ‖r.dq_H_E.dual.toH‖ ^ 2) := by
    rw [hρs', translationLength_eq]; ring
  have hρ4 : ρ ≤ 1 / 4 := by
    apply abs_le_of_sq_le_sq' _ (by norm_num) |>.2
    nlinarith
  rw [← hρs] at e3
  have n1 : ‖er‖ ≤ ρ := by
    apply abs_le_of_sq_le_sq' _ hρ0 |>.2
    nlinarith [sq_nonneg ‖ed‖]
  have n2 : ‖ed‖ ≤ ρ := by
    apply abs_le_of_sq_le_sq' _ hρ0 |>.2
    nlinarith [sq_nonneg ‖er‖]
  have hmod := moderate_estimate hz hXr hzd hXd e1 e2 n1 n2 hρ4
  have hfin := C85_motion_error_partial svd hsvd η h0 X hX enf bs ws bs₀ ws₀ he hm tol r h hu σ hσ hs ρ hρ (by linarith) p
  refine hfin.trans ?_
  have hd0 := norm_nonneg X.dual.toH
  have hz0 := norm_nonneg r.dq_H_E.dual.toH
  have hp0 := norm_nonneg p.toH
  have hρle : ρ ≤ 4 * η * Real.sqrt bs.length / σ * (2 + 5 / 4 * Spec.translationLength X) := by
    rw [hρ]
    apply mul_le_mul_of_nonneg_left _ hγ0
    rw [translationLength_eq, translationLength_eq]
    apply Real.sqrt_le_iff.mpr ⟨by positivity, ?_⟩
    nlinarith
  rw [dist_zero_toH, translationLength_eq, translationLength_eq] at *
  apply mul_le_mul hρle _ (by positivity) (by positivity)
  linarith

end HandEye
