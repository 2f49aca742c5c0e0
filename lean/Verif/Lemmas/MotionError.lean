import Verif.Lemmas.RoundedSolver2
import Verif.Lemmas.Noise2

/-! # Lemmas: errors of rotations and motions of dual quaternions that need not be normalised or rigid -/

open Quaternion

namespace HandEye

/-- Translations, up to a real part, without the condition that the first dual quaternion is rigid. -/
theorem translation_estimate_real {zr zd r d er ed : ℍ[ℝ]} {α β ρ : ℝ} (hz : ‖zr‖ = 1) (hr : ‖r‖ = 1) (h1 : zr = α • r + er)
    (h2 : zd = α • d + β • r + ed) (he1 : ‖er‖ ≤ ρ) (he2 : ‖ed‖ ≤ ρ) (hρ : ρ ≤ 1 / 2) :
    ∃ c : ℝ, ‖(2 : ℝ) • (zd * star zr) - (2 : ℝ) • (d * star r) - (c : ℍ[ℝ])‖ ≤ ρ * (4 + 8 * ‖d‖ + 4 * ‖zd‖) := by
  have hρ0 : 0 ≤ ρ := (norm_nonneg _).trans he1
  have hα : |(|α| - 1)| ≤ ρ := by
    have a1 : ‖α • r‖ = |α| := by rw [norm_smul, hr, mul_one, Real.norm_eq_abs]
    have a2 := norm_add_le (α • r) er
    have a3 := norm_sub_le zr er
    rw [← h1, hz, a1] at a2
    rw [hz, h1, add_sub_cancel_right, a1] at a3
    rw [abs_le]
    constructor <;> linarith
  have hα1 : 1 / 2 ≤ |α| := by have := abs_le.mp hα; linarith
  have hα0 : α ≠ 0 := by intro e; rw [e, abs_zero] at hα1; norm_num at hα1
  obtain ⟨s, hs1, hs2⟩ : ∃ s : ℝ, |s| = 1 ∧ |α - s| ≤ ρ := by
    rcases le_total 0 α with h | h
    · exact ⟨1, abs_one, by rwa [abs_of_nonneg h] at hα⟩
    · refine ⟨-1, by rw [abs_neg, abs_one], ?_⟩
      rw [abs_of_nonpos h] at hα
      rw [show α - -1 = -(-α - 1) by ring, abs_neg]
      exact hα
  have hss : s * s = 1 := by rw [← abs_mul_abs_self, hs1]; norm_num
  have hβ : |β| ≤ ‖zd‖ + |α| * ‖d‖ + ρ := by
    have e : β • r = zd - α • d - ed := by rw [h2]; abel
    have n1 : ‖β • r‖ = |β| := by rw [norm_smul, hr, mul_one, Real.norm_eq_abs]
    rw [← n1, e]
    have := norm_sub_le (zd - α • d) ed
    have := norm_sub_le zd (α • d)
    rw [norm_smul, Real.norm_eq_abs] at this
    linarith
  have hβα : |β / α| ≤ 2 * ‖zd‖ + ‖d‖ + 2 * ρ := by
    rw [abs_div, div_le_iff₀ (by linarith)]
    have h0 := norm_nonneg zd
    nlinarith
  refine ⟨2 * (β / α), ?_⟩
  have hr' : r = α⁻¹ • (zr - er) := by
    rw [h1, add_sub_cancel_right, smul_smul, inv_mul_cancel₀ hα0, one_smul]
  have e1 : zd * star zr = (α • d + ed) * star zr + (β / α) • ((1 : ℍ[ℝ]) - er * star zr) := by
    have : β • r = (β / α) • (zr - er) := by
      conv_lhs => rw [hr', smul_smul]
      rw [div_eq_mul_inv]
    rw [h2, show α • d + β • r + ed = (α • d + ed) + β • r by abel, add_mul, this, smul_mul_assoc, sub_mul, norm_self_mul_star hz]
  have e2 : (2 : ℝ) • (zd * star zr) - (2 : ℝ) • (d * star r) - ((2 * (β / α) : ℝ) : ℍ[ℝ]) =
      (2 : ℝ) • (((α - s) • d) * star zr + ed * star zr + d * star (s • zr - r) - (β / α) • (er * star zr)) := by
    have e3 : ((2 * (β / α) : ℝ) : ℍ[ℝ]) = (2 : ℝ) • (β / α) • (1 : ℍ[ℝ]) := by
      rw [smul_smul, ← Quaternion.coe_mul_eq_smul, mul_one]
    rw [e1, e3, ← smul_sub, ← smul_sub]
    congr 1
    rw [star_sub, Quaternion.star_smul, mul_sub, sub_smul, sub_mul, smul_sub, add_mul, mul_smul_comm, smul_mul_assoc s]
    abel
  have n2 : ‖s • zr - r‖ ≤ 2 * ρ := by
    have : s • zr - r = s • ((α - s) • r + er) := by
      rw [h1, smul_add, smul_add, smul_smul, smul_smul, mul_sub, hss, sub_smul, one_smul]
      abel
    rw [this, norm_smul, Real.norm_eq_abs, hs1, one_mul]
    refine (norm_add_le _ _).trans ?_
    rw [norm_smul, hr, mul_one, Real.norm_eq_abs]
    linarith
  rw [e2, norm_smul, Real.norm_eq_abs, abs_two]
  have k1 : ‖((α - s) • d) * star zr‖ ≤ ρ * ‖d‖ := by
    rw [norm_mul, norm_smul, Quaternion.norm_star, hz, mul_one, Real.norm_eq_abs]
    exact mul_le_mul_of_nonneg_right hs2 (norm_nonneg _)
  have k2 : ‖ed * star zr‖ ≤ ρ := by rw [norm_mul, Quaternion.norm_star, hz, mul_one]; exact he2
  have k3 : ‖d * star (s • zr - r)‖ ≤ ‖d‖ * (2 * ρ) := by
    rw [norm_mul, Quaternion.norm_star]
    exact mul_le_mul_of_nonneg_left n2 (norm_nonneg _)
  have k4 : ‖(β / α) • (er * star zr)‖ ≤ (2 * ‖zd‖ + ‖d‖ + 2 * ρ) * ρ := by
    rw [norm_smul, norm_mul, Quaternion.norm_star, hz, mul_one, Real.norm_eq_abs]
    exact mul_le_mul hβα he1 (norm_nonneg _) (by positivity)
  have t1 := norm_sub_le (((α - s) • d) * star zr + ed * star zr + d * star (s • zr - r)) ((β / α) • (er * star zr))
  have t2 := norm_add_le (((α - s) • d) * star zr + ed * star zr) (d * star (s • zr - r))
  have t3 := norm_add_le (((α - s) • d) * star zr) (ed * star zr)
  nlinarith

/-- How far a dual quaternion that is almost in the plane of the solutions moves a point from where it should be. -/
theorem motion_estimate {a X : DQuat} (hX : Spec.IsUnit X) (ha : 0 < ‖a.rot.toH‖) {α β ρ : ℝ} {er ed : ℍ[ℝ]}
    (h1 : a.rot.toH = α • X.rot.toH + er) (h2 : a.dual.toH = α • X.dual.toH + β • X.rot.toH + ed)
    (he : ‖er‖ ^ 2 + ‖ed‖ ^ 2 ≤ (ρ * ‖a.rot.toH‖) ^ 2) (hρ0 : 0 ≤ ρ) (hρ : ρ ≤ 1 / 2) (p : Vec3) :
    Spec.dist (Spec.motion a p) (Spec.motion X p) ≤
      ρ * (2 * Spec.dist p ⟨0, 0, 0⟩ + 4 + 4 * Spec.translationLength X + 2 * (Spec.translationLength a / ‖a.rot.toH‖)) := by
  obtain ⟨hXr, hXd⟩ := isUnit_norm hX
  set N := ‖a.rot.toH‖ with hN
  set zr := N⁻¹ • a.rot.toH with hzr
  set zd := N⁻¹ • a.dual.toH with hzd
  have hz : ‖zr‖ = 1 := by rw [hzr, norm_smul, norm_inv, Real.norm_of_nonneg ha.le, inv_mul_cancel₀ ha.ne']
  have hzdn : ‖zd‖ = ‖a.dual.toH‖ / N := by rw [hzd, norm_smul, norm_inv, Real.norm_of_nonneg ha.le]; ring
  have g1 : zr = (N⁻¹ * α) • X.rot.toH + N⁻¹ • er := by rw [hzr, h1, smul_add, smul_smul]
  have g2 : zd = (N⁻¹ * α) • X.dual.toH + (N⁻¹ * β) • X.rot.toH + N⁻¹ • ed := by rw [hzd, h2, smul_add, smul_add, smul_smul, smul_smul]
  have bound : ∀ e : ℍ[ℝ], ‖e‖ ^ 2 ≤ (ρ * N) ^ 2 → ‖N⁻¹ • e‖ ≤ ρ := by
    intro e he
    have := abs_le_of_sq_le_sq' he (by positivity) |>.2
    rw [norm_smul, norm_inv, Real.norm_of_nonneg ha.le, inv_mul_le_iff₀ ha]
    linarith
  have n1 := bound er (by nlinarith [sq_nonneg ‖ed‖])
  have n2 := bound ed (by nlinarith [sq_nonneg ‖er‖])
  have r1 := rotation_estimate (v := p.toH) hz hXr g1 n1
  obtain ⟨c, r2⟩ := translation_estimate_real hz hXr g1 g2 n1 n2 hρ
  have e1 : Spec.motion a p = Spec.imPart (zr * p.toH * star zr + (2 : ℝ) • (zd * star zr) - (c : ℍ[ℝ])) := by
    have f1 : (1 / Quaternion.normSq a.rot.toH) • (a.rot.toH * p.toH * star a.rot.toH + (2 : ℝ) • (a.dual.toH * star a.rot.toH)) =
        zr * p.toH * star zr + (2 : ℝ) • (zd * star zr) := by
      rw [hzr, hzd, Quaternion.star_smul, Quaternion.normSq_eq_norm_mul_self, ← hN]
      simp only [smul_mul_assoc, mul_smul_comm, smul_smul, smul_add]
      congr 2 <;> field_simp
    rw [Spec.motion, f1]
    simp [Spec.imPart]
  have e2 : Spec.motion X p = Spec.imPart (X.rot.toH * p.toH * star X.rot.toH + (2 : ℝ) • (X.dual.toH * star X.rot.toH)) := by
    rw [Spec.motion, hX.1, one_div_one, one_smul]
  rw [e1, e2]
  refine (dist_imPart _ _).trans ?_
  rw [dist_zero_toH, translationLength_eq, translationLength_eq]
  rw [show ∀ a b c d e : ℍ[ℝ], a + b - e - (c + d) = (a - c) + (b - d - e) by intros; abel]
  refine (norm_add_le _ _).trans ?_
  rw [hzdn] at r2
  have : 2 * (2 * ‖a.dual.toH‖ / N) = 4 * (‖a.dual.toH‖ / N) := by ring
  nlinarith

/-- The angle between the rotation of a dual quaternion and a rotation that is almost parallel. -/
theorem angle_estimate {a X : DQuat} (hX : Spec.IsUnit X) (ha : 0 < ‖a.rot.toH‖) {α ρ : ℝ} {er : ℍ[ℝ]}
    (h1 : a.rot.toH = α • X.rot.toH + er) (he : ‖er‖ ^ 2 ≤ (ρ * ‖a.rot.toH‖) ^ 2) : 1 - Spec.cosHalf a.rot X.rot ^ 2 ≤ ρ ^ 2 := by
  obtain ⟨hXr, _⟩ := isUnit_norm hX
  have hXr' := hXr
  rw [norm_toH] at hXr'
  have hx2 := norm_sq_toH X.rot
  rw [hXr] at hx2
  have ha2 := norm_sq_toH a.rot
  rw [Spec.cosHalf, hXr', mul_one, ← norm_toH, div_pow, sq_abs]
  have e5 : er = (a.rot - α • X.rot).toH := by rw [Quat.toH_sub, Quat.toH_smul, h1]; abel
  rw [e5, norm_sq_toH] at he
  simp only [Quat.sub_x, Quat.sub_y, Quat.sub_z, Quat.sub_w, Quat.smul_x, Quat.smul_y, Quat.smul_z, Quat.smul_w] at he
  generalize hc : a.rot.x * X.rot.x + a.rot.y * X.rot.y + a.rot.z * X.rot.z + a.rot.w * X.rot.w = c
  generalize ‖a.rot.toH‖ = N at *
  have e6 : (a.rot.x - α * X.rot.x) ^ 2 + (a.rot.y - α * X.rot.y) ^ 2 + (a.rot.z - α * X.rot.z) ^ 2 + (a.rot.w - α * X.rot.w) ^ 2 =
      N ^ 2 - 2 * α * c + α ^ 2 := by
    rw [← hc]; linear_combination -ha2 - α ^ 2 * hx2
  rw [e6] at he
  have hN : 0 < N ^ 2 := by positivity
  rw [sub_le_iff_le_add, ← sub_le_iff_le_add', le_div_iff₀ hN]
  nlinarith [sq_nonneg (α - c)]

end HandEye
