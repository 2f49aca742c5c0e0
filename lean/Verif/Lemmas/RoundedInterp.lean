import Verif.Model.RoundedInterp
import Verif.Lemmas.Arc
import Verif.Lemmas.RoundedDual
import Verif.Props.Rounded2

/-! # Lemmas about the interpolation in floating-point arithmetic -/

namespace HandEye

open Quaternion

theorem inner_toH (p q : Quat) : inner ℝ p.toH q.toH = p.x * q.x + p.y * q.y + p.z * q.z + p.w * q.w := by
  rw [Quaternion.inner_def, Quaternion.re_mul, Quaternion.re_star, Quaternion.imI_star, Quaternion.imJ_star, Quaternion.imK_star]
  show p.w * q.w - p.x * -q.x - p.y * -q.y - p.z * -q.z = _
  ring

namespace Arith

variable {u : ℝ} {A : Arith}

theorem sub_near (h : Spec.Machine u A) (p q : Quat) : ‖(A.sub p q).toH - (p.toH - q.toH)‖ ≤ u * ‖p.toH - q.toH‖ := by
  rw [← Quat.toH_sub]
  exact gap_le_of_relative h.nonneg (h.rounds _) (h.rounds _) (h.rounds _) (h.rounds _)

theorem dot_near (h : Spec.Machine u A) (p q : Quat) : |A.dot p q - inner ℝ p.toH q.toH| ≤ 5 * u * (‖p.toH‖ * ‖q.toH‖) := by
  have h1 := h.dots p q
  have hg := growth h
  have hn := growth_nonneg h
  have h2 := cauchy_abs p.x p.y p.z p.w q.x q.y q.z q.w
  rw [← Spec.len, ← Spec.len, len_eq, len_eq] at h2
  rw [inner_toH]
  refine h1.trans ?_
  have := norm_nonneg p.toH
  have := norm_nonneg q.toH
  exact mul_le_mul hg h2 (by positivity) (by linarith)

/-- What `normalize` returns is never long, and has the right direction if there is one. -/
theorem normalize_short (h : Spec.Machine u A) (w : Quat) : ‖(A.normalize w).toH‖ ≤ 2 := by
  have h0 := h.nonneg
  have hs := h.small
  have hn := norm_near h w
  have hw := norm_nonneg w.toH
  unfold normalize
  split
  · rename_i hbig
    have hne : w.toH ≠ 0 := by
      intro hz
      rw [hz, norm_zero, mul_zero, sub_zero] at hn
      have := (_root_.abs_le.mp hn).2
      norm_num at hbig
      linarith
    have h1 := (quot_norm_near h hne w).1
    have e : ‖‖w.toH‖⁻¹ • w.toH‖ = 1 := by rw [norm_smul, norm_inv, norm_norm, inv_mul_cancel₀ (norm_ne_zero_iff.mpr hne)]
    rw [e] at h1
    have := norm_le_norm_add_norm_sub' (A.quot w (A.norm w)).toH (‖w.toH‖⁻¹ • w.toH)
    rw [e] at this
    linarith
  · rename_i hsmall
    have := (_root_.abs_le.mp hn).1
    norm_num at hsmall
    nlinarith

/-- The quaternion from which the interpolation starts. -/
theorem slerpFrom_near (h : Spec.Machine u A) {δ : ℝ} (hδ : 10 * u ≤ δ) (hδ1 : δ ≤ 4e-6) {q1 q2 : Quat} (h1 : |‖q1.toH‖ - 1| ≤ δ)
    (h2 : |‖q2.toH‖ - 1| ≤ δ) :
    ((A.slerpFrom q1 q2).2 = q1 ∨ (A.slerpFrom q1 q2).2 = -q1) ∧ -1 ≤ (A.slerpFrom q1 q2).1 ∧ (A.slerpFrom q1 q2).1 ≤ 1 ∧
      |(A.slerpFrom q1 q2).1 - inner ℝ (‖q1.toH‖⁻¹ • (A.slerpFrom q1 q2).2.toH) (‖q2.toH‖⁻¹ • q2.toH)| ≤ 2.6 * δ ∧
      -(2.6 * δ) ≤ inner ℝ (‖q1.toH‖⁻¹ • (A.slerpFrom q1 q2).2.toH) (‖q2.toH‖⁻¹ • q2.toH) := by
  have h0 := h.nonneg
  have hd := dot_near h q1 q2
  obtain ⟨a1, b1⟩ := _root_.abs_le.mp h1
  obtain ⟨a2, b2⟩ := _root_.abs_le.mp h2
  norm_num at hδ1
  have p1 : 0 < ‖q1.toH‖ := by linarith
  have p2 : 0 < ‖q2.toH‖ := by linarith
  have hp : ‖‖q1.toH‖⁻¹ • q1.toH‖ = 1 := by rw [norm_smul, norm_inv, norm_norm, inv_mul_cancel₀ p1.ne']
  have hq : ‖‖q2.toH‖⁻¹ • q2.toH‖ = 1 := by rw [norm_smul, norm_inv, norm_norm, inv_mul_cancel₀ p2.ne']
  obtain ⟨c1, c2⟩ := inner_bounds hp hq
  have hC : inner ℝ q1.toH q2.toH = ‖q1.toH‖ * ‖q2.toH‖ * inner ℝ (‖q1.toH‖⁻¹ • q1.toH) (‖q2.toH‖⁻¹ • q2.toH) := by
    rw [real_inner_smul_left, real_inner_smul_right]
    field_simp
  set C := inner ℝ (‖q1.toH‖⁻¹ • q1.toH) (‖q2.toH‖⁻¹ • q2.toH) with hCdef
  have hN : |‖q1.toH‖ * ‖q2.toH‖ - 1| ≤ 2.001 * δ := by
    rw [_root_.abs_le]
    constructor <;> nlinarith
  obtain ⟨n1, n2⟩ := _root_.abs_le.mp hN
  have hkey : |A.dot q1 q2 - C| ≤ 2.6 * δ := by
    have e1 : |A.dot q1 q2 - inner ℝ q1.toH q2.toH| ≤ 0.51 * δ := by
      refine hd.trans ?_
      nlinarith
    have e2 : |inner ℝ q1.toH q2.toH - C| ≤ 2.001 * δ := by
      rw [hC, show ‖q1.toH‖ * ‖q2.toH‖ * C - C = (‖q1.toH‖ * ‖q2.toH‖ - 1) * C by ring, abs_mul]
      have : |C| ≤ 1 := _root_.abs_le.mpr ⟨c1, c2⟩
      have := abs_nonneg C
      nlinarith [abs_nonneg (‖q1.toH‖ * ‖q2.toH‖ - 1)]
    have := abs_sub_le (A.dot q1 q2) (inner ℝ q1.toH q2.toH) C
    linarith
  have clip : ∀ x c : ℝ, -1 ≤ c → c ≤ 1 → -1 ≤ npClip x (-1) 1 ∧ npClip x (-1) 1 ≤ 1 ∧ |npClip x (-1) 1 - c| ≤ |x - c| := by
    intro x c hc1 hc2
    unfold npClip
    rcases le_total x (-1) with hx | hx
    · rw [max_eq_right hx, min_eq_right (by norm_num)]
      refine ⟨le_rfl, by norm_num, ?_⟩
      rw [abs_of_nonpos (by linarith), abs_of_nonpos (by linarith)]
      linarith
    · rw [max_eq_left hx]
      rcases le_total x 1 with hx' | hx'
      · rw [min_eq_right hx']
        exact ⟨hx, hx', le_rfl⟩
      · rw [min_eq_left hx']
        refine ⟨by norm_num, le_rfl, ?_⟩
        rw [abs_of_nonneg (by linarith), abs_of_nonneg (by linarith)]
        linarith
  obtain ⟨k1, k2⟩ := _root_.abs_le.mp hkey
  unfold slerpFrom
  by_cases hneg : A.dot q1 q2 < 0
  · rw [if_pos hneg]
    dsimp only
    have e : inner ℝ (‖q1.toH‖⁻¹ • (-q1).toH) (‖q2.toH‖⁻¹ • q2.toH) = -C := by
      rw [Quat.toH_neg, smul_neg, inner_neg_left]
    rw [e]
    obtain ⟨d1, d2, d3⟩ := clip (-A.dot q1 q2) (-C) (by linarith) (by linarith)
    refine ⟨Or.inr rfl, d1, d2, d3.trans ?_, by linarith⟩
    rw [neg_sub_neg, abs_sub_comm]
    exact hkey
  · rw [if_neg hneg]
    dsimp only
    obtain ⟨d1, d2, d3⟩ := clip (A.dot q1 q2) C (by linarith) (by linarith)
    exact ⟨Or.inl rfl, d1, d2, d3.trans hkey, by linarith⟩

/-- The angle of the interpolated quaternion. -/
theorem slerp_angle (h : Spec.Machine u A) {e δ φ d C : ℝ} (he0 : 0 ≤ e) (he1 : e ≤ 1 / 100) (hacos : |A.acos d - Real.arccos d| ≤ e)
    (hδ : 10 * u ≤ δ) (hδ0 : 0 ≤ δ) (hδ1 : δ ≤ 4e-6) (hd1 : -1 ≤ d) (hd2 : d ≤ 1) (c1 : -1 ≤ C) (c2 : C ≤ 1) (hφ : φ = Real.arccos C)
    (hdC : |d - C| ≤ 2.6 * δ) {f : ℝ} (hf0 : 0 ≤ f) (hf1 : f ≤ 1) :
    |A.fl (A.acos d * f) - f * φ| ≤ e + 3.61 * Real.sqrt δ ∧ δ ≤ Real.sqrt δ / 500 ∧ Real.sqrt δ ≤ 1 / 500 := by
  have h0 := h.nonneg
  norm_num at hδ1
  set v := Real.sqrt δ with hv
  have hv0 : 0 ≤ v := Real.sqrt_nonneg _
  have hvv : v * v = δ := Real.mul_self_sqrt hδ0
  have hv1 : v ≤ 1 / 500 := by
    rw [hv]
    apply Real.sqrt_le_iff.mpr ⟨by norm_num, ?_⟩
    norm_num
    exact hδ1
  have hδv : δ ≤ v / 500 := by nlinarith
  have hpi := Real.pi_lt_d2
  have hpi0 := Real.pi_pos
  have hθ' : |A.acos d - φ| ≤ e + 3.6 * v := by
    have t2 := arccos_close ⟨hd1, hd2⟩ ⟨c1, c2⟩
    have t3 : Real.sqrt (|d - C| / 2) ≤ 1.141 * v := by
      apply Real.sqrt_le_iff.mpr ⟨by positivity, ?_⟩
      rw [mul_pow, sq v, hvv]
      nlinarith
    have t4 : Real.pi * Real.sqrt (|d - C| / 2) ≤ 3.15 * (1.141 * v) := by
      apply mul_le_mul (by linarith) t3 (Real.sqrt_nonneg _) (by norm_num)
    have := abs_sub_le (A.acos d) (Real.arccos d) φ
    rw [← hφ] at t2
    linarith
  have hφ0 : 0 ≤ φ := hφ ▸ Real.arccos_nonneg C
  have hφ1 : φ ≤ Real.pi := hφ ▸ Real.arccos_le_pi C
  set θ' := A.acos d with hθdef
  obtain ⟨s1, s2⟩ := _root_.abs_le.mp hθ'
  refine ⟨?_, hδv, hv1⟩
  have t1 := h.rounds (θ' * f)
  have t2 : |θ' * f| ≤ 4 := by
    rw [abs_mul, abs_of_nonneg hf0]
    have : |θ'| ≤ 4 := _root_.abs_le.mpr ⟨by linarith, by linarith⟩
    nlinarith [abs_nonneg θ']
  have t3 : |θ' * f - f * φ| ≤ e + 3.6 * v := by
    rw [show θ' * f - f * φ = f * (θ' - φ) by ring, abs_mul, abs_of_nonneg hf0]
    nlinarith [abs_nonneg (θ' - φ)]
  have t4 : u * |θ' * f| ≤ u * 4 := mul_le_mul_of_nonneg_left t2 h0
  have := abs_sub_le (A.fl (θ' * f)) (θ' * f) (f * φ)
  linarith

/-- The direction of the interpolation. -/
theorem slerp_direction (h : Spec.Machine u A) {δ d C : ℝ} (hδ : 10 * u ≤ δ) (hδ1 : δ ≤ 4e-6) {q1 q2 : Quat} {p q : ℍ[ℝ]} (hp : ‖p‖ = 1)
    (hq : ‖q‖ = 1) (ha : ‖q1.toH - p‖ ≤ δ) (hb : ‖q2.toH - q‖ ≤ δ) (hd1 : -1 ≤ d) (hd2 : d ≤ 1) (hdC : |d - C| ≤ 2.6 * δ) :
    ‖(A.sub q2 (A.smul d q1)).toH - (q - C • p)‖ ≤ 5 * δ := by
  have h0 := h.nonneg
  norm_num at hδ1
  have n1 : ‖q1.toH‖ ≤ 1.001 := by
    have := norm_le_norm_add_norm_sub' q1.toH p
    rw [hp] at this
    norm_num
    linarith
  have n2 : ‖q2.toH‖ ≤ 1.001 := by
    have := norm_le_norm_add_norm_sub' q2.toH q
    rw [hq] at this
    norm_num
    linarith
  have hd : |d| ≤ 1 := _root_.abs_le.mpr ⟨hd1, hd2⟩
  have hda : ‖d • q1.toH‖ ≤ 1.001 := by
    rw [norm_smul, Real.norm_eq_abs]
    nlinarith [abs_nonneg d, norm_nonneg q1.toH]
  have m1 := smul_near h d q1
  have m2 := sub_near h q2 (A.smul d q1)
  have m3 : ‖(A.smul d q1).toH - d • q1.toH‖ ≤ 0.11 * δ := m1.trans (by nlinarith)
  have m4 : ‖q2.toH - (A.smul d q1).toH‖ ≤ 2.1 := by
    have := norm_sub_le q2.toH (A.smul d q1).toH
    have := norm_le_norm_add_norm_sub' (A.smul d q1).toH (d • q1.toH)
    linarith
  have r7 : u * ‖q2.toH - (A.smul d q1).toH‖ ≤ 0.21 * δ := by nlinarith
  have r5 : ‖(d - C) • p‖ ≤ 2.6 * δ := by
    rw [norm_smul, hp, mul_one, Real.norm_eq_abs]
    exact hdC
  have r6 : ‖d • (q1.toH - p)‖ ≤ δ := by
    rw [norm_smul, Real.norm_eq_abs]
    nlinarith [abs_nonneg d, norm_nonneg (q1.toH - p)]
  generalize A.sub q2 (A.smul d q1) = W at *
  generalize A.smul d q1 = S at *
  have e5 : W.toH - (q - C • p) =
      (W.toH - (q2.toH - S.toH)) - (S.toH - d • q1.toH) + (q2.toH - q) - d • (q1.toH - p) - (d - C) • p := by module
  rw [e5]
  have r1 := norm_sub_le ((W.toH - (q2.toH - S.toH)) - (S.toH - d • q1.toH) + (q2.toH - q) - d • (q1.toH - p)) ((d - C) • p)
  have r2 := norm_sub_le ((W.toH - (q2.toH - S.toH)) - (S.toH - d • q1.toH) + (q2.toH - q)) (d • (q1.toH - p))
  have r3 := norm_add_le ((W.toH - (q2.toH - S.toH)) - (S.toH - d • q1.toH)) (q2.toH - q)
  have r4 := norm_sub_le (W.toH - (q2.toH - S.toH)) (S.toH - d • q1.toH)
  linarith

/-- The sum of the two parts. -/
theorem slerp_sum (h : Spec.Machine u A) {δ c s : ℝ} (hδ : 10 * u ≤ δ) (hδ1 : δ ≤ 4e-6) {a n : Quat} (hc : |c| ≤ 1.01) (hs : |s| ≤ 1.01)
    (ha : ‖a.toH‖ ≤ 1.001) (hn : ‖n.toH‖ ≤ 2) : ‖(A.add (A.smul c a) (A.smul s n)).toH - (c • a.toH + s • n.toH)‖ ≤ 0.7 * δ := by
  have h0 := h.nonneg
  norm_num at hδ1
  have k1 : ‖c • a.toH‖ ≤ 1.02 := by
    rw [norm_smul, Real.norm_eq_abs]
    nlinarith [abs_nonneg c, norm_nonneg a.toH]
  have k2 : ‖s • n.toH‖ ≤ 2.02 := by
    rw [norm_smul, Real.norm_eq_abs]
    nlinarith [abs_nonneg s, norm_nonneg n.toH]
  have g1 := smul_near h c a
  have g2 := smul_near h s n
  have g3 := add_near h (A.smul c a) (A.smul s n)
  generalize A.add (A.smul c a) (A.smul s n) = R at *
  generalize A.smul c a = P at *
  generalize A.smul s n = Q at *
  have g1' : ‖P.toH - c • a.toH‖ ≤ 0.102 * δ := g1.trans (by nlinarith)
  have g2' : ‖Q.toH - s • n.toH‖ ≤ 0.202 * δ := g2.trans (by nlinarith)
  have g4 : ‖P.toH + Q.toH‖ ≤ 3.1 := by
    have := norm_add_le P.toH Q.toH
    have := norm_le_norm_add_norm_sub' P.toH (c • a.toH)
    have := norm_le_norm_add_norm_sub' Q.toH (s • n.toH)
    linarith
  have g3' : ‖R.toH - (P.toH + Q.toH)‖ ≤ 0.31 * δ := g3.trans (by nlinarith)
  have e6 : R.toH - (c • a.toH + s • n.toH) = (R.toH - (P.toH + Q.toH)) + (P.toH - c • a.toH) + (Q.toH - s • n.toH) := by abel
  rw [e6]
  have := norm_add_le ((R.toH - (P.toH + Q.toH)) + (P.toH - c • a.toH)) (Q.toH - s • n.toH)
  have := norm_add_le (R.toH - (P.toH + Q.toH)) (P.toH - c • a.toH)
  linarith

theorem near_unit {x : ℍ[ℝ]} (hx : 0 < ‖x‖) : ‖‖x‖⁻¹ • x‖ = 1 ∧ ‖x - ‖x‖⁻¹ • x‖ = |‖x‖ - 1| := by
  refine ⟨by rw [norm_smul, norm_inv, norm_norm, inv_mul_cancel₀ hx.ne'], ?_⟩
  have e : x - ‖x‖⁻¹ • x = (1 - ‖x‖⁻¹) • x := by module
  rw [e, norm_smul, Real.norm_eq_abs]
  nth_rewrite 2 [← abs_of_pos hx]
  rw [← abs_mul, sub_mul, inv_mul_cancel₀ hx.ne', one_mul]

/-- The interpolated quaternion is near the point on the arc. -/
theorem slerpBetween_near (h : Spec.Machine u A) {e : ℝ} {cos sin : ℝ → ℝ} (hfun : Spec.Functions e A.acos cos sin) {δ : ℝ} (hδ : 10 * u ≤ δ)
    (hδ1 : δ ≤ 4e-6) {q1 q2 : Quat} {d : ℝ} {p q : ℍ[ℝ]} (hp : ‖p‖ = 1) (hq : ‖q‖ = 1) (ha : ‖q1.toH - p‖ ≤ δ) (hb : ‖q2.toH - q‖ ≤ δ)
    (hd1 : -1 ≤ d) (hd2 : d ≤ 1) (hdC : |d - inner ℝ p q| ≤ 2.6 * δ) (hC : -(2.6 * δ) ≤ inner ℝ p q) {f : ℝ} (hf0 : 0 ≤ f) (hf1 : f ≤ 1) :
    ‖(A.slerpBetween cos sin d q1 q2 f).toH - arcPoint p q f‖ ≤ 20 * Real.sqrt δ + 3e-7 + 10 * e := by
  have h0 := h.nonneg
  have hδ0 : 0 ≤ δ := by linarith
  have he0 : 0 ≤ e := le_trans (abs_nonneg _) (hfun.cos_near 0)
  have he1 := hfun.small
  obtain ⟨c1, c2⟩ := inner_bounds hp hq
  obtain ⟨hθ, hδv, hv1⟩ := slerp_angle h he0 he1 (hfun.acos_near d hd1 hd2) hδ hδ0 hδ1 hd1 hd2 c1 c2 rfl hdC hf0 hf1
  have m5 := slerp_direction h hδ hδ1 hp hq ha hb hd1 hd2 hdC
  have hn := normalize_short h (A.sub q2 (A.smul d q1))
  have hn' : 2e-8 ≤ ‖(A.sub q2 (A.smul d q1)).toH‖ → ‖(A.normalize (A.sub q2 (A.smul d q1))).toH - ‖(A.sub q2 (A.smul d q1)).toH‖⁻¹ •
      (A.sub q2 (A.smul d q1)).toH‖ ≤ 0.9 * δ := fun hw => (normalize_near h hw).trans (by linarith)
  unfold slerpBetween
  dsimp only
  generalize A.sub q2 (A.smul d q1) = w at *
  generalize A.fl (A.acos d * f) = θ at *
  have hv0 : 0 ≤ Real.sqrt δ := Real.sqrt_nonneg _
  generalize Real.sqrt δ = v at *
  have hc : |cos θ - Real.cos (f * Real.arccos (inner ℝ p q))| ≤ 2 * e + 3.61 * v := by
    have t1 := hfun.cos_near θ
    have t2 := Real.abs_cos_sub_cos_le θ (f * Real.arccos (inner ℝ p q))
    have := abs_sub_le (cos θ) (Real.cos θ) (Real.cos (f * Real.arccos (inner ℝ p q)))
    linarith
  have hs : |sin θ - Real.sin (f * Real.arccos (inner ℝ p q))| ≤ 2 * e + 3.61 * v := by
    have t1 := hfun.sin_near θ
    have t2 := Real.abs_sin_sub_sin_le θ (f * Real.arccos (inner ℝ p q))
    have := abs_sub_le (sin θ) (Real.sin θ) (Real.sin (f * Real.arccos (inner ℝ p q)))
    linarith
  have hcabs : |cos θ| ≤ 1.01 := by
    have := abs_sub_abs_le_abs_sub (cos θ) (Real.cos θ)
    have := hfun.cos_near θ
    have := Real.abs_cos_le_one θ
    norm_num
    linarith
  have hsabs : |sin θ| ≤ 1.01 := by
    have := abs_sub_abs_le_abs_sub (sin θ) (Real.sin θ)
    have := hfun.sin_near θ
    have := Real.abs_sin_le_one θ
    norm_num
    linarith
  have n1 : ‖q1.toH‖ ≤ 1.001 := by
    have := norm_le_norm_add_norm_sub' q1.toH p
    rw [hp] at this
    norm_num at hδ1 ⊢
    linarith
  have hsum := slerp_sum h hδ hδ1 hcabs hsabs n1 hn
  norm_num at hδ1
  have hfinal := arcPoint_near hp hq (by linarith) hf0 hf1 ha (by linarith) (ε := 2 * e + 3.61 * v) (by positivity) hc hs m5 hn' hn
    (τ := v + 3e-8) (by positivity) (by norm_num; linarith)
  have htri := norm_sub_le_norm_sub_add_norm_sub (A.add (A.smul (cos θ) q1) (A.smul (sin θ) (A.normalize w))).toH
    (cos θ • q1.toH + sin θ • (A.normalize w).toH) (arcPoint p q f)
  refine htri.trans ?_
  rcases hfinal with hfin | hfin
  · have hq1 : 2 * (5 * δ) * (2 * e + 3.61 * v) / (v + 3e-8) ≤ 0.1 * (2 * e + 3.61 * v) := by
      rw [div_le_iff₀ (by positivity)]
      have hz : 0 ≤ 2 * e + 3.61 * v := by positivity
      have : 10 * δ ≤ 0.1 * (v + 3e-8) := by norm_num; linarith
      nlinarith
    have hq2 : (1 + (2 * e + 3.61 * v)) * (0.9 * δ) ≤ 1.1 * (0.9 * δ) := mul_le_mul_of_nonneg_right (by linarith) (by positivity)
    norm_num at *
    linarith
  · norm_num at *
    linarith

end Arith

end HandEye
