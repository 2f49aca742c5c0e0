import Verif.Lemmas.RoundedDual
import Verif.Lemmas.MotionError

/-! # Relative poses of inexact poses in floating-point arithmetic -/

open Quaternion

namespace HandEye

theorem unit_inverse {a : DQuat} (ha : Spec.IsUnit a) :
    star a.rot.toH = (a.rot.toH)⁻¹ ∧ star a.dual.toH = -star a.rot.toH * a.dual.toH * star a.rot.toH := by
  have hn : normSq a.rot.toH = 1 := ha.1
  have hi : star a.rot.toH = (a.rot.toH)⁻¹ := by rw [Quaternion.inv_def, hn, inv_one, one_smul]
  have hr : star a.rot.toH * a.rot.toH = 1 := by rw [Quaternion.star_mul_self, hn]; rfl
  refine ⟨hi, ?_⟩
  have hs : star (a.rot.toH * star a.dual.toH) = -(a.rot.toH * star a.dual.toH) := by
    rw [Quaternion.star_eq_neg]
    exact ha.2
  rw [star_mul, star_star] at hs
  rw [neg_mul, neg_mul, mul_assoc, hs, mul_neg, neg_neg, ← mul_assoc, hr, one_mul]

namespace Arith

variable {A : Arith} {u : ℝ}

/-- The inverse of a pose that is nearly `a₀`. -/
theorem dqInverse_near (h : Spec.Machine u A) {a a₀ : DQuat} (h₀ : Spec.IsUnit a₀) {δ θ D : ℝ} (hδ : δ ≤ 1 / 100)
    (hD : ‖a₀.dual.toH‖ ≤ D) (h1 : ‖a.rot.toH - a₀.rot.toH‖ ≤ δ) (h2 : ‖a.dual.toH - a₀.dual.toH‖ ≤ θ) :
    ∃ i, A.dqInverse a = .ok i ∧ ‖i.rot.toH - star a₀.rot.toH‖ ≤ 8 * u + 1.011 * δ ∧
      ‖i.dual.toH - star a₀.dual.toH‖ ≤ (37.1 * u + 2.05 * δ) * (D + θ) + 1.03 * θ := by
  have hu := h.nonneg
  have hu1 := h.small
  have hδ0 : 0 ≤ δ := (norm_nonneg _).trans h1
  have hθ0 : 0 ≤ θ := (norm_nonneg _).trans h2
  have hD0 : 0 ≤ D := (norm_nonneg _).trans hD
  obtain ⟨es, ed⟩ := unit_inverse h₀
  obtain ⟨hr0, _⟩ := isUnit_norm h₀
  obtain ⟨hn, i, hi, hi1, hi2, hne⟩ := inverse_of_near h (show |‖a.rot.toH‖ - 1| ≤ 1 / 100 by
    have := (abs_norm_sub_norm_le a.rot.toH a₀.rot.toH).trans (h1.trans hδ)
    rwa [hr0] at this)
  have hne0 : a₀.rot.toH ≠ 0 := by intro e; rw [e, norm_zero] at hr0; norm_num at hr0
  have hs : ‖star a₀.rot.toH‖ ≤ 1 := by rw [Quaternion.norm_star, hr0]
  have hα : ‖i.toH - star a₀.rot.toH‖ ≤ 8 * u + 1.011 * δ := by
    have e : (a.rot.toH)⁻¹ - star a₀.rot.toH = (a.rot.toH)⁻¹ * (a₀.rot.toH - a.rot.toH) * (a₀.rot.toH)⁻¹ := by
      rw [es, mul_sub, sub_mul, inv_mul_cancel₀ hne, one_mul, mul_assoc, mul_inv_cancel₀ hne0, mul_one]
    have n : ‖(a.rot.toH)⁻¹ - star a₀.rot.toH‖ ≤ 1.0102 * δ := by
      rw [e, norm_mul, norm_mul, norm_inv a₀.rot.toH, hr0, inv_one, mul_one, norm_sub_rev]
      exact mul_le_mul hi2 h1 (norm_nonneg _) (by positivity)
    have := norm_sub_le_norm_sub_add_norm_sub i.toH (a.rot.toH)⁻¹ (star a₀.rot.toH)
    nlinarith
  refine ⟨⟨i, A.mul (A.mul (-i) a.dual) i⟩, ?_, hα, ?_⟩
  · rw [dqInverse, pyAssert_pos hn, Py.ok_bind, hi]
    rfl
  · set α := 8 * u + 1.011 * δ with hαd
    have hα1 : α ≤ 0.0182 := by rw [hαd]; linarith
    have hα0 : 0 ≤ α := by rw [hαd]; positivity
    have hneg : ‖(-i).toH - -star a₀.rot.toH‖ ≤ α := by
      rw [Quat.toH_neg, neg_sub_neg, norm_sub_rev]
      exact hα
    have m1 := mul_approx (P' := 1) h hneg h2 (by rw [norm_neg]; exact hs) hD
    have hE : 0 ≤ D + θ := by positivity
    have uE : 0 ≤ u * (D + θ) := by positivity
    have dE : 0 ≤ δ * (D + θ) := by positivity
    have b1 : ‖(A.mul (-i) a.dual).toH - -star a₀.rot.toH * a₀.dual.toH‖ ≤ (18.2 * u + 1.011 * δ) * (D + θ) + θ := by
      refine m1.trans ?_
      have : u * α * (D + θ) ≤ u * 0.0182 * (D + θ) := by gcongr
      rw [hαd] at this ⊢
      nlinarith
    have hP : ‖-star a₀.rot.toH * a₀.dual.toH‖ ≤ D := by
      rw [norm_mul, norm_neg, Quaternion.norm_star, hr0, one_mul]
      exact hD
    have m2 := mul_approx h b1 hα hP hs
    rw [ed]
    refine m2.trans ?_
    set β := (18.2 * u + 1.011 * δ) * (D + θ) + θ with hβ
    have k1 : 10 * u * ((D + β) * (1 + α)) ≤ 10.2 * u * (D + β) := by
      have : u * (D + β) * α ≤ u * (D + β) * 0.0182 := by gcongr
      nlinarith [show 0 ≤ u * (D + β) by positivity]
    have k2 : β * (1 + α) ≤ β * 1.0182 := by gcongr; linarith
    have k3 : u * β ≤ 0.0284 * (u * (D + θ)) + 0.001 * θ := by
      have e1 : (18.2 * u + 1.011 * δ) ≤ 0.0284 := by linarith
      have e2 : u * ((18.2 * u + 1.011 * δ) * (D + θ)) ≤ u * (0.0284 * (D + θ)) := by gcongr
      have e3 : u * θ ≤ 1 / 1000 * θ := by gcongr
      rw [hβ]
      linarith
    have k4 : D * α ≤ (D + θ) * α := by gcongr; linarith
    have k5 : u * D ≤ u * (D + θ) := by gcongr; linarith
    have k6 : (D + θ) * α = 8 * (u * (D + θ)) + 1.011 * (δ * (D + θ)) := by rw [hαd]; ring
    have k7 : β = 18.2 * (u * (D + θ)) + 1.011 * (δ * (D + θ)) + θ := by rw [hβ]; ring
    have k8 : 10.2 * u * (D + β) = 10.2 * (u * D) + 10.2 * (u * β) := by ring
    have k9 : (37.1 * u + 2.05 * δ) * (D + θ) = 37.1 * (u * (D + θ)) + 2.05 * (δ * (D + θ)) := by ring
    rw [k9]
    linarith

/-- The motion from a pose that is nearly `a₀` to one that is nearly `b₀`. -/
theorem relative_near (h : Spec.Machine u A) {a₀ b b₀ i : DQuat} (ha₀ : Spec.IsUnit a₀) (hb₀ : Spec.IsUnit b₀) {δ θ D : ℝ} (hδ0 : 0 ≤ δ) (hδ : δ ≤ 1 / 100)
    (hD : ‖a₀.dual.toH‖ ≤ D) (hDb : ‖b₀.dual.toH‖ ≤ D) (hi1 : ‖i.rot.toH - star a₀.rot.toH‖ ≤ 8 * u + 1.011 * δ)
    (hi2 : ‖i.dual.toH - star a₀.dual.toH‖ ≤ (37.1 * u + 2.05 * δ) * (D + θ) + 1.03 * θ)
    (h1 : ‖b.rot.toH - b₀.rot.toH‖ ≤ δ) (h2 : ‖b.dual.toH - b₀.dual.toH‖ ≤ θ) :
    ‖(A.dqMul i b).rot.toH - (a₀.conj * b₀).rot.toH‖ ≤ 19 * u + 2.1 * δ ∧
      ‖(A.dqMul i b).dual.toH - (a₀.conj * b₀).dual.toH‖ ≤ (70 * u + 4.2 * δ) * (D + θ) + 2.1 * θ := by
  have hu := h.nonneg
  have hu1 := h.small
  have hθ0 : 0 ≤ θ := (norm_nonneg _).trans h2
  have hD0 : 0 ≤ D := (norm_nonneg _).trans hD
  obtain ⟨hra, _⟩ := isUnit_norm ha₀
  obtain ⟨hrb, _⟩ := isUnit_norm hb₀
  have uE : 0 ≤ u * (D + θ) := by positivity
  have dE : 0 ≤ δ * (D + θ) := by positivity
  have ud : u * δ ≤ u * (1 / 100) := by gcongr
  have dd : δ * δ ≤ δ * (1 / 100) := by gcongr
  have uu : u * u ≤ u * (1 / 1000) := by gcongr
  have hsa : ‖star a₀.rot.toH‖ ≤ 1 := by rw [norm_star, hra]
  have hsd : ‖star a₀.dual.toH‖ ≤ D := by rw [norm_star]; exact hD
  set α := 8 * u + 1.011 * δ with hαd
  have hα1 : α ≤ 0.0182 := by rw [hαd]; linarith
  have hα0 : 0 ≤ α := by rw [hαd]; positivity
  constructor
  · have m := mul_approx h hi1 h1 hsa hrb.le
    rw [DQuat.mul_rot, DQuat.conj_rot, Quat.toH_mul, Quat.toH_conj]
    refine m.trans ?_
    have k : 10 * u * ((1 + α) * (1 + δ)) ≤ 10 * u * (1.0182 * 1.01) := by gcongr <;> linarith
    have k2 : α * (1 + δ) ≤ α * 1.01 := by gcongr; linarith
    rw [hαd] at k k2 ⊢
    linarith
  · have m3 := mul_approx h hi1 h2 hsa hDb
    have m4 := mul_approx h hi2 h1 hsd hrb.le
    set γ := (37.1 * u + 2.05 * δ) * (D + θ) + 1.03 * θ with hγ
    have hγ0 : 0 ≤ γ := by rw [hγ]; positivity
    have g1 : γ = 37.1 * (u * (D + θ)) + 2.05 * (δ * (D + θ)) + 1.03 * θ := by rw [hγ]; ring
    have n3 : ‖(A.mul i.rot b.dual).toH - star a₀.rot.toH * b₀.dual.toH‖ ≤ 18.2 * (u * (D + θ)) + 1.011 * (δ * (D + θ)) + θ := by
      refine m3.trans ?_
      have : u * α * (D + θ) ≤ u * 0.0182 * (D + θ) := by gcongr
      have e : 10 * u * ((1 + α) * (D + θ)) + α * (D + θ) + 1 * θ = 10 * (u * (D + θ)) + 10 * (u * α * (D + θ)) + (8 * (u * (D + θ)) + 1.011 * (δ * (D + θ))) + θ := by
        rw [hαd]; ring
      rw [e]
      linarith
    have t1 : u * (u * (D + θ)) ≤ 1 / 1000 * (u * (D + θ)) := by gcongr
    have t2 : u * (δ * (D + θ)) ≤ 1 / 100 * (u * (D + θ)) := by
      have : u * δ * (D + θ) ≤ u * (1 / 100) * (D + θ) := by gcongr
      linarith
    have t3 : u * θ ≤ 1 / 1000 * θ := by gcongr
    have t4 : u * D ≤ u * (D + θ) := by gcongr; linarith
    have t5 : D * δ ≤ δ * (D + θ) := by nlinarith
    have n4 : ‖(A.mul i.dual b.rot).toH - star a₀.dual.toH * b₀.rot.toH‖ ≤ 48.2 * (u * (D + θ)) + 3.1 * (δ * (D + θ)) + 1.06 * θ := by
      refine m4.trans ?_
      have k1 : 10 * u * ((D + γ) * (1 + δ)) ≤ 10 * u * ((D + γ) * 1.01) := by gcongr; linarith
      have k2 : γ * (1 + δ) ≤ γ * 1.01 := by gcongr; linarith
      have k3 : 10 * u * ((D + γ) * 1.01) = 10.1 * (u * D) + 10.1 * (37.1 * (u * (u * (D + θ))) + 2.05 * (u * (δ * (D + θ))) + 1.03 * (u * θ)) := by
        rw [g1]; ring
      linarith
    have e : (a₀.conj * b₀).dual.toH = star a₀.rot.toH * b₀.dual.toH + star a₀.dual.toH * b₀.rot.toH := by
      rw [DQuat.mul_dual, DQuat.conj_rot, DQuat.conj_dual, Quat.toH_add, Quat.toH_mul, Quat.toH_mul, Quat.toH_conj, Quat.toH_conj]
    have q1 : ‖star a₀.rot.toH * b₀.dual.toH‖ ≤ D := by rw [norm_mul, Quaternion.norm_star, hra, one_mul]; exact hDb
    have q2 : ‖star a₀.dual.toH * b₀.rot.toH‖ ≤ D := by rw [norm_mul, Quaternion.norm_star, hrb, mul_one]; exact hD
    have s1 := add_near h (A.mul i.rot b.dual) (A.mul i.dual b.rot)
    set x := (A.mul i.rot b.dual).toH
    set y := (A.mul i.dual b.rot).toH
    have s2 : ‖x + y - (star a₀.rot.toH * b₀.dual.toH + star a₀.dual.toH * b₀.rot.toH)‖ ≤ 66.4 * (u * (D + θ)) + 4.111 * (δ * (D + θ)) + 2.06 * θ := by
      have := norm_add_le (x - star a₀.rot.toH * b₀.dual.toH) (y - star a₀.dual.toH * b₀.rot.toH)
      rw [sub_add_sub_comm] at this
      linarith
    have s3 : ‖x + y‖ ≤ 2 * D + (66.4 * (u * (D + θ)) + 4.111 * (δ * (D + θ)) + 2.06 * θ) := by
      have := norm_le_insert' (x + y) (star a₀.rot.toH * b₀.dual.toH + star a₀.dual.toH * b₀.rot.toH)
      have := norm_add_le (star a₀.rot.toH * b₀.dual.toH) (star a₀.dual.toH * b₀.rot.toH)
      linarith
    have s4 : u * ‖x + y‖ ≤ u * (2 * D + (66.4 * (u * (D + θ)) + 4.111 * (δ * (D + θ)) + 2.06 * θ)) := by gcongr
    have s5 : u * (2 * D + (66.4 * (u * (D + θ)) + 4.111 * (δ * (D + θ)) + 2.06 * θ)) =
        2 * (u * D) + 66.4 * (u * (u * (D + θ))) + 4.111 * (u * (δ * (D + θ))) + 2.06 * (u * θ) := by ring
    have s6 := norm_sub_le_norm_sub_add_norm_sub (A.dqMul i b).dual.toH (x + y) (a₀.conj * b₀).dual.toH
    have s7 : (70 * u + 4.2 * δ) * (D + θ) = 70 * (u * (D + θ)) + 4.2 * (δ * (D + θ)) := by ring
    have s8 : ‖(A.dqMul i b).dual.toH - (x + y)‖ ≤ u * ‖x + y‖ := s1
    rw [e] at s6 ⊢
    rw [s7]
    linarith

end Arith

end HandEye
