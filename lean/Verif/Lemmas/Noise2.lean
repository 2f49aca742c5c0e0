import Verif.Lemmas.Noise
import Verif.Lemmas.Motion
import Mathlib.Analysis.Quaternion

/-! # Lemmas: how far apart two rigid motions are whose dual quaternions almost lie in a plane -/

open Quaternion

namespace HandEye

/-- The inner product of a product with a unit factor cancelled. -/
theorem norm_star_mul_self {q : ℍ[ℝ]} (h : ‖q‖ = 1) : star q * q = 1 := by
  rw [Quaternion.star_mul_self, Quaternion.normSq_eq_norm_mul_self, h]; norm_num

theorem norm_self_mul_star {q : ℍ[ℝ]} (h : ‖q‖ = 1) : q * star q = 1 := by
  rw [Quaternion.self_mul_star, Quaternion.normSq_eq_norm_mul_self, h]; norm_num

/-- Rotations of unit quaternions that are almost parallel. -/
theorem rotation_estimate {z r e v : ℍ[ℝ]} {α ρ : ℝ} (hz : ‖z‖ = 1) (hr : ‖r‖ = 1) (h : z = α • r + e) (he : ‖e‖ ≤ ρ) :
    ‖z * v * star z - r * v * star r‖ ≤ 2 * ρ * ‖v‖ := by
  have h1 : z * v * star z - r * v * star r = r * ((star r * e) * v - v * (star r * e)) * (star z) := by
    have e1 : star r * e = star r * z - (α : ℍ[ℝ]) := by
      rw [h, mul_add, mul_smul_comm, norm_star_mul_self hr, ← Quaternion.coe_mul_eq_smul, mul_one]
      abel
    rw [e1, sub_mul (star r * z), mul_sub v, ← Quaternion.coe_commutes]
    rw [show star r * z * v - ↑α * v - (v * (star r * z) - ↑α * v) = star r * z * v - v * (star r * z) by abel]
    rw [mul_sub, sub_mul]
    rw [show r * (star r * z * v) * star z = (r * star r) * (z * v * star z) by simp only [mul_assoc],
      show r * (v * (star r * z)) * star z = r * v * star r * (z * star z) by simp only [mul_assoc],
      norm_self_mul_star hr, norm_self_mul_star hz, one_mul, mul_one]
  rw [h1, norm_mul, norm_mul, Quaternion.norm_star, hr, hz, one_mul, mul_one]
  calc ‖star r * e * v - v * (star r * e)‖ ≤ ‖star r * e * v‖ + ‖v * (star r * e)‖ := norm_sub_le _ _
    _ = 2 * ‖e‖ * ‖v‖ := by rw [norm_mul, norm_mul, norm_mul, norm_mul, Quaternion.norm_star, hr]; ring
    _ ≤ 2 * ρ * ‖v‖ := by gcongr

theorem inner_le {p q : ℍ[ℝ]} : |(p * star q).re| ≤ ‖p‖ * ‖q‖ := by
  have := abs_real_inner_le_norm p q
  rwa [Quaternion.inner_def] at this

/-- The coefficient of the degenerate direction. -/
theorem beta_estimate {zr zd r d er ed : ℍ[ℝ]} {α β ρ : ℝ} (hz : ‖zr‖ = 1) (hr : ‖r‖ = 1) (hzd : (zr * star zd).re = 0)
    (hd : (r * star d).re = 0) (h1 : zr = α • r + er) (h2 : zd = α • d + β • r + ed) (he1 : ‖er‖ ≤ ρ) (he2 : ‖ed‖ ≤ ρ)
    (hρ : ρ ≤ 1 / 2) : |(|α| - 1)| ≤ ρ ∧ |β| ≤ ρ * (1 + 2 * ‖zd‖) := by
  have hα : |(|α| - 1)| ≤ ρ := by
    have a1 : ‖α • r‖ = |α| := by rw [norm_smul, hr, mul_one, Real.norm_eq_abs]
    have a2 := norm_add_le (α • r) er
    have a3 := norm_sub_le zr er
    rw [← h1, hz, a1] at a2
    rw [hz, h1, add_sub_cancel_right, a1] at a3
    rw [abs_le]
    constructor <;> linarith
  refine ⟨hα, ?_⟩
  have hα' : 1 / 2 ≤ |α| := by have := abs_le.mp hα; linarith
  have e1 : (r * star zd).re = β + (r * star ed).re := by
    rw [h2, star_add, star_add, mul_add, mul_add, Quaternion.star_smul, Quaternion.star_smul, mul_smul_comm, mul_smul_comm,
      norm_self_mul_star hr, Quaternion.re_add, Quaternion.re_add, Quaternion.re_smul, Quaternion.re_smul, hd]
    simp
  have e2 : α * (β + (r * star ed).re) = -(er * star zd).re := by
    have := hzd
    conv at this => lhs; rw [h1]
    rw [add_mul, smul_mul_assoc, Quaternion.re_add, Quaternion.re_smul, e1] at this
    simp only [smul_eq_mul] at this
    linarith
  have b1 := inner_le (p := r) (q := ed)
  have b2 := inner_le (p := er) (q := zd)
  rw [hr, one_mul] at b1
  have e3 : |α| * |β + (r * star ed).re| ≤ ρ * ‖zd‖ := by
    rw [← abs_mul, e2, abs_neg]
    exact b2.trans (by gcongr)
  have e4 : |β + (r * star ed).re| ≤ 2 * (ρ * ‖zd‖) := by
    have := abs_nonneg (β + (r * star ed).re)
    nlinarith
  have e5 : |β| ≤ |β + (r * star ed).re| + |(r * star ed).re| := by
    have := abs_sub (β + (r * star ed).re) (r * star ed).re
    rwa [add_sub_cancel_right] at this
  linarith

/-- Translations. -/
theorem translation_estimate {zr zd r d er ed : ℍ[ℝ]} {α β ρ : ℝ} (hz : ‖zr‖ = 1) (hr : ‖r‖ = 1) (hzd : (zr * star zd).re = 0)
    (hd : (r * star d).re = 0) (h1 : zr = α • r + er) (h2 : zd = α • d + β • r + ed) (he1 : ‖er‖ ≤ ρ) (he2 : ‖ed‖ ≤ ρ)
    (hρ : ρ ≤ 1 / 2) : ‖(2 : ℝ) • (zd * star zr) - (2 : ℝ) • (d * star r)‖ ≤ ρ * (4 + 6 * ‖d‖ + 4 * ‖zd‖) := by
  obtain ⟨hα, hβ⟩ := beta_estimate hz hr hzd hd h1 h2 he1 he2 hρ
  obtain ⟨s, hs1, hs2⟩ : ∃ s : ℝ, |s| = 1 ∧ |α - s| ≤ ρ := by
    rcases le_total 0 α with h | h
    · exact ⟨1, abs_one, by rwa [abs_of_nonneg h] at hα⟩
    · refine ⟨-1, by rw [abs_neg, abs_one], ?_⟩
      rw [abs_of_nonpos h] at hα
      rw [show α - -1 = -(-α - 1) by ring, abs_neg]
      exact hα
  have hss : s * s = 1 := by rw [← abs_mul_abs_self, hs1]; norm_num
  have e1 : zd - s • d = (α - s) • d + β • r + ed := by rw [h2, sub_smul]; abel
  have e2 : zr - s • r = (α - s) • r + er := by rw [h1, sub_smul]; abel
  have n1 : ‖zd - s • d‖ ≤ ρ * (2 + ‖d‖ + 2 * ‖zd‖) := by
    rw [e1]
    calc ‖(α - s) • d + β • r + ed‖ ≤ ‖(α - s) • d‖ + ‖β • r‖ + ‖ed‖ := norm_add₃_le
      _ = |α - s| * ‖d‖ + |β| + ‖ed‖ := by rw [norm_smul, norm_smul, hr, mul_one, Real.norm_eq_abs, Real.norm_eq_abs]
      _ ≤ ρ * ‖d‖ + ρ * (1 + 2 * ‖zd‖) + ρ := by gcongr
      _ = _ := by ring
  have n2 : ‖zr - s • r‖ ≤ 2 * ρ := by
    rw [e2]
    calc ‖(α - s) • r + er‖ ≤ ‖(α - s) • r‖ + ‖er‖ := norm_add_le _ _
      _ = |α - s| + ‖er‖ := by rw [norm_smul, hr, mul_one, Real.norm_eq_abs]
      _ ≤ 2 * ρ := by linarith
  have e3 : (2 : ℝ) • (zd * star zr) - (2 : ℝ) • (d * star r) =
      (2 : ℝ) • ((zd - s • d) * star zr + (s • d) * star (zr - s • r)) := by
    rw [← smul_sub]
    congr 1
    rw [star_sub, Quaternion.star_smul, sub_mul, mul_sub, smul_mul_assoc, smul_mul_assoc, mul_smul_comm, smul_smul, hss, one_smul]
    abel
  rw [e3, norm_smul]
  have := norm_nonneg d
  calc ‖(2 : ℝ)‖ * ‖(zd - s • d) * star zr + (s • d) * star (zr - s • r)‖
      ≤ 2 * (‖zd - s • d‖ + ‖d‖ * ‖zr - s • r‖) := by
        rw [Real.norm_eq_abs, abs_two]
        gcongr
        refine (norm_add_le _ _).trans ?_
        rw [norm_mul, norm_mul, Quaternion.norm_star, Quaternion.norm_star, hz, norm_smul, Real.norm_eq_abs, hs1, one_mul, mul_one]
    _ ≤ 2 * (ρ * (2 + ‖d‖ + 2 * ‖zd‖) + ‖d‖ * (2 * ρ)) := by gcongr
    _ = _ := by ring

/-- The translation is moderate if the error is small. -/
theorem moderate_estimate {zr zd r d er ed : ℍ[ℝ]} {α β ρ : ℝ} (hz : ‖zr‖ = 1) (hr : ‖r‖ = 1) (hzd : (zr * star zd).re = 0)
    (hd : (r * star d).re = 0) (h1 : zr = α • r + er) (h2 : zd = α • d + β • r + ed) (he1 : ‖er‖ ≤ ρ) (he2 : ‖ed‖ ≤ ρ)
    (hρ : ρ ≤ 1 / 4) : ‖zd‖ ≤ 1 + 5 / 2 * ‖d‖ := by
  obtain ⟨hα, hβ⟩ := beta_estimate hz hr hzd hd h1 h2 he1 he2 (by linarith)
  have hα' := (abs_le.mp hα).2
  have h0 : 0 ≤ ρ := (norm_nonneg _).trans he1
  have n1 : ‖zd‖ ≤ (1 + ρ) * ‖d‖ + ρ * (1 + 2 * ‖zd‖) + ρ := by
    conv_lhs => rw [h2]
    calc ‖α • d + β • r + ed‖ ≤ ‖α • d‖ + ‖β • r‖ + ‖ed‖ := norm_add₃_le
      _ = |α| * ‖d‖ + |β| + ‖ed‖ := by rw [norm_smul, norm_smul, hr, mul_one, Real.norm_eq_abs, Real.norm_eq_abs]
      _ ≤ (1 + ρ) * ‖d‖ + ρ * (1 + 2 * ‖zd‖) + ρ := by gcongr; linarith
  have := norm_nonneg d
  have := norm_nonneg zd
  nlinarith

end HandEye
