import Verif.Spec.Arc
import Mathlib.Analysis.SpecialFunctions.Trigonometric.Bounds
import Mathlib.Analysis.InnerProductSpace.Basic
import Mathlib.Analysis.Real.Pi.Bounds

/-! # Lemmas about points on arcs of great circles -/

namespace HandEye

open Quaternion

/-- The point on the arc. -/
noncomputable def arcPoint (p q : ℍ[ℝ]) (f : ℝ) : ℍ[ℝ] :=
  if Real.sin (Real.arccos (inner ℝ p q)) = 0 then p
  else Real.cos (f * Real.arccos (inner ℝ p q)) • p +
    (Real.sin (f * Real.arccos (inner ℝ p q)) / Real.sin (Real.arccos (inner ℝ p q))) • (q - (inner ℝ p q : ℝ) • p)

section

variable {p q : ℍ[ℝ]} (hp : ‖p‖ = 1) (hq : ‖q‖ = 1)
include hp hq

theorem inner_bounds : -1 ≤ (inner ℝ p q : ℝ) ∧ (inner ℝ p q : ℝ) ≤ 1 := by
  have := abs_real_inner_le_norm p q
  rw [hp, hq, mul_one] at this
  exact abs_le.mp this

omit hq in
theorem inner_rest : inner ℝ (q - (inner ℝ p q : ℝ) • p) p = 0 := by
  rw [inner_sub_left, inner_smul_left, real_inner_self_eq_norm_sq, hp, real_inner_comm]
  simp

theorem norm_rest_sq : ‖q - (inner ℝ p q : ℝ) • p‖ ^ 2 = 1 - (inner ℝ p q : ℝ) ^ 2 := by
  rw [norm_sub_sq_real, hq, norm_smul, hp, real_inner_smul_right, real_inner_comm, Real.norm_eq_abs, mul_one, sq_abs, one_pow]
  ring

theorem norm_rest : ‖q - (inner ℝ p q : ℝ) • p‖ = Real.sin (Real.arccos (inner ℝ p q)) := by
  rw [Real.sin_arccos, ← norm_rest_sq hp hq, Real.sqrt_sq (norm_nonneg _)]

theorem arcPoint_fraction (hC : -1 < (inner ℝ p q : ℝ)) (f : ℝ) : Spec.AtFraction p q f (arcPoint p q f) := by
  obtain ⟨b1, b2⟩ := inner_bounds hp hq
  unfold arcPoint
  split
  · rename_i h0
    have hphi : Real.arccos (inner ℝ p q) = 0 := by
      rcases (Real.arccos_nonneg (inner ℝ p q)).eq_or_lt with h | h
      · exact h.symm
      · have : Real.arccos (inner ℝ p q) < Real.pi := by
          rcases (Real.arccos_le_pi (inner ℝ p q)).lt_or_eq with h' | h'
          · exact h'
          · rw [Real.arccos_eq_pi] at h'
            linarith
        exact absurd h0 (Real.sin_pos_of_pos_of_lt_pi h this).ne'
    have hC1 : (inner ℝ p q : ℝ) = 1 := by
      have := Real.arccos_eq_zero.mp hphi
      linarith
    refine ⟨hp, ?_, ?_⟩
    · rw [hphi, real_inner_self_eq_norm_sq, hp]; simp
    · rw [hphi, hC1]; simp
  · rename_i h0
    have hcos := Real.cos_arccos b1 b2
    have hw := inner_rest (q := q) hp
    have hs := norm_rest hp hq
    have hwq : inner ℝ (q - (inner ℝ p q : ℝ) • p) q = Real.sin (Real.arccos (inner ℝ p q)) ^ 2 := by
      rw [← hs, ← real_inner_self_eq_norm_sq (q - (inner ℝ p q : ℝ) • p), inner_sub_right (q - (inner ℝ p q : ℝ) • p) q, inner_smul_right, hw, mul_zero, sub_zero]
    set w := q - (inner ℝ p q : ℝ) • p with hwdef
    set φ := Real.arccos (inner ℝ p q) with hφ
    have hfact : Real.cos ((1 - f) * φ) = Real.cos φ * Real.cos (f * φ) + Real.sin φ * Real.sin (f * φ) := by
      rw [← Real.cos_sub]
      ring_nf
    refine ⟨?_, ?_, ?_⟩
    · have hsq : ‖Real.cos (f * φ) • p + (Real.sin (f * φ) / Real.sin φ) • w‖ ^ 2 = 1 := by
        rw [norm_add_sq_real, norm_smul, norm_smul, hp, hs, real_inner_smul_left, real_inner_smul_right, real_inner_comm, hw, mul_pow, mul_pow,
          Real.norm_eq_abs, Real.norm_eq_abs, sq_abs, sq_abs, div_pow, div_mul_cancel₀ _ (pow_ne_zero 2 h0)]
        linarith [Real.sin_sq_add_cos_sq (f * φ)]
      nlinarith [norm_nonneg (Real.cos (f * φ) • p + (Real.sin (f * φ) / Real.sin φ) • w)]
    · rw [inner_add_left, real_inner_smul_left, real_inner_smul_left, hw, real_inner_self_eq_norm_sq, hp]
      ring
    · rw [inner_add_left, real_inner_smul_left, real_inner_smul_left, hwq, hfact, ← hcos]
      field_simp

/-- The distance between two points of the arc. -/
theorem arcPoint_close (f g : ℝ) : ‖arcPoint p q f - arcPoint p q g‖ ≤ |f - g| * Real.pi := by
  have hφ0 := Real.arccos_nonneg (inner ℝ p q)
  have hφ1 := Real.arccos_le_pi (inner ℝ p q)
  have hw := inner_rest (q := q) hp
  have hs := norm_rest hp hq
  unfold arcPoint
  split
  · rw [sub_self, norm_zero]
    positivity
  · rename_i h0
    set w := q - (inner ℝ p q : ℝ) • p
    set φ := Real.arccos (inner ℝ p q)
    have e : Real.cos (f * φ) • p + (Real.sin (f * φ) / Real.sin φ) • w - (Real.cos (g * φ) • p + (Real.sin (g * φ) / Real.sin φ) • w) =
        (Real.cos (f * φ) - Real.cos (g * φ)) • p + ((Real.sin (f * φ) - Real.sin (g * φ)) / Real.sin φ) • w := by
      rw [sub_div]
      module
    have hsq : ‖(Real.cos (f * φ) - Real.cos (g * φ)) • p + ((Real.sin (f * φ) - Real.sin (g * φ)) / Real.sin φ) • w‖ ^ 2 =
        2 - 2 * Real.cos (f * φ - g * φ) := by
      rw [norm_add_sq_real, norm_smul, norm_smul, hp, hs, real_inner_smul_left, real_inner_smul_right, real_inner_comm, hw, mul_pow, mul_pow,
        Real.norm_eq_abs, Real.norm_eq_abs, sq_abs, sq_abs, div_pow, div_mul_cancel₀ _ (pow_ne_zero 2 h0), Real.cos_sub]
      linarith [Real.sin_sq_add_cos_sq (f * φ), Real.sin_sq_add_cos_sq (g * φ)]
    have h2 := Real.one_sub_sq_div_two_le_cos (x := f * φ - g * φ)
    have h3 : ‖(Real.cos (f * φ) - Real.cos (g * φ)) • p + ((Real.sin (f * φ) - Real.sin (g * φ)) / Real.sin φ) • w‖ ^ 2 ≤ (|f - g| * φ) ^ 2 := by
      rw [hsq, mul_pow, sq_abs]
      nlinarith
    rw [e]
    refine (abs_le_of_sq_le_sq' h3 (by positivity)).2.trans ?_
    exact mul_le_mul_of_nonneg_left hφ1 (abs_nonneg _)

theorem arcPoint_ends (hC : -1 < (inner ℝ p q : ℝ)) : arcPoint p q 0 = p ∧ arcPoint p q 1 = q := by
  have hs := norm_rest hp hq
  obtain ⟨b1, b2⟩ := inner_bounds hp hq
  unfold arcPoint
  by_cases h0 : Real.sin (Real.arccos (inner ℝ p q)) = 0
  · rw [if_pos h0, if_pos h0]
    refine ⟨rfl, ?_⟩
    have hsq := norm_rest_sq hp hq
    rw [hs, h0] at hsq
    rw [h0, norm_eq_zero, sub_eq_zero] at hs
    have : (inner ℝ p q : ℝ) = 1 := by
      have h2 : ((inner ℝ p q : ℝ) - 1) * ((inner ℝ p q : ℝ) + 1) = 0 := by linarith
      rcases mul_eq_zero.mp h2 with h | h <;> linarith
    rw [this, one_smul] at hs
    exact hs.symm
  · rw [if_neg h0, if_neg h0]
    refine ⟨by simp, ?_⟩
    rw [one_mul, div_self h0, Real.cos_arccos b1 b2]
    module

/-- For an angle that is not much above a right angle the sine is at least half of the angle. -/
theorem arccos_le_two_sin (hC : -1 / 10 ≤ (inner ℝ p q : ℝ)) : Real.arccos (inner ℝ p q) ≤ 2 * Real.sin (Real.arccos (inner ℝ p q)) := by
  obtain ⟨b1, b2⟩ := inner_bounds hp hq
  have hcos := Real.cos_arccos b1 b2
  set φ := Real.arccos (inner ℝ p q)
  have h0 : 0 ≤ φ := Real.arccos_nonneg _
  have hpi := Real.pi_lt_d2
  rcases le_total φ (Real.pi / 2) with h | h
  · have := Real.mul_le_sin h0 h
    have h2 : (1 : ℝ) / 2 ≤ 2 / Real.pi := by
      rw [div_le_div_iff₀ (by norm_num) Real.pi_pos]
      linarith
    nlinarith
  · have hs : (0.99 : ℝ) ≤ Real.sin φ := by
      have hn : 0 ≤ Real.sin φ := Real.sin_nonneg_of_nonneg_of_le_pi h0 (Real.arccos_le_pi _)
      have hc : Real.cos φ ≤ 0 := Real.cos_nonpos_of_pi_div_two_le_of_le h (by linarith [Real.arccos_le_pi (inner ℝ p q)])
      nlinarith [Real.sin_sq_add_cos_sq φ]
    have hle : φ ≤ Real.pi / 2 + 0.2 := by
      by_contra hcon
      push Not at hcon
      have h1 : Real.cos φ = - Real.sin (φ - Real.pi / 2) := by rw [Real.sin_sub_pi_div_two]; ring
      have h3 : Real.sin (0.2 : ℝ) ≤ Real.sin (φ - Real.pi / 2) :=
        Real.sin_le_sin_of_le_of_le_pi_div_two (by linarith [Real.pi_pos]) (by linarith [Real.arccos_le_pi (inner ℝ p q)]) (by linarith)
      have h4 : (2 / Real.pi) * 0.2 ≤ Real.sin (0.2 : ℝ) := Real.mul_le_sin (by norm_num) (by linarith [Real.pi_gt_three])
      have h5 : (0.12 : ℝ) ≤ 2 / Real.pi * 0.2 := by
        rw [div_mul_eq_mul_div, le_div_iff₀ Real.pi_pos]
        linarith
      linarith
    linarith

/-- Points that are computed with errors. -/
theorem arcPoint_near (hC : -1 / 10 ≤ (inner ℝ p q : ℝ)) {f : ℝ} (hf0 : 0 ≤ f) (hf1 : f ≤ 1) {a w n : ℍ[ℝ]} {c s α ε ω ν τ : ℝ}
    (ha : ‖a - p‖ ≤ α) (hα : α ≤ 1 / 100) (hε : 0 ≤ ε)
    (hc : |c - Real.cos (f * Real.arccos (inner ℝ p q))| ≤ ε) (hs : |s - Real.sin (f * Real.arccos (inner ℝ p q))| ≤ ε)
    (hw : ‖w - (q - (inner ℝ p q : ℝ) • p)‖ ≤ ω) (hn : 2e-8 ≤ ‖w‖ → ‖n - ‖w‖⁻¹ • w‖ ≤ ν) (hn2 : ‖n‖ ≤ 2) (hτ0 : 0 < τ) (hτ : 2e-8 + ω ≤ τ) :
    ‖c • a + s • n - arcPoint p q f‖ ≤ 1.01 * ε + α + (1 + ε) * ν + 4 * ω + 2 * ω * ε / τ + ε ∨
      ‖c • a + s • n - arcPoint p q f‖ ≤ 2 * τ + 1.01 * (ε + 2 * τ) + α + 2 * (ε + 2 * τ) := by
  have h2s := arccos_le_two_sin hp hq hC
  have hs0 := norm_rest hp hq
  have hpa := norm_nonneg (a - p)
  have ha' : ‖a‖ ≤ 1.01 := by
    have := norm_le_norm_add_norm_sub' a p
    rw [hp] at this
    linarith
  have hω0 : 0 ≤ ω := le_trans (norm_nonneg _) hw
  set W := q - (inner ℝ p q : ℝ) • p with hW
  set φ := Real.arccos (inner ℝ p q) with hφ
  have hφ0 : 0 ≤ φ := Real.arccos_nonneg _
  have hfφ0 : 0 ≤ f * φ := mul_nonneg hf0 hφ0
  have hfφ : f * φ ≤ φ := mul_le_of_le_one_left hφ0 hf1
  have hsφ : 0 ≤ Real.sin φ := by rw [← hs0]; exact norm_nonneg _
  have hsin : |Real.sin (f * φ)| ≤ φ := by
    have := Real.abs_sin_le_abs (x := f * φ)
    rw [abs_of_nonneg hfφ0] at this
    linarith
  rcases lt_or_ge τ (Real.sin φ) with hbig | hsmall
  · left
    have hwn : ‖W‖ - ω ≤ ‖w‖ := by
      have := norm_sub_norm_le W w
      have := norm_sub_rev W w
      linarith
    have hw2 : 2e-8 ≤ ‖w‖ := by linarith
    have hwpos : 0 < ‖w‖ := by linarith
    have hWpos : 0 < ‖W‖ := by linarith
    have hdir : ‖‖w‖⁻¹ • w - ‖W‖⁻¹ • W‖ ≤ 2 * ω / ‖W‖ := by
      have e : ‖w‖⁻¹ • w - ‖W‖⁻¹ • W = ‖W‖⁻¹ • (w - W) + (‖w‖⁻¹ - ‖W‖⁻¹) • w := by module
      rw [e]
      refine (norm_add_le _ _).trans ?_
      rw [norm_smul, norm_smul, Real.norm_eq_abs, Real.norm_eq_abs, abs_of_pos (inv_pos.mpr hWpos)]
      have h1 : |‖w‖⁻¹ - ‖W‖⁻¹| * ‖w‖ = |‖W‖ - ‖w‖| / ‖W‖ := by
        rw [inv_sub_inv hwpos.ne' hWpos.ne', abs_div, abs_of_pos (mul_pos hwpos hWpos)]
        field_simp
      have h2 : |‖W‖ - ‖w‖| ≤ ω := by
        have := abs_norm_sub_norm_le W w
        have := norm_sub_rev W w
        linarith
      rw [h1, inv_mul_eq_div, ← add_div]
      gcongr
      linarith
    have hne : Real.sin φ ≠ 0 := by linarith
    have hx : arcPoint p q f = Real.cos (f * φ) • p + Real.sin (f * φ) • (‖W‖⁻¹ • W) := by
      unfold arcPoint
      rw [if_neg hne, hs0, smul_smul, div_eq_mul_inv]
    rw [hx]
    have hnn : ‖n - ‖W‖⁻¹ • W‖ ≤ ν + 2 * ω / Real.sin φ := by
      have : n - ‖W‖⁻¹ • W = (n - ‖w‖⁻¹ • w) + (‖w‖⁻¹ • w - ‖W‖⁻¹ • W) := by abel
      rw [this, ← hs0]
      exact (norm_add_le _ _).trans (add_le_add (hn hw2) hdir)
    have hunit : ‖‖W‖⁻¹ • W‖ = 1 := by
      rw [norm_smul, norm_inv, norm_norm, inv_mul_cancel₀ hWpos.ne']
    set N := ‖W‖⁻¹ • W
    have e : c • a + s • n - (Real.cos (f * φ) • p + Real.sin (f * φ) • N) =
        (c - Real.cos (f * φ)) • a + Real.cos (f * φ) • (a - p) + s • (n - N) + (s - Real.sin (f * φ)) • N := by module
    rw [e]
    have n1 : ‖(c - Real.cos (f * φ)) • a‖ ≤ ε * 1.01 := by
      rw [norm_smul, Real.norm_eq_abs]
      exact mul_le_mul hc ha' (norm_nonneg _) hε
    have n2 : ‖Real.cos (f * φ) • (a - p)‖ ≤ α := by
      rw [norm_smul, Real.norm_eq_abs]
      have := Real.abs_cos_le_one (f * φ)
      nlinarith
    have hν : 0 ≤ ν := le_trans (norm_nonneg _) (hn hw2)
    have hsabs : |s| ≤ |Real.sin (f * φ)| + ε := by
      have := abs_sub_abs_le_abs_sub s (Real.sin (f * φ))
      linarith
    have n3 : ‖s • (n - N)‖ ≤ (1 + ε) * ν + 4 * ω + 2 * ω * ε / τ := by
      rw [norm_smul, Real.norm_eq_abs]
      have h1 : |s| * ‖n - N‖ ≤ |s| * ν + |s| * (2 * ω / Real.sin φ) := by
        rw [← mul_add]
        exact mul_le_mul_of_nonneg_left hnn (abs_nonneg _)
      have h2 : |s| * ν ≤ (1 + ε) * ν := by
        apply mul_le_mul_of_nonneg_right _ hν
        linarith [Real.abs_sin_le_one (f * φ)]
      have h3 : |s| * (2 * ω / Real.sin φ) ≤ 4 * ω + 2 * ω * ε / τ := by
        have hq0 : 0 ≤ 2 * ω / Real.sin φ := by positivity
        have h4 : |s| ≤ 2 * Real.sin φ + ε := by linarith
        calc |s| * (2 * ω / Real.sin φ) ≤ (2 * Real.sin φ + ε) * (2 * ω / Real.sin φ) := mul_le_mul_of_nonneg_right h4 hq0
          _ = 4 * ω + 2 * ω * ε / Real.sin φ := by field_simp; ring
          _ ≤ _ := by gcongr
      linarith
    have n4 : ‖(s - Real.sin (f * φ)) • N‖ ≤ ε := by
      rw [norm_smul, hunit, mul_one, Real.norm_eq_abs]
      exact hs
    have := norm_add_le ((c - Real.cos (f * φ)) • a + Real.cos (f * φ) • (a - p) + s • (n - N)) ((s - Real.sin (f * φ)) • N)
    have := norm_add_le ((c - Real.cos (f * φ)) • a + Real.cos (f * φ) • (a - p)) (s • (n - N))
    have := norm_add_le ((c - Real.cos (f * φ)) • a) (Real.cos (f * φ) • (a - p))
    linarith
  · right
    have hφτ : φ ≤ 2 * τ := by linarith
    have hcos1 : |Real.cos (f * φ) - 1| ≤ φ := by
      have h1 : |Real.cos (f * φ) - Real.cos 0| ≤ |f * φ - 0| := Real.abs_cos_sub_cos_le _ _
      rw [Real.cos_zero, sub_zero, abs_of_nonneg hfφ0] at h1
      linarith
    have hxp : ‖arcPoint p q f - p‖ ≤ φ := by
      obtain ⟨hx1, hx2, _⟩ := arcPoint_fraction hp hq (by linarith) f
      have h1 : ‖arcPoint p q f - p‖ ^ 2 = 2 - 2 * Real.cos (f * φ) := by
        rw [norm_sub_sq_real, hx1, hp, hx2]
        ring
      have h2 := Real.one_sub_sq_div_two_le_cos (x := f * φ)
      have h3 : ‖arcPoint p q f - p‖ ^ 2 ≤ φ ^ 2 := by
        rw [h1]
        nlinarith
      exact abs_le_of_sq_le_sq' h3 hφ0 |>.2
    have hcabs : |c - 1| ≤ ε + φ := by
      have := abs_sub_le c (Real.cos (f * φ)) 1
      linarith
    have hsabs : |s| ≤ ε + φ := by
      have := abs_sub_abs_le_abs_sub s (Real.sin (f * φ))
      linarith
    have e : c • a + s • n - arcPoint p q f = (c - 1) • a + (a - p) + s • n - (arcPoint p q f - p) := by module
    rw [e]
    have n1 : ‖(c - 1) • a‖ ≤ (ε + φ) * 1.01 := by
      rw [norm_smul, Real.norm_eq_abs]
      exact mul_le_mul hcabs ha' (norm_nonneg _) (by linarith)
    have n2 : ‖s • n‖ ≤ (ε + φ) * 2 := by
      rw [norm_smul, Real.norm_eq_abs]
      exact mul_le_mul hsabs hn2 (norm_nonneg _) (by linarith)
    have := norm_sub_le ((c - 1) • a + (a - p) + s • n) (arcPoint p q f - p)
    have := norm_add_le ((c - 1) • a + (a - p)) (s • n)
    have := norm_add_le ((c - 1) • a) (a - p)
    linarith

end

end HandEye
