import Verif.Props.Rounded
import Mathlib.Analysis.Real.Pi.Bounds
import Mathlib.Analysis.SpecialFunctions.Trigonometric.Bounds

/-! # Property C89, continued: the angle between two quaternions in floating-point arithmetic -/

open Quaternion

namespace HandEye

/-- The arc cosine is Hölder continuous. -/
theorem arccos_close {x y : ℝ} (hx : -1 ≤ x ∧ x ≤ 1) (hy : -1 ≤ y ∧ y ≤ 1) :
    |Real.arccos x - Real.arccos y| ≤ Real.pi * Real.sqrt (|x - y| / 2) := by
  wlog hxy : x ≤ y generalizing x y with H
  · have := H hy hx (le_of_not_ge hxy)
    rwa [abs_sub_comm, abs_sub_comm y x] at this
  have hpi := Real.pi_pos
  set a := Real.arccos x with ha
  set b := Real.arccos y with hb
  have hab : b ≤ a := Real.arccos_le_arccos hxy
  have ha1 : a ≤ Real.pi := Real.arccos_le_pi x
  have hb0 : 0 ≤ b := Real.arccos_nonneg y
  have ex : Real.cos a = x := Real.cos_arccos hx.1 hx.2
  have ey : Real.cos b = y := Real.cos_arccos hy.1 hy.2
  rw [abs_of_nonneg (by linarith), abs_sub_comm, abs_of_nonneg (by linarith)]
  set t := (a - b) / 2 with ht
  have ht0 : 0 ≤ t := by linarith
  have ht1 : t ≤ Real.pi / 2 := by linarith
  have e1 : y - x = 2 * Real.sin ((a + b) / 2) * Real.sin t := by
    rw [← ex, ← ey, Real.cos_sub_cos, ht, show (b - a) / 2 = -((a - b) / 2) by ring, Real.sin_neg, add_comm b a]
    ring
  have hst : 2 / Real.pi * t ≤ Real.sin t := Real.mul_le_sin ht0 ht1
  have hsin : Real.sin t ≤ Real.sin ((a + b) / 2) := by
    rcases le_total ((a + b) / 2) (Real.pi / 2) with h | h
    · exact Real.sin_le_sin_of_le_of_le_pi_div_two (by linarith) h (by linarith)
    · rw [← Real.sin_pi_sub ((a + b) / 2)]
      exact Real.sin_le_sin_of_le_of_le_pi_div_two (by linarith) (by linarith) (by linarith)
  have h2 : (2 / Real.pi * t) ^ 2 ≤ (y - x) / 2 := by
    have h0 : 0 ≤ 2 / Real.pi * t := by positivity
    rw [e1, sq]
    have := mul_le_mul (hst.trans hsin) hst h0 (le_trans h0 (hst.trans hsin))
    linarith
  have h3 := Real.le_sqrt_of_sq_le h2
  have e2 : a - b = Real.pi * (2 / Real.pi * t) := by field_simp; linarith
  rw [e2]
  exact mul_le_mul_of_nonneg_left h3 hpi.le

/-- The number that is given to `np.arccos`. -/
theorem angle_argument {u : ℝ} {A : Arith} (h : Spec.Machine u A) {q1 q2 : Quat} (h1 : |Spec.len q1 - 1| ≤ 10 * u)
    (h2 : |Spec.len q2 - 1| ≤ 10 * u) : ∃ i, A.inverse q2 = .ok i ∧ |(A.mul q1 i).w - Real.cos (Spec.halfAngle q1 q2)| ≤ 50 * u := by
  have h0 := h.nonneg
  have hs := h.small
  have hl1 := len_eq q1
  have hl2 := len_eq q2
  set N1 := ‖q1.toH‖ with hN1
  set N2 := ‖q2.toH‖ with hN2
  rw [hl1] at h1
  rw [hl2] at h2
  obtain ⟨a1, b1⟩ := abs_le.mp h1
  obtain ⟨a2, b2⟩ := abs_le.mp h2
  have p1 : 0 < N1 := by linarith
  have p2 : 0 < N2 := by linarith
  have hq2 : q2.toH ≠ 0 := norm_pos_iff.mp p2
  obtain ⟨i, hi, hi1⟩ := Arith.inverse_near h hq2
  refine ⟨i, hi, ?_⟩
  rw [← hN2] at hi1
  have hr : N1 * N2⁻¹ ≤ 1 + 21 * u := by
    rw [← div_eq_mul_inv, div_le_iff₀ p2]
    nlinarith
  have hr' : 1 - 21 * u ≤ N1 * N2⁻¹ := by
    rw [← div_eq_mul_inv, le_div_iff₀ p2]
    nlinarith
  have hin : ‖i.toH‖ ≤ (1 + 7 * u) * N2⁻¹ := by
    have := norm_le_insert' i.toH (q2.toH)⁻¹
    rw [norm_inv, ← hN2] at this
    linarith
  -- the rounded product
  have c1 : |(A.mul q1 i).w - (q1 * i).w| ≤ 5 * u * ((1 + 21 * u) * (1 + 7 * u)) := by
    refine (Arith.mul_components h q1 i).2.2.trans (mul_le_mul_of_nonneg_left ?_ (by linarith))
    rw [← hN1]
    calc N1 * ‖i.toH‖ ≤ N1 * ((1 + 7 * u) * N2⁻¹) := mul_le_mul_of_nonneg_left hin p1.le
      _ = N1 * N2⁻¹ * (1 + 7 * u) := by ring
      _ ≤ _ := mul_le_mul_of_nonneg_right hr (by linarith)
  -- the rounded inverse
  have c2 : |(q1 * i).w - (q1.toH * (q2.toH)⁻¹).re| ≤ 7 * u * (1 + 21 * u) := by
    have e : (q1 * i).w - (q1.toH * (q2.toH)⁻¹).re = (q1.toH * (i.toH - (q2.toH)⁻¹)).re := by
      rw [mul_sub, Quaternion.re_sub, ← Quat.toH_mul]
      rfl
    rw [e]
    have b : |(q1.toH * (i.toH - (q2.toH)⁻¹)).re| ≤ ‖q1.toH * (i.toH - (q2.toH)⁻¹)‖ := by
      apply abs_le_of_sq_le_sq _ (norm_nonneg _)
      rw [sq ‖_‖, ← Quaternion.normSq_eq_norm_mul_self, Quaternion.normSq_def']
      nlinarith [sq_nonneg (q1.toH * (i.toH - (q2.toH)⁻¹)).imI, sq_nonneg (q1.toH * (i.toH - (q2.toH)⁻¹)).imJ,
        sq_nonneg (q1.toH * (i.toH - (q2.toH)⁻¹)).imK]
    refine b.trans ?_
    rw [norm_mul, ← hN1]
    calc N1 * ‖i.toH - (q2.toH)⁻¹‖ ≤ N1 * (7 * u * N2⁻¹) := mul_le_mul_of_nonneg_left hi1 p1.le
      _ = 7 * u * (N1 * N2⁻¹) := by ring
      _ ≤ _ := mul_le_mul_of_nonneg_left hr (by linarith)
  -- the cosine
  set D := q1.x * q2.x + q1.y * q2.y + q1.z * q2.z + q1.w * q2.w with hD
  have hDb : |D| ≤ N1 * N2 := by
    have := cauchy_abs q1.x q1.y q1.z q1.w q2.x q2.y q2.z q2.w
    rw [← Spec.len, ← Spec.len, hl1, hl2] at this
    refine le_trans ?_ this
    calc |D| ≤ |q1.x * q2.x + q1.y * q2.y + q1.z * q2.z| + |q1.w * q2.w| := abs_add_le _ _
      _ ≤ _ := by linarith [abs_add_three (q1.x * q2.x) (q1.y * q2.y) (q1.z * q2.z)]
  have hC : |D / (N1 * N2)| ≤ 1 := by
    rw [abs_div, abs_of_pos (mul_pos p1 p2), div_le_one (mul_pos p1 p2)]
    exact hDb
  have hcos : Real.cos (Spec.halfAngle q1 q2) = D / (N1 * N2) := by
    unfold Spec.halfAngle
    rw [hl1, hl2, Real.cos_arccos (abs_le.mp hC).1 (abs_le.mp hC).2]
  have hre : (q1.toH * (q2.toH)⁻¹).re = D / (N1 * N2) * (N1 * N2⁻¹) := by
    have e : (q1.toH * (q2.toH)⁻¹).re = (N2 * N2)⁻¹ * D := by
      rw [Quaternion.inv_def, Quaternion.normSq_eq_norm_mul_self, ← hN2, mul_smul_comm, Quaternion.re_smul, smul_eq_mul]
      congr 1
      simp [hD]
      ring
    rw [e]
    field_simp
  have c3 : |(q1.toH * (q2.toH)⁻¹).re - Real.cos (Spec.halfAngle q1 q2)| ≤ 21 * u := by
    rw [hre, hcos, show D / (N1 * N2) * (N1 * N2⁻¹) - D / (N1 * N2) = D / (N1 * N2) * (N1 * N2⁻¹ - 1) by ring, abs_mul]
    have : |N1 * N2⁻¹ - 1| ≤ 21 * u := abs_le.mpr ⟨by linarith, by linarith⟩
    calc _ ≤ 1 * (21 * u) := mul_le_mul hC this (abs_nonneg _) (by norm_num)
      _ = _ := one_mul _
  have t1 := abs_sub_le (A.mul q1 i).w (q1 * i).w (Real.cos (Spec.halfAngle q1 q2))
  have t2 := abs_sub_le (q1 * i).w (q1.toH * (q2.toH)⁻¹).re (Real.cos (Spec.halfAngle q1 q2))
  have f1 : 5 * u * ((1 + 21 * u) * (1 + 7 * u)) ≤ 5 * u * 2 := mul_le_mul_of_nonneg_left (by nlinarith) (by linarith)
  have f2 : 7 * u * (1 + 21 * u) ≤ 7 * u * 2 := mul_le_mul_of_nonneg_left (by nlinarith) (by linarith)
  linarith

/-- **C89**, the angle: for two quaternions that were normalised in floating-point arithmetic and are not taken for equal, the angle that
is returned is within `10 π √u + 7 u + 3 e` of the exact one, where `e` is the error of the library function `arccos`; it is
returned whenever the angle is not within about `20 √u` of zero or of a full turn.  Partial: closer to zero it need not be a number (`C89_angle_refuted`). -/
theorem C89_angle_partial {u : ℝ} {A : Arith} (h : Spec.Machine u A) (e : ℝ) (hacos : ∀ x : ℝ, -1 ≤ x → x ≤ 1 → |A.acos x - Real.arccos x| ≤ e)
    (q1 q2 : Quat) (h1 : |Spec.len q1 - 1| ≤ 10 * u) (h2 : |Spec.len q2 - 1| ≤ 10 * u) (hne : ¬ q1.allclose q2 1e-12) :
    (∀ a, A.angleBetween q1 q2 = .ok a → |a - 2 * Spec.halfAngle q1 q2| ≤ 10 * Real.pi * Real.sqrt u + 7 * u + 3 * e) ∧
      (|Real.cos (Spec.halfAngle q1 q2)| ≤ 1 - 50 * u → ∃ a, A.angleBetween q1 q2 = .ok a) := by
  have h0 := h.nonneg
  have hs := h.small
  obtain ⟨i, hi, hw⟩ := angle_argument h h1 h2
  have run : A.angleBetween q1 q2 = if -1 ≤ (A.mul q1 i).w ∧ (A.mul q1 i).w ≤ 1 then .ok (A.fl (2 * A.acos (A.mul q1 i).w))
      else .error .nonFinite := by
    unfold Arith.angleBetween
    rw [if_neg hne, hi]
    rfl
  set w := (A.mul q1 i).w with hwdef
  have hhalf : Spec.halfAngle q1 q2 = Real.arccos (Real.cos (Spec.halfAngle q1 q2)) := by
    rw [Real.arccos_cos]
    · exact Real.arccos_nonneg _
    · exact Real.arccos_le_pi _
  constructor
  · intro a ha
    rw [run] at ha
    split_ifs at ha with hr
    cases ha
    have a1 := hacos w hr.1 hr.2
    have he : 0 ≤ e := le_trans (abs_nonneg _) a1
    have a2 := arccos_close hr ⟨Real.neg_one_le_cos _, Real.cos_le_one (Spec.halfAngle q1 q2)⟩
    rw [← hhalf] at a2
    have a3 : Real.sqrt (|w - Real.cos (Spec.halfAngle q1 q2)| / 2) ≤ 5 * Real.sqrt u := by
      calc _ ≤ Real.sqrt (5 ^ 2 * u) := Real.sqrt_le_sqrt (by linarith)
        _ = 5 * Real.sqrt u := by rw [Real.sqrt_mul (by norm_num), Real.sqrt_sq (by norm_num)]
    have a4 := mul_le_mul_of_nonneg_left a3 Real.pi_pos.le
    have a5 := h.rounds (2 * A.acos w)
    have a6 : |2 * A.acos w| ≤ 2 * (Real.pi + e) := by
      rw [abs_mul, abs_of_pos (by norm_num : (0 : ℝ) < 2)]
      have b1 := abs_sub_abs_le_abs_sub (A.acos w) (Real.arccos w)
      rw [abs_of_nonneg (Real.arccos_nonneg w)] at b1
      linarith [Real.arccos_le_pi w]
    have a7 : u * |2 * A.acos w| ≤ u * (2 * (Real.pi + e)) := mul_le_mul_of_nonneg_left a6 h0
    have a8 : u * (2 * (Real.pi + e)) ≤ 7 * u + e := by
      have := Real.pi_lt_d2
      norm_num at this
      nlinarith [mul_nonneg h0 he]
    have t1 := abs_sub_le (A.fl (2 * A.acos w)) (2 * A.acos w) (2 * Spec.halfAngle q1 q2)
    have t2 := abs_sub_le (A.acos w) (Real.arccos w) (Spec.halfAngle q1 q2)
    have t3 : |2 * A.acos w - 2 * Spec.halfAngle q1 q2| = 2 * |A.acos w - Spec.halfAngle q1 q2| := by
      rw [← mul_sub, abs_mul, abs_of_pos (by norm_num : (0 : ℝ) < 2)]
    rw [t3] at t1
    linarith
  · intro hc
    obtain ⟨w1, w2⟩ := abs_le.mp hw
    obtain ⟨c1, c2⟩ := abs_le.mp hc
    exact ⟨_, by rw [run, if_pos ⟨by linarith, by linarith⟩]⟩

example : ∃ a, (doubleArith Real.arccos).angleBetween ⟨0, 0.6, 0, 0.8⟩ ⟨0, 0, 0, 1⟩ = .ok a ∧ |a - 2 * Real.arccos 0.8| ≤ 1e-6 := by
  have e1 : Spec.len ⟨0, 0.6, 0, 0.8⟩ = 1 := by unfold Spec.len; norm_num
  have e2 : Spec.len ⟨0, 0, 0, 1⟩ = 1 := by unfold Spec.len; norm_num
  have e3 : Spec.halfAngle ⟨0, 0.6, 0, 0.8⟩ ⟨0, 0, 0, 1⟩ = Real.arccos 0.8 := by
    unfold Spec.halfAngle
    rw [e1, e2]
    norm_num
  have ne : ¬Quat.allclose ⟨0, 0.6, 0, 0.8⟩ ⟨0, 0, 0, 1⟩ 1e-12 := by
    rintro ⟨_, h, _⟩
    unfold npIsclose at h
    norm_num [abs_of_pos] at h
  obtain ⟨h1, h2⟩ := C89_angle_partial (C89_double Real.arccos) 0 (fun x _ _ => by simp [doubleArith]) ⟨0, 0.6, 0, 0.8⟩ ⟨0, 0, 0, 1⟩
    (by rw [e1]; norm_num) (by rw [e2]; norm_num) ne
  rw [e3] at h1 h2
  obtain ⟨a, ha⟩ := h2 (by rw [Real.cos_arccos (by norm_num) (by norm_num), abs_of_pos (by norm_num)]; norm_num)
  refine ⟨a, ha, (h1 a ha).trans ?_⟩
  have s1 : Real.sqrt ((2⁻¹ : ℝ) ^ 53) ≤ 1.1e-8 := Real.sqrt_le_iff.mpr ⟨by norm_num, by norm_num⟩
  have s2 := Real.sqrt_nonneg ((2⁻¹ : ℝ) ^ 53)
  have s3 : Real.pi * Real.sqrt ((2⁻¹ : ℝ) ^ 53) ≤ 4 * 1.1e-8 := mul_le_mul Real.pi_le_four s1 s2 (by norm_num)
  norm_num at s3 ⊢
  linarith

end HandEye
