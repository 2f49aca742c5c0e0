import Verif.Lemmas.ThreePoses

/-! # Three directions of the axes of the paths that the tests generate -/

namespace HandEye

theorem helix_halfSine_sq (t : ℝ) : halfSine (helixQuat t) ^ 2 =
    1 - (Real.cos (Real.pi * t / 5) * Real.cos (2 * Real.pi * t)) ^ 2 := by
  have h := helixQuat_dot t
  rw [← halfSine_sq]
  rw [Quat.dot] at h
  have hw : (helixQuat t).w = Real.cos (Real.pi * t / 5) * Real.cos (2 * Real.pi * t) := by rw [helixQuat_eq]
  rw [← hw]
  linear_combination h

theorem helix_halfSine_ge {t x : ℝ} (hx : x ^ 2 ≤ 1 - (Real.cos (Real.pi * t / 5) * Real.cos (2 * Real.pi * t)) ^ 2) :
    x ≤ halfSine (helixQuat t) := by
  rw [← helix_halfSine_sq] at hx
  exact (le_abs_self x).trans (abs_le_of_sq_le_sq hx (Real.sqrt_nonneg _))

/-- How much the path has turned at least. -/
theorem helix_turned {t : ℝ} (h0 : 0 ≤ t) (h1 : t ≤ 1) : 2 * t / 5 ≤ halfSine (helixQuat t) := by
  apply helix_halfSine_ge
  have hpi := Real.pi_pos
  have hs : 2 / Real.pi * (Real.pi * t / 5) ≤ Real.sin (Real.pi * t / 5) :=
    Real.mul_le_sin (by positivity) (by nlinarith)
  rw [show 2 / Real.pi * (Real.pi * t / 5) = 2 * t / 5 by field_simp] at hs
  have h2 := Real.sin_sq_add_cos_sq (Real.pi * t / 5)
  have h3 := Real.cos_sq_le_one (2 * Real.pi * t)
  have h4 : (2 * t / 5) ^ 2 ≤ Real.sin (Real.pi * t / 5) ^ 2 := pow_le_pow_left₀ (by positivity) hs 2
  rw [mul_pow]
  nlinarith [sq_nonneg (Real.cos (Real.pi * t / 5))]

theorem helix_dot (s t : ℝ) : vecDot (helixQuat s) (helixQuat t) =
    Real.sin (2 * Real.pi * s) * Real.sin (2 * Real.pi * t) * Real.cos (Real.pi * t / 5 - Real.pi * s / 5) +
      Real.sin (Real.pi * s / 5) * Real.cos (2 * Real.pi * s) * (Real.sin (Real.pi * t / 5) * Real.cos (2 * Real.pi * t)) := by
  rw [helixQuat_eq, helixQuat_eq, Real.cos_sub, vecDot]
  ring

/-- A time near three quarters. -/
theorem near_cos {t : ℝ} (h : |t - 3 / 4| ≤ 1 / 38) : |Real.cos (2 * Real.pi * t)| ≤ 0.166 := by
  have e : Real.cos (2 * Real.pi * t) = Real.sin (2 * Real.pi * (t - 3 / 4)) := by
    rw [show 2 * Real.pi * t = 2 * Real.pi * (t - 3 / 4) + Real.pi + Real.pi / 2 by ring, Real.cos_add_pi_div_two,
      Real.sin_add_pi, neg_neg]
  rw [e]
  refine (Real.abs_sin_le_abs).trans ?_
  rw [abs_mul, abs_of_pos (by positivity)]
  have := Real.pi_lt_d2
  have h0 := abs_nonneg (t - 3 / 4)
  nlinarith [Real.pi_pos]

theorem near_sin {t : ℝ} (h : |t - 3 / 4| ≤ 1 / 38) : |Real.sin (Real.pi * t / 5)| ≤ 0.49 := by
  obtain ⟨h1, h2⟩ := abs_le.mp h
  have hp := Real.pi_pos
  have := Real.pi_lt_d2
  refine (Real.abs_sin_le_abs).trans ?_
  have ht : 0 ≤ t := by linarith
  rw [abs_of_nonneg (by positivity)]
  nlinarith

theorem near_halfSine {t : ℝ} (h : |t - 3 / 4| ≤ 1 / 38) : 0.985 ≤ halfSine (helixQuat t) := by
  apply helix_halfSine_ge
  have h1 := near_cos h
  have h2 := Real.cos_sq_le_one (Real.pi * t / 5)
  have h3 : Real.cos (2 * Real.pi * t) ^ 2 ≤ 0.166 ^ 2 := by
    rw [← sq_abs]
    exact pow_le_pow_left₀ (abs_nonneg _) h1 2
  rw [mul_pow]
  nlinarith [sq_nonneg (Real.cos (2 * Real.pi * t))]

theorem first_halfSine {s : ℝ} (h0 : 0 < s) (h1 : s ≤ 1 / 19) :
    0.999 * Real.sin (2 * Real.pi * s) ≤ halfSine (helixQuat s) ∧ 0 < Real.sin (2 * Real.pi * s) ∧
      0 ≤ Real.sin (Real.pi * s / 5) ∧ Real.sin (Real.pi * s / 5) ≤ 0.158 * Real.sin (2 * Real.pi * s) := by
  have hp := Real.pi_pos
  have hp' := Real.pi_lt_d2
  have hs : 0 < Real.sin (2 * Real.pi * s) := Real.sin_pos_of_pos_of_lt_pi (by positivity) (by nlinarith)
  have hA : Real.pi * s / 5 ≤ 0.034 := by nlinarith
  have hc : 0.999 ≤ Real.cos (Real.pi * s / 5) := by
    have := Real.one_sub_sq_div_two_le_cos (x := Real.pi * s / 5)
    have h0' : 0 ≤ Real.pi * s / 5 := by positivity
    nlinarith
  refine ⟨?_, hs, Real.sin_nonneg_of_nonneg_of_le_pi (by positivity) (by nlinarith), ?_⟩
  · apply helix_halfSine_ge
    have e1 := Real.sin_sq_add_cos_sq (2 * Real.pi * s)
    have e2 := Real.cos_sq_le_one (Real.pi * s / 5)
    have e3 : (0.999 : ℝ) ^ 2 ≤ Real.cos (Real.pi * s / 5) ^ 2 := pow_le_pow_left₀ (by norm_num) hc 2
    rw [mul_pow, mul_pow]
    nlinarith [sq_nonneg (Real.sin (2 * Real.pi * s)), sq_nonneg (Real.cos (2 * Real.pi * s))]
  · have hB : 2 / Real.pi * (2 * Real.pi * s) ≤ Real.sin (2 * Real.pi * s) := Real.mul_le_sin (by positivity) (by nlinarith)
    rw [show 2 / Real.pi * (2 * Real.pi * s) = 4 * s by field_simp; ring] at hB
    have := Real.sin_le (x := Real.pi * s / 5) (by positivity)
    nlinarith

/-- The axes of the second sample and of the one near three quarters. -/
theorem first_near {s t : ℝ} (h0 : 0 < s) (h1 : s ≤ 1 / 19) (h : |t - 3 / 4| ≤ 1 / 38) :
    |vecDot (helixQuat s) (helixQuat t)| ≤ 0.95 * (halfSine (helixQuat s) * halfSine (helixQuat t)) := by
  obtain ⟨f1, f2, f3, f4⟩ := first_halfSine h0 h1
  have n1 := near_cos h
  have n2 := near_sin h
  have n3 := near_halfSine h
  have hcos : |Real.cos (Real.pi * t / 5 - Real.pi * s / 5)| ≤ 0.914 := by
    have hp := Real.pi_gt_d2
    have hp' := Real.pi_lt_d2
    obtain ⟨g1, g2⟩ := abs_le.mp h
    have l1 : 0.42 ≤ Real.pi * t / 5 - Real.pi * s / 5 := by nlinarith
    have l2 : Real.pi * t / 5 - Real.pi * s / 5 ≤ Real.pi / 2 := by nlinarith
    have e1 := Real.cos_le_cos_of_nonneg_of_le_pi (by norm_num) (by linarith) l1
    have e2 := abs_le.mp (Real.cos_bound (x := 0.42) (by rw [abs_of_pos] <;> norm_num))
    rw [abs_of_pos (by norm_num)] at e2
    rw [abs_of_nonneg (Real.cos_nonneg_of_neg_pi_div_two_le_of_le (by linarith) l2)]
    have e3 := e2.2
    norm_num at e3
    linarith
  rw [helix_dot]
  have a1 : |Real.sin (2 * Real.pi * s) * Real.sin (2 * Real.pi * t) * Real.cos (Real.pi * t / 5 - Real.pi * s / 5)| ≤
      0.914 * Real.sin (2 * Real.pi * s) := by
    rw [abs_mul, abs_mul, abs_of_pos f2]
    have := Real.abs_sin_le_one (2 * Real.pi * t)
    calc _ ≤ Real.sin (2 * Real.pi * s) * 1 * 0.914 := by gcongr
      _ = _ := by ring
  have a2 : |Real.sin (Real.pi * s / 5) * Real.cos (2 * Real.pi * s) * (Real.sin (Real.pi * t / 5) * Real.cos (2 * Real.pi * t))| ≤
      0.013 * Real.sin (2 * Real.pi * s) := by
    rw [abs_mul, abs_mul, abs_mul, abs_of_nonneg f3]
    have := Real.abs_cos_le_one (2 * Real.pi * s)
    calc _ ≤ 0.158 * Real.sin (2 * Real.pi * s) * 1 * (0.49 * 0.166) := by gcongr
      _ ≤ _ := by linarith
  have a3 : 0.999 * Real.sin (2 * Real.pi * s) * 0.985 ≤ halfSine (helixQuat s) * halfSine (helixQuat t) :=
    mul_le_mul f1 n3 (by norm_num) (Real.sqrt_nonneg _)
  refine (abs_add_le _ _).trans ?_
  nlinarith

/-- The axis of the last sample is the y axis. -/
theorem helix_one (t : ℝ) : vecDot (helixQuat t) (helixQuat 1) =
    Real.sin (Real.pi * t / 5) * Real.cos (2 * Real.pi * t) * halfSine (helixQuat 1) := by
  have hs : halfSine (helixQuat 1) = Real.sin (Real.pi / 5) := by
    have h := helix_halfSine_sq 1
    have e := Real.sin_sq_add_cos_sq (Real.pi / 5)
    rw [mul_one, mul_one, Real.cos_two_pi, mul_one] at h
    have h2 : halfSine (helixQuat 1) ^ 2 = Real.sin (Real.pi / 5) ^ 2 := by rw [h]; linarith
    refine (pow_left_inj₀ (Real.sqrt_nonneg _) ?_ two_ne_zero).mp h2
    exact Real.sin_nonneg_of_nonneg_of_le_pi (by positivity) (by linarith [Real.pi_pos])
  rw [helix_dot, hs]
  simp

theorem first_last {s : ℝ} (h0 : 0 < s) (h1 : s ≤ 1 / 19) :
    |vecDot (helixQuat s) (helixQuat 1)| ≤ 0.5 * (halfSine (helixQuat s) * halfSine (helixQuat 1)) := by
  obtain ⟨f1, f2, f3, f4⟩ := first_halfSine h0 h1
  have hh : 0 ≤ halfSine (helixQuat 1) := Real.sqrt_nonneg _
  rw [helix_one, abs_mul, abs_mul, abs_of_nonneg f3, abs_of_nonneg hh, ← mul_assoc]
  refine mul_le_mul_of_nonneg_right ?_ hh
  have := Real.abs_cos_le_one (2 * Real.pi * s)
  nlinarith [abs_nonneg (Real.cos (2 * Real.pi * s))]

theorem near_last {t : ℝ} (h : |t - 3 / 4| ≤ 1 / 38) :
    |vecDot (helixQuat t) (helixQuat 1)| ≤ 0.5 * (halfSine (helixQuat t) * halfSine (helixQuat 1)) := by
  have n1 := near_cos h
  have n2 := near_sin h
  have n3 := near_halfSine h
  have hh : 0 ≤ halfSine (helixQuat 1) := Real.sqrt_nonneg _
  rw [helix_one, abs_mul, abs_mul, abs_of_nonneg hh, ← mul_assoc]
  refine mul_le_mul_of_nonneg_right ?_ hh
  nlinarith [abs_nonneg (Real.cos (2 * Real.pi * t)), abs_nonneg (Real.sin (Real.pi * t / 5))]

end HandEye
