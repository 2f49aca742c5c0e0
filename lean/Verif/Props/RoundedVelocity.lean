import Verif.Props.RoundedInterp2

/-! # Property C110: the errors of angular velocities -/

namespace HandEye

open Quaternion

/-- The axis and the angle of a unit quaternion. -/
theorem unit_polar {D : Quat} (hD : ‖D.toH‖ = 1) :
    ∃ a : Vec3, a.x ^ 2 + a.y ^ 2 + a.z ^ 2 = 1 ∧
      D = ⟨Real.sin (Real.arccos D.w) * a.x, Real.sin (Real.arccos D.w) * a.y, Real.sin (Real.arccos D.w) * a.z, Real.cos (Real.arccos D.w)⟩ := by
  have hsq := norm_sq_quat D
  rw [hD] at hsq
  have hw := (Arith.abs_component D).2.2.2
  rw [hD] at hw
  obtain ⟨w1, w2⟩ := abs_le.mp hw
  have hcos := Real.cos_arccos w1 w2
  have hsin := Real.sin_arccos D.w
  by_cases hz : 1 - D.w ^ 2 = 0
  · have hx : D.x = 0 := by nlinarith [sq_nonneg D.x, sq_nonneg D.y, sq_nonneg D.z]
    have hy : D.y = 0 := by nlinarith [sq_nonneg D.x, sq_nonneg D.y, sq_nonneg D.z]
    have hzz : D.z = 0 := by nlinarith [sq_nonneg D.x, sq_nonneg D.y, sq_nonneg D.z]
    refine ⟨⟨1, 0, 0⟩, by norm_num, ?_⟩
    rw [hcos, hsin, hz, Real.sqrt_zero]
    ext <;> simp [hx, hy, hzz]
  · have hp : 0 < 1 - D.w ^ 2 := lt_of_le_of_ne (by nlinarith) (Ne.symm hz)
    have hs : 0 < Real.sqrt (1 - D.w ^ 2) := Real.sqrt_pos.mpr hp
    have hs2 := Real.sq_sqrt hp.le
    set s := Real.sqrt (1 - D.w ^ 2) with hsd
    refine ⟨⟨D.x / s, D.y / s, D.z / s⟩, ?_, ?_⟩
    · show (D.x / s) ^ 2 + (D.y / s) ^ 2 + (D.z / s) ^ 2 = 1
      field_simp
      rw [hs2]
      linarith
    · rw [hcos, hsin]
      ext
      · show D.x = s * (D.x / s)
        field_simp
      · show D.y = s * (D.y / s)
        field_simp
      · show D.z = s * (D.z / s)
        field_simp
      · rfl

/-- The arccosine, away from one. -/
theorem arccos_away {w W η : ℝ} (hw0 : 0 ≤ w) (hw1 : w ≤ 1 - 1e-5) (hW0 : -1 ≤ W) (hW1 : W ≤ 1) (h : |w - W| ≤ η) :
    |Real.arccos w - Real.arccos W| ≤ 720 * η ∧ |Real.sqrt (1 - w ^ 2) - Real.sqrt (1 - W ^ 2)| ≤ 448 * η ∧ 0.00447 ≤ Real.sqrt (1 - w ^ 2) := by
  rw [← Real.sin_arccos w, ← Real.sin_arccos W]
  norm_num at hw1
  have hη : 0 ≤ η := (abs_nonneg _).trans h
  have hs : (0.00447 : ℝ) ≤ Real.sin (Real.arccos w) := by
    rw [Real.sin_arccos]
    apply Real.le_sqrt_of_sq_le
    norm_num
    nlinarith
  have c1 := Real.cos_arccos (x := w) (by linarith) (by linarith)
  have c2 := Real.cos_arccos hW0 hW1
  have p1 := Real.sin_sq_add_cos_sq (Real.arccos w)
  have p2 := Real.sin_sq_add_cos_sq (Real.arccos W)
  have s2 : 0 ≤ Real.sin (Real.arccos W) := Real.sin_nonneg_of_nonneg_of_le_pi (Real.arccos_nonneg _) (Real.arccos_le_pi _)
  have a1 := Real.arccos_nonneg w
  have a2 := Real.arccos_nonneg W
  have a3 := Real.arccos_le_pi w
  have a4 := Real.arccos_le_pi W
  have hcos := Real.cos_sub (Real.arccos w) (Real.arccos W)
  set θ := Real.arccos w
  set Θ := Real.arccos W
  rw [c1] at p1 hcos
  rw [c2] at p2 hcos
  set s := Real.sin θ
  set S := Real.sin Θ
  norm_num at hs
  have d1 : |s - S| ≤ 448 * η := by
    have k : |s - S| * (s + S) = |w - W| * |w + W| := by
      rw [← abs_of_nonneg (a := s + S) (by linarith), ← abs_mul, ← abs_mul, show (s - S) * (s + S) = -((w - W) * (w + W)) by linarith, abs_neg]
    have k1 : |w + W| ≤ 2 := by
      rw [abs_le]
      constructor <;> linarith
    have k2 : |w - W| * |w + W| ≤ η * 2 := mul_le_mul h k1 (abs_nonneg _) hη
    have k3 : |s - S| * 0.00447 ≤ |s - S| * (s + S) := mul_le_mul_of_nonneg_left (by norm_num; linarith) (abs_nonneg _)
    norm_num at k3
    linarith
  have d2 : 2 - 2 * Real.cos (θ - Θ) ≤ (449 * η) ^ 2 := by
    have k1 : (w - W) ^ 2 ≤ η ^ 2 := by
      rw [← sq_abs]
      exact pow_le_pow_left₀ (abs_nonneg _) h 2
    have k2 : (s - S) ^ 2 ≤ (448 * η) ^ 2 := by
      rw [← sq_abs]
      exact pow_le_pow_left₀ (abs_nonneg _) d1 2
    rw [hcos]
    nlinarith
  have hy0 : 0 ≤ |θ - Θ| / 2 := by positivity
  have hy1 : |θ - Θ| / 2 ≤ Real.pi / 2 := by
    have : |θ - Θ| ≤ Real.pi := by
      rw [abs_le]
      constructor <;> linarith
    linarith
  have e1 := Real.mul_le_sin hy0 hy1
  have e2 : Real.cos (θ - Θ) = 1 - 2 * Real.sin (|θ - Θ| / 2) ^ 2 := by
    rw [← Real.cos_abs (θ - Θ)]
    have := Real.cos_two_mul (|θ - Θ| / 2)
    have h3 := Real.sin_sq_add_cos_sq (|θ - Θ| / 2)
    have h4 : 2 * (|θ - Θ| / 2) = |θ - Θ| := by ring
    rw [h4] at this
    linarith
  have hsn : 0 ≤ Real.sin (|θ - Θ| / 2) := Real.sin_nonneg_of_nonneg_of_le_pi hy0 (by linarith [Real.pi_pos])
  have e3 : 2 * Real.sin (|θ - Θ| / 2) ≤ 449 * η := by
    refine (abs_le_of_sq_le_sq' (a := 2 * Real.sin (|θ - Θ| / 2)) (b := 449 * η) ?_ (by positivity)).2
    nlinarith
  have hpi := Real.pi_lt_d2
  have hpi0 := Real.pi_pos
  have e4 : |θ - Θ| ≤ Real.pi * Real.sin (|θ - Θ| / 2) := by
    have k : 2 / Real.pi * (|θ - Θ| / 2) = |θ - Θ| / Real.pi := by
      field_simp
    rw [k, div_le_iff₀ hpi0] at e1
    linarith
  have e5 : Real.pi * Real.sin (|θ - Θ| / 2) ≤ 3.15 * (449 / 2 * η) := mul_le_mul hpi.le (by linarith) hsn (by norm_num)
  norm_num at e5 ⊢
  exact ⟨by linarith, d1, hs⟩

/-- A rounded number as a multiple of the exact one. -/
theorem fl_factor {u : ℝ} {A : Arith} (h : Spec.Machine u A) (x : ℝ) : ∃ ε, |ε| ≤ u ∧ A.fl x = x * (1 + ε) := by
  have r := h.rounds x
  by_cases hx : x = 0
  · refine ⟨0, by rw [abs_zero]; exact h.nonneg, ?_⟩
    rw [hx, abs_zero, mul_zero, sub_zero] at r
    rw [hx, zero_mul]
    exact abs_nonpos_iff.mp r
  · refine ⟨(A.fl x - x) / x, ?_, ?_⟩
    · rw [abs_div, div_le_iff₀ (abs_pos.mpr hx)]
      exact r
    · field_simp
      ring

theorem factor_step {a α u ε : ℝ} (ha : |a - 1| ≤ α) (hα : α ≤ 1 / 100) (hε : |ε| ≤ u) : |a * (1 + ε) - 1| ≤ α + 1.01 * u := by
  have k : a * (1 + ε) - 1 = (a - 1) + a * ε := by ring
  rw [k]
  refine (abs_add_le _ _).trans ?_
  rw [abs_mul]
  have k1 : |a| ≤ 1.01 := by
    have := abs_sub_abs_le_abs_sub a 1
    rw [abs_one] at this
    norm_num
    linarith
  have : |a| * |ε| ≤ 1.01 * u := mul_le_mul k1 hε (abs_nonneg _) (by norm_num)
  linarith

/-- One component of an angular velocity times the time. -/
theorem velocity_component {u : ℝ} {A : Arith} (h : Spec.Machine u A) (hu : u ≤ 2e-7) {P x s t : ℝ} (ht : t ≠ 0) :
    |t * A.fl (A.fl (A.fl (0.5 / t) * A.fl (2 * P)) * A.fl (x / s)) - P * (x / s)| ≤ 6 * u * |P * (x / s)| := by
  have h0 := h.nonneg
  norm_num at hu
  obtain ⟨ε1, b1, e1⟩ := fl_factor h (0.5 / t)
  obtain ⟨ε2, b2, e2⟩ := fl_factor h (2 * P)
  obtain ⟨ε3, b3, e3⟩ := fl_factor h (x / s)
  obtain ⟨ε4, b4, e4⟩ := fl_factor h (A.fl (0.5 / t) * A.fl (2 * P))
  obtain ⟨ε5, b5, e5⟩ := fl_factor h (A.fl (A.fl (0.5 / t) * A.fl (2 * P)) * A.fl (x / s))
  rw [e5, e4, e1, e2, e3]
  have k : t * (0.5 / t * (1 + ε1) * (2 * P * (1 + ε2)) * (1 + ε4) * (x / s * (1 + ε3)) * (1 + ε5)) - P * (x / s) =
      ((1 + ε1) * (1 + ε2) * (1 + ε3) * (1 + ε4) * (1 + ε5) - 1) * (P * (x / s)) := by
    have : t * (0.5 / t) = 0.5 := by
      field_simp
    calc _ = (t * (0.5 / t)) * (1 + ε1) * (2 * P * (1 + ε2)) * (1 + ε4) * (x / s * (1 + ε3)) * (1 + ε5) - P * (x / s) := by ring
      _ = _ := by
        rw [this]
        ring
  rw [k, abs_mul]
  apply mul_le_mul_of_nonneg_right _ (abs_nonneg _)
  have f1 : |1 + ε1 - 1| ≤ u := by
    rw [add_sub_cancel_left]
    exact b1
  have f2 := factor_step f1 (by linarith) b2
  have f3 := factor_step f2 (by norm_num; linarith) b3
  have f4 := factor_step f3 (by norm_num; linarith) b4
  have f5 := factor_step f4 (by norm_num; linarith) b5
  refine f5.trans ?_
  norm_num
  linarith

/-- The sine that `angle_axis` divides by. -/
theorem axis_divisor {u : ℝ} {A : Arith} (h : Spec.Machine u A) (hu : u ≤ 2e-7) {w : ℝ} (hw0 : 0 ≤ w) (hw1 : w ≤ 1 - 1e-5) :
    0 ≤ A.fl (1 - A.fl (w * w)) ∧ 0 < A.fl (Real.sqrt (A.fl (1 - A.fl (w * w)))) ∧
      |A.fl (Real.sqrt (A.fl (1 - A.fl (w * w)))) - Real.sqrt (1 - w ^ 2)| ≤ 500 * u := by
  have h0 := h.nonneg
  obtain ⟨_, _, hs0⟩ := arccos_away (W := w) (η := 0) hw0 hw1 (by linarith) (by norm_num at hw1; linarith) (by simp)
  norm_num at hw1 hu hs0
  have hS2 := Real.sq_sqrt (show 0 ≤ 1 - w ^ 2 by nlinarith)
  have hsle : Real.sqrt (1 - w ^ 2) ≤ 1 := by
    exact Real.sqrt_le_iff.mpr ⟨by norm_num, by nlinarith⟩
  have hp : (1.99e-5 : ℝ) ≤ 1 - w ^ 2 := by
    norm_num
    nlinarith
  norm_num at hp
  set s0 := Real.sqrt (1 - w ^ 2)
  have r1 := h.rounds (w * w)
  rw [abs_of_nonneg (mul_nonneg hw0 hw0)] at r1
  have hww : w * w ≤ 1 := by nlinarith
  have t1 : |1 - A.fl (w * w) - (1 - w ^ 2)| ≤ u := by
    have k : 1 - A.fl (w * w) - (1 - w ^ 2) = -(A.fl (w * w) - w * w) := by ring
    rw [k, abs_neg]
    nlinarith
  have r2 := h.rounds (1 - A.fl (w * w))
  have t2 : |A.fl (1 - A.fl (w * w)) - (1 - w ^ 2)| ≤ 2.01 * u := by
    have k := abs_sub_le (A.fl (1 - A.fl (w * w))) (1 - A.fl (w * w)) (1 - w ^ 2)
    have k2 := abs_sub_abs_le_abs_sub (1 - A.fl (w * w)) (1 - w ^ 2)
    rw [abs_of_nonneg (a := 1 - w ^ 2) (by linarith)] at k2
    have k3 : |1 - A.fl (w * w)| ≤ 1.01 := by
      norm_num
      nlinarith
    have k4 : u * |1 - A.fl (w * w)| ≤ u * 1.01 := mul_le_mul_of_nonneg_left k3 h0
    norm_num at k4 ⊢
    linarith
  set S := A.fl (1 - A.fl (w * w))
  obtain ⟨t2a, t2b⟩ := abs_le.mp t2
  norm_num at t2a t2b
  have hS : 0 < S := by linarith
  have hq0 := Real.sqrt_nonneg S
  have hq2 := Real.sq_sqrt hS.le
  have t3 : |Real.sqrt S - s0| ≤ 450 * u := by
    have k : |Real.sqrt S - s0| * (Real.sqrt S + s0) = |S - (1 - w ^ 2)| := by
      rw [← abs_of_nonneg (a := Real.sqrt S + s0) (by linarith), ← abs_mul]
      congr 1
      nlinarith
    have k2 : |Real.sqrt S - s0| * 0.00447 ≤ |Real.sqrt S - s0| * (Real.sqrt S + s0) :=
      mul_le_mul_of_nonneg_left (by norm_num; linarith) (abs_nonneg _)
    norm_num at k2 t2
    linarith
  have hq1 : Real.sqrt S ≤ 1.01 := by
    have := (abs_le.mp t3).2
    norm_num
    linarith
  have r3 := h.rounds (Real.sqrt S)
  rw [abs_of_nonneg hq0] at r3
  have t4 : |A.fl (Real.sqrt S) - s0| ≤ 500 * u := by
    have k := abs_sub_le (A.fl (Real.sqrt S)) (Real.sqrt S) s0
    have k2 : u * Real.sqrt S ≤ u * 1.01 := mul_le_mul_of_nonneg_left hq1 h0
    norm_num at k2
    linarith
  refine ⟨hS.le, ?_, t4⟩
  have := (abs_le.mp t4).1
  linarith

/-- The exact value of one component, for exact and inexact quaternions. -/
theorem component_value {w W x X a s P η σ e : ℝ} (hw0 : 0 ≤ w) (hw1 : w ≤ 1 - 1e-5) (hW0 : -1 ≤ W) (hW1 : W ≤ 1) (h : |w - W| ≤ η)
    (hx : |x - X| ≤ η) (hX : X = Real.sqrt (1 - W ^ 2) * a) (ha : |a| ≤ 1) (hs : 0 < s) (hσ : |s - Real.sqrt (1 - w ^ 2)| ≤ σ)
    (hP : |P - Real.arccos w| ≤ e) (hxs : |x / s| ≤ 1.5) :
    |P * (x / s) - Real.arccos W * a| ≤ 1.5 * e + 2.4 * σ + 1440 * η := by
  have hη : 0 ≤ η := (abs_nonneg _).trans h
  have hσ0 : 0 ≤ σ := (abs_nonneg _).trans hσ
  obtain ⟨d1, d2, d3⟩ := arccos_away hw0 hw1 hW0 hW1 h
  have hsin := Real.sin_arccos w
  have hθ0 := Real.arccos_nonneg w
  have hθ1 : Real.arccos w ≤ Real.pi / 2 := Real.arccos_le_pi_div_two.mpr hw0
  have hj := Real.mul_le_sin hθ0 hθ1
  rw [hsin] at hj
  set s0 := Real.sqrt (1 - w ^ 2)
  set S0 := Real.sqrt (1 - W ^ 2)
  set θ := Real.arccos w
  set Θ := Real.arccos W
  norm_num at d3
  have hs0 : 0 < s0 := by linarith
  have hg : θ / s0 ≤ 1.58 := by
    rw [div_le_iff₀ hs0]
    have hpi := Real.pi_lt_d2
    have hpi0 := Real.pi_pos
    rw [div_mul_eq_mul_div, div_le_iff₀ hpi0] at hj
    have : s0 * Real.pi ≤ s0 * 3.15 := mul_le_mul_of_nonneg_left hpi.le hs0.le
    norm_num at this ⊢
    linarith
  have hg0 : 0 ≤ θ / s0 := by positivity
  have k : P * (x / s) - Θ * a = (P - θ) * (x / s) + θ / s0 * (x / s) * (s0 - s) + θ / s0 * (x - X) + a * ((θ - Θ) + θ / s0 * (S0 - s0)) := by
    rw [hX]
    field_simp
    ring
  rw [k]
  have k1 : |(P - θ) * (x / s)| ≤ e * 1.5 := by
    rw [abs_mul]
    exact mul_le_mul hP hxs (abs_nonneg _) ((abs_nonneg _).trans hP)
  have k2 : |θ / s0 * (x / s) * (s0 - s)| ≤ 1.58 * 1.5 * σ := by
    rw [abs_mul, abs_mul, abs_of_nonneg hg0, abs_sub_comm]
    exact mul_le_mul (mul_le_mul hg hxs (abs_nonneg _) (by norm_num)) hσ (abs_nonneg _) (by norm_num)
  have k3 : |θ / s0 * (x - X)| ≤ 1.58 * η := by
    rw [abs_mul, abs_of_nonneg hg0]
    exact mul_le_mul hg hx (abs_nonneg _) (by norm_num)
  have k4 : |a * ((θ - Θ) + θ / s0 * (S0 - s0))| ≤ 1 * (720 * η + 1.58 * (448 * η)) := by
    rw [abs_mul]
    refine mul_le_mul ha ((abs_add_le _ _).trans (add_le_add d1 ?_)) (abs_nonneg _) (by norm_num)
    rw [abs_mul, abs_of_nonneg hg0, abs_sub_comm]
    exact mul_le_mul hg d2 (abs_nonneg _) (by norm_num)
  refine (abs_add_le _ _).trans ((add_le_add ((abs_add_le _ _).trans (add_le_add ((abs_add_le _ _).trans (add_le_add k1 k2)) k3)) k4).trans ?_)
  norm_num
  linarith

/-- A small angle. -/
theorem arccos_small {W : ℝ} (h : 1 - 1.9e-5 ≤ W) (h1 : W ≤ 1) : Real.arccos W ≤ 0.01 := by
  norm_num at h
  have hcos := Real.cos_arccos (x := W) (by linarith) h1
  have h0 := Real.arccos_nonneg W
  have hpi1 := Real.arccos_le_pi W
  set φ := Real.arccos W
  have e1 := Real.mul_le_sin (x := φ / 2) (by linarith) (by linarith)
  have e2 : Real.cos φ = 1 - 2 * Real.sin (φ / 2) ^ 2 := by
    have := Real.cos_two_mul (φ / 2)
    have h3 := Real.sin_sq_add_cos_sq (φ / 2)
    have h4 : 2 * (φ / 2) = φ := by ring
    rw [h4] at this
    linarith
  have hpi := Real.pi_lt_d2
  have hpi0 := Real.pi_pos
  have k : 2 / Real.pi * (φ / 2) = φ / Real.pi := by
    field_simp
  rw [k, div_le_iff₀ hpi0] at e1
  have hsn : Real.sin (φ / 2) ≤ 0.0031 := by
    refine (abs_le_of_sq_le_sq' ?_ (by norm_num)).2
    norm_num
    linarith
  have e3 : Real.sin (φ / 2) * Real.pi ≤ 0.0031 * 3.15 := mul_le_mul hsn hpi.le hpi0.le (by norm_num)
  norm_num at e3 ⊢
  linarith

/-- The relative orientation of two quaternions, up to rounding and their lengths. -/
theorem relative_rounded {u : ℝ} {A : Arith} (h : Spec.Machine u A) {δ : ℝ} (hδ : 10 * u ≤ δ) (hδ1 : δ ≤ 2e-6) {q1 q2 : Quat}
    (h1 : |Spec.len q1 - 1| ≤ δ) (h2 : |Spec.len q2 - 1| ≤ δ) :
    ∃ i, A.inverse q2 = .ok i ∧ 0 < ‖q1.toH * (q2.toH)⁻¹‖ ∧
      ‖(A.mul q1 i).toH - ‖q1.toH * (q2.toH)⁻¹‖⁻¹ • (q1.toH * (q2.toH)⁻¹)‖ ≤ 4 * δ := by
  have h0 := h.nonneg
  rw [len_eq] at h1 h2
  norm_num at hδ1
  obtain ⟨a1, b1⟩ := abs_le.mp h1
  obtain ⟨a2, b2⟩ := abs_le.mp h2
  have p1 : 0 < ‖q1.toH‖ := by linarith
  have p2 : 0 < ‖q2.toH‖ := by linarith
  obtain ⟨i, hi, hi1⟩ := Arith.inverse_near h (norm_pos_iff.mp p2)
  have hinv : ‖q2.toH‖⁻¹ ≤ 1.001 := by
    rw [inv_eq_one_div, div_le_iff₀ p2]
    norm_num
    linarith
  have hi2 : ‖i.toH - (q2.toH)⁻¹‖ ≤ 7.01 * u := by
    have : 7 * u * ‖q2.toH‖⁻¹ ≤ 7 * u * 1.001 := mul_le_mul_of_nonneg_left hinv (by linarith)
    norm_num at this ⊢
    linarith
  have hin : ‖i.toH‖ ≤ 1.01 := by
    have := norm_le_norm_add_norm_sub' i.toH (q2.toH)⁻¹
    rw [norm_inv] at this
    norm_num at hinv hi2 ⊢
    linarith
  have hx : ‖q1.toH * (q2.toH)⁻¹‖ = ‖q1.toH‖ * ‖q2.toH‖⁻¹ := by
    rw [norm_mul, norm_inv]
  have hxp : 0 < ‖q1.toH * (q2.toH)⁻¹‖ := by
    rw [hx]
    positivity
  refine ⟨i, hi, hxp, ?_⟩
  have m1 : ‖(A.mul q1 i).toH - q1.toH * i.toH‖ ≤ 1.05 * δ := by
    refine (Arith.mul_near h q1 i).trans ?_
    have k1 : ‖q1.toH‖ * ‖i.toH‖ ≤ 1.001 * 1.01 := mul_le_mul (by norm_num; linarith) hin (norm_nonneg _) (by norm_num)
    have k2 : 10 * u * (‖q1.toH‖ * ‖i.toH‖) ≤ 10 * u * (1.001 * 1.01) := mul_le_mul_of_nonneg_left k1 (by linarith)
    norm_num at k2 ⊢
    linarith
  have m2 : ‖q1.toH * i.toH - q1.toH * (q2.toH)⁻¹‖ ≤ 0.75 * δ := by
    rw [← mul_sub, norm_mul]
    have k1 : ‖q1.toH‖ * ‖i.toH - (q2.toH)⁻¹‖ ≤ 1.001 * (7.01 * u) := mul_le_mul (by norm_num; linarith) hi2 (norm_nonneg _) (by norm_num)
    norm_num at k1 ⊢
    linarith
  have m3 : ‖q1.toH * (q2.toH)⁻¹ - ‖q1.toH * (q2.toH)⁻¹‖⁻¹ • (q1.toH * (q2.toH)⁻¹)‖ ≤ 2.01 * δ := by
    rw [(Arith.near_unit hxp).2, hx]
    have k : ‖q1.toH‖ * ‖q2.toH‖⁻¹ - 1 = (‖q1.toH‖ - ‖q2.toH‖) * ‖q2.toH‖⁻¹ := by
      field_simp
    rw [k, abs_mul, abs_of_pos (a := ‖q2.toH‖⁻¹) (by positivity)]
    have k1 : |‖q1.toH‖ - ‖q2.toH‖| ≤ 2 * δ := by
      rw [abs_le]
      constructor <;> linarith
    have k2 : |‖q1.toH‖ - ‖q2.toH‖| * ‖q2.toH‖⁻¹ ≤ 2 * δ * 1.001 := mul_le_mul k1 hinv (by positivity) (by linarith)
    norm_num at k2 ⊢
    linarith
  have m4 := norm_sub_le_norm_sub_add_norm_sub (A.mul q1 i).toH (q1.toH * i.toH) (q1.toH * (q2.toH)⁻¹)
  have m5 := norm_sub_le_norm_sub_add_norm_sub (A.mul q1 i).toH (q1.toH * (q2.toH)⁻¹) (‖q1.toH * (q2.toH)⁻¹‖⁻¹ • (q1.toH * (q2.toH)⁻¹))
  generalize ‖q1.toH * (q2.toH)⁻¹ - ‖q1.toH * (q2.toH)⁻¹‖⁻¹ • (q1.toH * (q2.toH)⁻¹)‖ = Z at *
  norm_num at m1 m2 m3
  linarith

/-- One component, if the rotation is not almost zero. -/
theorem velocity_rounded {u : ℝ} {A : Arith} (h : Spec.Machine u A) (hu : u ≤ 2e-7) {e δ : ℝ} (hδ : 10 * u ≤ δ) {w W s t c C b : ℝ} (he : e ≤ 1 / 100)
    (hP : |A.acos w - Real.arccos w| ≤ e) (ht : t ≠ 0) (hw0 : 0 ≤ w) (hw1 : w ≤ 1 - 1e-5) (hW0 : -1 ≤ W) (hW1 : W ≤ 1) (cw : |w - W| ≤ 4 * δ)
    (hcC : |c - C| ≤ 4 * δ) (hC : C = Real.sin (Real.arccos W) * b) (hb : |b| ≤ 1) (s2 : 0 < s) (s3 : |s - Real.sqrt (1 - w ^ 2)| ≤ 500 * u)
    (hcc : c ^ 2 ≤ (1 + 8e-6) ^ 2 - w ^ 2) :
    |t * A.fl (A.fl (A.fl (0.5 / t) * A.fl (2 * A.acos w)) * A.fl (c / s)) - Real.arccos W * b| ≤ 6000 * δ + 2 * e := by
  have h0 := h.nonneg
  obtain ⟨_, _, hs0⟩ := arccos_away (W := w) (η := 0) hw0 hw1 (by linarith) (by norm_num at hw1; linarith) (by simp)
  have hPb : |A.acos w| ≤ 1.6 := by
    have k1 : Real.arccos w ≤ Real.pi / 2 := Real.arccos_le_pi_div_two.mpr hw0
    have k2 := Real.arccos_nonneg w
    have hpi := Real.pi_lt_d2
    obtain ⟨k3, k4⟩ := abs_le.mp hP
    rw [abs_le]
    norm_num at hpi ⊢
    constructor <;> linarith
  have hsq0 := Real.sq_sqrt (show 0 ≤ 1 - w ^ 2 by norm_num at hw1; nlinarith)
  have hcs : |c / s| ≤ 1.5 := by
    have k0 : Real.sqrt (1 - w ^ 2) * 0.97 ≤ s := by
      have := (abs_le.mp s3).1
      norm_num at hs0 hu ⊢
      linarith
    have k1 : c ^ 2 ≤ (1.5 * s) ^ 2 := by
      have k2 : (Real.sqrt (1 - w ^ 2) * 0.97) ^ 2 ≤ s ^ 2 := pow_le_pow_left₀ (by positivity) k0 2
      have k3 : (0.00447 : ℝ) ^ 2 ≤ Real.sqrt (1 - w ^ 2) ^ 2 := pow_le_pow_left₀ (by norm_num) hs0 2
      rw [mul_pow, hsq0] at k2
      rw [hsq0] at k3
      norm_num at hcc k2 k3 ⊢
      linarith
    have k4 : |c| ≤ 1.5 * s := abs_le_of_sq_le_sq k1 (by positivity)
    rw [abs_div, abs_of_pos s2, div_le_iff₀ s2]
    exact k4
  rw [Real.sin_arccos] at hC
  have v1 := velocity_component h hu (P := A.acos w) (x := c) (s := s) ht
  have v2 := component_value hw0 hw1 hW0 hW1 cw hcC hC hb s2 s3 hP hcs
  have v3 := abs_sub_le (t * A.fl (A.fl (A.fl (0.5 / t) * A.fl (2 * A.acos w)) * A.fl (c / s))) (A.acos w * (c / s)) (Real.arccos W * b)
  have v4 : |A.acos w * (c / s)| ≤ 1.6 * 1.5 := by
    rw [abs_mul]
    exact mul_le_mul hPb hcs (abs_nonneg _) (by norm_num)
  have v5 : 6 * u * |A.acos w * (c / s)| ≤ 6 * u * (1.6 * 1.5) := mul_le_mul_of_nonneg_left v4 (by linarith)
  have he0 : 0 ≤ e := (abs_nonneg _).trans hP
  generalize |A.acos w * (c / s)| = Z at *
  refine v3.trans ((add_le_add (v1.trans v5) v2).trans ?_)
  norm_num
  linarith

/-- **C110**, the value of angular velocities: times `t`, the result is half of the rotation vector of the relative orientation of the quaternions, up to `6000 δ + 2 e` in every
component (for `float64` and normalised quaternions about `1e-11`); or it is zero, if the relative rotation is less than `0.02`. -/
theorem C110_velocity_value {u : ℝ} {A : Arith} (h : Spec.Machine u A) (e : ℝ) (he : e ≤ 1 / 100)
    (hacos : ∀ x : ℝ, -1 ≤ x → x ≤ 1 → |A.acos x - Real.arccos x| ≤ e) (δ : ℝ) (hδ : 10 * u ≤ δ) (hδ1 : δ ≤ 2e-6) (q1 q2 : Quat)
    (h1 : |Spec.len q1 - 1| ≤ δ) (h2 : |Spec.len q2 - 1| ≤ δ) (t : ℝ) (ht : t ≠ 0) :
    ∃ v D, A.angularVelocity q1 q2 t = .ok v ∧
      (D.toH = ‖q1.toH * (q2.toH)⁻¹‖⁻¹ • (q1.toH * (q2.toH)⁻¹) ∨ D.toH = -(‖q1.toH * (q2.toH)⁻¹‖⁻¹ • (q1.toH * (q2.toH)⁻¹))) ∧ -(4 * δ) ≤ D.w ∧
      (v = ⟨0, 0, 0⟩ ∧ Spec.HalfRotation 0.01 D ⟨0, 0, 0⟩ ∨ Spec.HalfRotation (6000 * δ + 2 * e) D ⟨t * v.x, t * v.y, t * v.z⟩) := by
  have h0 := h.nonneg
  obtain ⟨i, hi, hxp, hnear⟩ := relative_rounded h hδ hδ1 h1 h2
  norm_num at hδ1
  set N := ‖q1.toH * (q2.toH)⁻¹‖⁻¹ • (q1.toH * (q2.toH)⁻¹) with hN
  have hN1 : ‖N‖ = 1 := (Arith.near_unit hxp).1
  have hdD : ∃ d D : Quat, (if (A.mul q1 i).w < 0 then -A.mul q1 i else A.mul q1 i) = d ∧ (D.toH = N ∨ D.toH = -N) ∧ ‖D.toH‖ = 1 ∧
      ‖d.toH - D.toH‖ ≤ 4 * δ ∧ 0 ≤ d.w := by
    split
    · rename_i hneg
      refine ⟨_, ⟨(-N).imI, (-N).imJ, (-N).imK, (-N).re⟩, rfl, Or.inr rfl, ?_, ?_, ?_⟩
      · show ‖-N‖ = 1
        rw [norm_neg, hN1]
      · show ‖(-A.mul q1 i).toH - -N‖ ≤ _
        rw [Quat.toH_neg, ← neg_sub', norm_neg]
        exact hnear
      · show 0 ≤ -(A.mul q1 i).w
        linarith
    · rename_i hpos
      exact ⟨_, ⟨N.imI, N.imJ, N.imK, N.re⟩, rfl, Or.inl rfl, hN1, hnear, not_lt.mp hpos⟩
  obtain ⟨d, D, hd1, hd2, hd3, hd4, hd5⟩ := hdD
  obtain ⟨a, ha1, ha2⟩ := unit_polar hd3
  have hcomp := Arith.abs_component (d - D)
  rw [Quat.toH_sub] at hcomp
  obtain ⟨cx, cy, cz, cw⟩ := hcomp
  have cx : |d.x - D.x| ≤ 4 * δ := cx.trans hd4
  have cy : |d.y - D.y| ≤ 4 * δ := cy.trans hd4
  have cz : |d.z - D.z| ≤ 4 * δ := cz.trans hd4
  have cw : |d.w - D.w| ≤ 4 * δ := cw.trans hd4
  obtain ⟨cw1, cw2⟩ := abs_le.mp cw
  have hDw := (Arith.abs_component D).2.2.2
  rw [hd3] at hDw
  obtain ⟨hDw1, hDw2⟩ := abs_le.mp hDw
  have hsinD := Real.sin_arccos D.w
  have hax : |a.x| ≤ 1 ∧ |a.y| ≤ 1 ∧ |a.z| ≤ 1 := by
    refine ⟨?_, ?_, ?_⟩ <;> apply abs_le_of_sq_le_sq _ (by norm_num) <;> nlinarith [sq_nonneg a.x, sq_nonneg a.y, sq_nonneg a.z]
  obtain ⟨ax, ay, az⟩ := hax
  have hφ0 := Real.arccos_nonneg D.w
  have hφ1 := Real.arccos_le_pi D.w
  unfold Arith.angularVelocity Arith.angleAxis
  rw [hi, Py.ok_bind]
  dsimp only
  rw [hd1]
  by_cases hc : npIsclose d.w 1 1e-12
  · rw [if_pos hc, Py.ok_bind, if_neg ht]
    have hz : A.fl 0 = 0 := by
      have := h.rounds 0
      rw [abs_zero, mul_zero, sub_zero] at this
      exact abs_nonpos_iff.mp this
    have hv : ∀ c : ℝ, A.fl (A.fl (A.fl (0.5 / t) * 0) * c) = 0 := by
      intro c
      rw [mul_zero, hz, zero_mul, hz]
    refine ⟨_, D, rfl, hd2, by linarith, Or.inl ⟨?_, ?_⟩⟩
    · show (⟨A.fl (A.fl (A.fl (0.5 / t) * 0) * 1), A.fl (A.fl (A.fl (0.5 / t) * 0) * 0), A.fl (A.fl (A.fl (0.5 / t) * 0) * 0)⟩ : Vec3) = _
      rw [hv, hv]
    · unfold npIsclose at hc
      rw [abs_one, abs_le] at hc
      have hc1 := hc.1
      have hφ := arccos_small (W := D.w) (by norm_num at hc1 ⊢; linarith) hDw2
      have key : ∀ c : ℝ, |c| ≤ 1 → |0 - Real.arccos D.w * c| ≤ 0.01 := by
        intro c hcc
        rw [zero_sub, abs_neg, abs_mul, abs_of_nonneg hφ0]
        have := mul_le_mul hφ hcc (abs_nonneg _) (by norm_num)
        linarith
      exact ⟨_, a, hφ0, hφ1, ha1, ha2, key _ ax, key _ ay, key _ az⟩
  · rw [if_neg hc]
    have hd2' : ‖d.toH‖ ≤ 1 + 8e-6 := by
      have := norm_le_norm_add_norm_sub' d.toH D.toH
      rw [hd3] at this
      norm_num
      linarith
    have hwd : d.w ≤ ‖d.toH‖ := (le_abs_self _).trans (Arith.abs_component d).2.2.2
    have hw1 : d.w ≤ 1 - 1e-5 := by
      by_contra hcon
      push Not at hcon
      apply hc
      unfold npIsclose
      rw [abs_one, abs_le]
      norm_num at hcon hd2' ⊢
      constructor <;> linarith
    have hu : u ≤ 2e-7 := by
      norm_num
      linarith
    obtain ⟨s1, s2, s3⟩ := axis_divisor h hu hd5 hw1
    have hwle : d.w ≤ 1 := by
      norm_num at hw1
      linarith
    rw [if_neg (by push Not; exact ⟨by linarith, hwle⟩), if_neg (by push Not; exact ⟨s1, s2.ne'⟩), Py.ok_bind, if_neg ht]
    set s := A.fl (Real.sqrt (A.fl (1 - A.fl (d.w * d.w)))) with hs
    have hP := hacos d.w (by linarith) hwle
    obtain ⟨bx, bY, bz⟩ := component_bound hd2'
    have vx := velocity_rounded h hu hδ he hP ht hd5 hw1 hDw1 hDw2 cw cx (congrArg Quat.x ha2) ax s2 s3 bx
    have vy := velocity_rounded h hu hδ he hP ht hd5 hw1 hDw1 hDw2 cw cy (congrArg Quat.y ha2) ay s2 s3 bY
    have vz := velocity_rounded h hu hδ he hP ht hd5 hw1 hDw1 hDw2 cw cz (congrArg Quat.z ha2) az s2 s3 bz
    exact ⟨_, D, rfl, hd2, by linarith, Or.inr ⟨_, a, hφ0, hφ1, ha1, ha2, vx, vy, vz⟩⟩

example : ∃ v D, (doubleArith Real.arccos).angularVelocity ⟨0, 0, 0, 1⟩ ⟨0, 0, 0.6, 0.8⟩ 0.1 = .ok v ∧
    (v = ⟨0, 0, 0⟩ ∧ Spec.HalfRotation 0.01 D ⟨0, 0, 0⟩ ∨ Spec.HalfRotation (6000 * (10 * (2⁻¹ : ℝ) ^ 53) + 2 * 0) D ⟨0.1 * v.x, 0.1 * v.y, 0.1 * v.z⟩) := by
  have l : ∀ a b : ℝ, a ^ 2 + b ^ 2 = 1 → |Spec.len ⟨0, 0, a, b⟩ - 1| ≤ 10 * (2⁻¹ : ℝ) ^ 53 := by
    intro a b hab
    have : Spec.len ⟨0, 0, a, b⟩ = 1 := by
      unfold Spec.len
      simp [hab]
    rw [this, sub_self, abs_zero]
    positivity
  obtain ⟨v, D, e1, _, _, e2⟩ := C110_velocity_value (machine_double Real.arccos) 0 (by norm_num) (fun x _ _ => by simp [doubleArith]) (10 * 2⁻¹ ^ 53) le_rfl
    (by norm_num) ⟨0, 0, 0, 1⟩ ⟨0, 0, 0.6, 0.8⟩ (l _ _ (by norm_num)) (l _ _ (by norm_num)) 0.1 (by norm_num)
  exact ⟨v, D, e1, e2⟩

end HandEye
