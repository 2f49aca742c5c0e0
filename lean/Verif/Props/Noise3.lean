import Verif.Props.Noise2
import Mathlib.Topology.Order.IntermediateValue

/-! # Property C85, continued: the solver takes the right root of its quadratic -/

open Quaternion Matrix

namespace HandEye

/-- The root with the longer rotation part is not close to the degenerate direction. -/
theorem longer_root {u v : ℍ[ℝ]} {s t γ κ m : ℝ} (h6 : κ ≤ ‖u‖) (hu : ‖u‖ ≤ 1) (hv : ‖v‖ ≤ 1) (hγ0 : 0 ≤ γ)
    (hm : 1 ≤ m) (hκ : 28 * γ * m ≤ κ) (hbest : ‖t • u + v‖ ≤ ‖s • u + v‖) (ht : 1 ≤ 2 * m * ‖t • u + v‖) :
    4 * γ * Real.sqrt (s ^ 2 + 1) ≤ ‖s • u + v‖ := by
  by_contra hc
  push Not at hc
  have hsq : Real.sqrt (s ^ 2 + 1) ≤ |s| + 1 := by
    apply Real.sqrt_le_iff.mpr ⟨by positivity, ?_⟩
    nlinarith [sq_abs s, abs_nonneg s]
  have h1 : ‖s • u + v‖ < 4 * γ * (|s| + 1) := hc.trans_le (mul_le_mul_of_nonneg_left hsq (by linarith))
  have h2 : |s| * κ ≤ ‖s • u + v‖ + 1 := by
    have e1 : ‖s • u‖ ≤ ‖s • u + v‖ + ‖v‖ := by
      have := norm_sub_le (s • u + v) v
      rwa [add_sub_cancel_right] at this
    rw [norm_smul, Real.norm_eq_abs] at e1
    have := mul_le_mul_of_nonneg_left h6 (abs_nonneg s)
    linarith
  have hγp : 0 < γ := by
    rcases hγ0.eq_or_lt with h | h
    · rw [← h] at h1
      have := norm_nonneg (s • u + v)
      linarith
    · exact h
  have hγm : γ ≤ γ * m := le_mul_of_one_le_right hγ0 hm
  have hd : 24 * γ * m ≤ κ - 4 * γ := by linarith
  have hd0 : 0 < κ - 4 * γ := by nlinarith
  have h3 : |s| * (κ - 4 * γ) < 2 := by nlinarith
  have h4 : 1 < 2 * m * (4 * γ * (|s| + 1)) := by
    have : ‖t • u + v‖ < 4 * γ * (|s| + 1) := hbest.trans_lt h1
    have := mul_lt_mul_of_pos_left this (by linarith : 0 < 2 * m)
    linarith
  have h5 := mul_lt_mul_of_pos_right h4 hd0
  have h6' : 2 * m * (4 * γ * (|s| + 1)) * (κ - 4 * γ) = 8 * (γ * m) * (|s| * (κ - 4 * γ) + (κ - 4 * γ)) := by ring
  have h7 : 8 * (γ * m) * (|s| * (κ - 4 * γ) + (κ - 4 * γ)) ≤ 8 * (γ * m) * 3 := by
    apply mul_le_mul_of_nonneg_left _ (by nlinarith)
    linarith
  nlinarith

/-- The rotation half of an eight-vector is not longer than the vector. -/
theorem norm_rot_splitRow (v : Fin 8 → ℝ) : ‖(splitRow v).rot.toH‖ ^ 2 + ‖(splitRow v).dual.toH‖ ^ 2 = Spec.sumSq v := by
  rw [norm_sq_toH, norm_sq_toH, Spec.sumSq, Fin.sum_univ_eight]
  simp [splitRow]
  ring

/-- A root from a vector close to the plane, with coefficients that are its projection. -/
theorem projected_root {V : Matrix (Fin 8) (Fin 8) ℝ} (hV : V * V.transpose = 1) {y : Fin 8 → ℝ} {D γ : ℝ} (hγ0 : 0 ≤ γ)
    (hγ : γ * (2 + D ^ 2) ≤ 1 / 2) (hpε : Spec.sumSq y - (V *ᵥ y) 6 ^ 2 - (V *ᵥ y) 7 ^ 2 ≤ γ ^ 2 * Spec.sumSq y)
    (hM : Spec.sumSq y ≤ 2 + D ^ 2) (hpos : 0 < Spec.sumSq y) (hyr : ‖(splitRow y).rot.toH‖ = 1)
    (hroot : ∑ i : Fin 4, ((V *ᵥ y) 6 * V 6 (Fin.castAdd 4 i) + (V *ᵥ y) 7 * V 7 (Fin.castAdd 4 i)) *
      ((V *ᵥ y) 6 * V 6 (Fin.natAdd 4 i) + (V *ᵥ y) 7 * V 7 (Fin.natAdd 4 i)) = 0)
    (ha : ∑ i : Fin 4, V 6 (Fin.castAdd 4 i) * V 6 (Fin.natAdd 4 i) ≠ 0) :
    ∃ t : ℝ, ∑ i : Fin 4, (t * V 6 (Fin.castAdd 4 i) + V 7 (Fin.castAdd 4 i)) * (t * V 6 (Fin.natAdd 4 i) + V 7 (Fin.natAdd 4 i)) = 0 ∧
      1 ≤ 2 * Real.sqrt (2 + D ^ 2) * ‖t • (splitRow (V 6)).rot.toH + (splitRow (V 7)).rot.toH‖ := by
  have h66 : V 6 ⬝ᵥ V 6 = 1 := by have := congrFun (congrFun hV 6) 6; simpa [mul_apply, dotProduct] using this
  have h77 : V 7 ⬝ᵥ V 7 = 1 := by have := congrFun (congrFun hV 7) 7; simpa [mul_apply, dotProduct] using this
  have h67 : V 6 ⬝ᵥ V 7 = 0 := by have := congrFun (congrFun hV 6) 7; simpa [mul_apply, dotProduct] using this
  have h6y : V 6 ⬝ᵥ y = (V *ᵥ y) 6 := rfl
  have h7y : V 7 ⬝ᵥ y = (V *ᵥ y) 7 := rfl
  generalize (V *ᵥ y) 6 = a at *
  generalize (V *ᵥ y) 7 = b at *
  have hb : b ≠ 0 := by
    intro hb
    rw [hb] at hroot
    simp only [zero_mul, add_zero] at hroot
    have e1 : a ^ 2 * ∑ i : Fin 4, V 6 (Fin.castAdd 4 i) * V 6 (Fin.natAdd 4 i) = 0 := by
      rw [Finset.mul_sum, ← hroot]
      exact Finset.sum_congr rfl fun i _ => by ring
    have e2 := (mul_eq_zero.mp e1).resolve_right ha
    rw [hb, e2] at hpε
    have hγ4 : γ ≤ 1 / 4 := by nlinarith [sq_nonneg D]
    have : γ ^ 2 ≤ 1 / 16 := by nlinarith
    nlinarith
  obtain ⟨e, he⟩ : ∃ e : Fin 8 → ℝ, e = y - (a • V 6 + b • V 7) := ⟨_, rfl⟩
  have hes : Spec.sumSq e = Spec.sumSq y - a ^ 2 - b ^ 2 := by
    rw [sumSq_eq_dot, sumSq_eq_dot, he]
    simp only [sub_dotProduct, dotProduct_sub, add_dotProduct, dotProduct_add, smul_dotProduct, dotProduct_smul, h66, h77, h67,
      dotProduct_comm (V 7) (V 6), dotProduct_comm y (V 6), dotProduct_comm y (V 7), h6y, h7y, smul_eq_mul]
    ring
  have hb2 : b ^ 2 ≤ 2 + D ^ 2 := by
    have : 0 ≤ Spec.sumSq e := Finset.sum_nonneg fun i _ => sq_nonneg _
    linarith [sq_nonneg a]
  have her : ‖(splitRow e).rot.toH‖ ≤ 1 / 2 := by
    have h1 := norm_rot_splitRow e
    have h2 : Spec.sumSq e ≤ 1 / 8 := by
      have : γ ^ 2 * Spec.sumSq y ≤ γ ^ 2 * (2 + D ^ 2) := mul_le_mul_of_nonneg_left hM (sq_nonneg _)
      have hγ4 : γ ≤ 1 / 4 := by nlinarith [sq_nonneg D]
      have : γ ^ 2 * (2 + D ^ 2) ≤ 1 / 8 := by nlinarith
      linarith
    apply le_of_sq_le_sq _ (by norm_num)
    linarith [sq_nonneg ‖(splitRow e).dual.toH‖]
  have hpr : b • (((a / b) • (splitRow (V 6)).rot.toH + (splitRow (V 7)).rot.toH)) = (splitRow y).rot.toH - (splitRow e).rot.toH := by
    rw [smul_add, smul_smul, mul_div_cancel₀ _ hb, he]
    ext <;> simp [splitRow]
  refine ⟨a / b, ?_, ?_⟩
  · have e1 : b ^ 2 * ∑ i : Fin 4, (a / b * V 6 (Fin.castAdd 4 i) + V 7 (Fin.castAdd 4 i)) * (a / b * V 6 (Fin.natAdd 4 i) + V 7 (Fin.natAdd 4 i)) = 0 := by
      rw [Finset.mul_sum, ← hroot]
      refine Finset.sum_congr rfl fun i _ => ?_
      field_simp
    exact (mul_eq_zero.mp e1).resolve_left (pow_ne_zero _ hb)
  · have n1 : 1 / 2 ≤ |b| * ‖(a / b) • (splitRow (V 6)).rot.toH + (splitRow (V 7)).rot.toH‖ := by
      rw [← Real.norm_eq_abs, ← norm_smul, hpr]
      have := norm_sub_norm_le (splitRow y).rot.toH (splitRow e).rot.toH
      linarith
    have n2 : |b| ≤ Real.sqrt (2 + D ^ 2) := Real.abs_le_sqrt hb2
    have := mul_le_mul_of_nonneg_right n2 (norm_nonneg ((a / b) • (splitRow (V 6)).rot.toH + (splitRow (V 7)).rot.toH))
    linarith

/-- There is a root of the quadratic whose rotation part is not short. -/
theorem long_root {V : Matrix (Fin 8) (Fin 8) ℝ} (hV : V * V.transpose = 1) {X : DQuat} (hX : Spec.IsUnit X) {γ : ℝ} (hγ0 : 0 ≤ γ)
    (hγ : γ * (2 + ‖X.dual.toH‖ ^ 2) ≤ 1 / 2)
    (hp : ∀ ε : ℝ, Spec.sumSq (Spec.vec8 X + ε • Spec.vec8 ⟨⟨0, 0, 0, 0⟩, X.rot⟩) -
      (V *ᵥ (Spec.vec8 X + ε • Spec.vec8 ⟨⟨0, 0, 0, 0⟩, X.rot⟩)) 6 ^ 2 -
      (V *ᵥ (Spec.vec8 X + ε • Spec.vec8 ⟨⟨0, 0, 0, 0⟩, X.rot⟩)) 7 ^ 2 ≤
        γ ^ 2 * Spec.sumSq (Spec.vec8 X + ε • Spec.vec8 ⟨⟨0, 0, 0, 0⟩, X.rot⟩))
    (ha : ∑ i : Fin 4, V 6 (Fin.castAdd 4 i) * V 6 (Fin.natAdd 4 i) ≠ 0) :
    ∃ t : ℝ, ∑ i : Fin 4, (t * V 6 (Fin.castAdd 4 i) + V 7 (Fin.castAdd 4 i)) * (t * V 6 (Fin.natAdd 4 i) + V 7 (Fin.natAdd 4 i)) = 0 ∧
      1 ≤ 2 * Real.sqrt (2 + ‖X.dual.toH‖ ^ 2) * ‖t • (splitRow (V 6)).rot.toH + (splitRow (V 7)).rot.toH‖ := by
  obtain ⟨hXr, hXd⟩ := isUnit_norm hX
  have hx2 := norm_sq_toH X.rot
  rw [hXr] at hx2
  have hd2 := norm_sq_toH X.dual
  simp at hXd
  obtain ⟨y, hy⟩ : ∃ y : ℝ → Fin 8 → ℝ, ∀ ε, y ε = Spec.vec8 X + ε • Spec.vec8 ⟨⟨0, 0, 0, 0⟩, X.rot⟩ := ⟨_, fun _ => rfl⟩
  simp only [← hy] at hp
  have hyN : ∀ ε, Spec.sumSq (y ε) = 1 + ε ^ 2 + ‖X.dual.toH‖ ^ 2 := by
    intro ε
    rw [Spec.sumSq, Fin.sum_univ_eight, hy, hd2]
    simp [Spec.vec8]
    linear_combination (-1 - ε ^ 2) * hx2 + 2 * ε * hXd
  have hqy : ∀ ε, ∑ i : Fin 4, y ε (Fin.castAdd 4 i) * y ε (Fin.natAdd 4 i) = ε := by
    intro ε
    rw [Fin.sum_univ_four, hy]
    simp [Spec.vec8]
    linear_combination -ε * hx2 + hXd
  have hsign : ∀ ε : ℝ, ε ^ 2 = 1 → 0 < ε * ∑ i : Fin 4, ((V *ᵥ y ε) 6 * V 6 (Fin.castAdd 4 i) + (V *ᵥ y ε) 7 * V 7 (Fin.castAdd 4 i)) *
      ((V *ᵥ y ε) 6 * V 6 (Fin.natAdd 4 i) + (V *ᵥ y ε) 7 * V 7 (Fin.natAdd 4 i)) := by
    intro ε hε
    have e1 : Spec.sumSq (y ε) = 2 + ‖X.dual.toH‖ ^ 2 := by rw [hyN, hε]; ring
    have hp' := hp ε
    rw [e1] at hp'
    exact projected_sign hV hε e1 (hqy ε) hp' hγ0 hγ
  have hcont : Continuous fun ε => ∑ i : Fin 4, ((V *ᵥ y ε) 6 * V 6 (Fin.castAdd 4 i) + (V *ᵥ y ε) 7 * V 7 (Fin.castAdd 4 i)) *
      ((V *ᵥ y ε) 6 * V 6 (Fin.natAdd 4 i) + (V *ᵥ y ε) 7 * V 7 (Fin.natAdd 4 i)) := by
    have hl : ∀ j ε, (V *ᵥ y ε) j = (V *ᵥ Spec.vec8 X) j + ε * (V *ᵥ Spec.vec8 ⟨⟨0, 0, 0, 0⟩, X.rot⟩) j := by
      intro j ε
      rw [hy, mulVec_add, mulVec_smul]; rfl
    simp only [hl]
    fun_prop
  obtain ⟨ε, ⟨hε1, hε2⟩, hroot⟩ := intermediate_value_Icc (by norm_num : (-1 : ℝ) ≤ 1) hcont.continuousOn
    (show (0 : ℝ) ∈ Set.Icc _ _ from ⟨by have := hsign (-1) (by norm_num); linarith, by have := hsign 1 (by norm_num); linarith⟩)
  simp only at hroot
  have hε : ε ^ 2 ≤ 1 := by nlinarith
  have hpε := hp ε
  have hNε := hyN ε
  have hyr : ‖(splitRow (y ε)).rot.toH‖ = 1 := by
    have : ‖(splitRow (y ε)).rot.toH‖ ^ 2 = 1 := by
      rw [norm_sq_toH, hy]
      simp [splitRow, Spec.vec8]
      linarith
    nlinarith [norm_nonneg (splitRow (y ε)).rot.toH]
  have hM : Spec.sumSq (y ε) ≤ 2 + ‖X.dual.toH‖ ^ 2 := by rw [hNε]; linarith
  have hpos : 0 < Spec.sumSq (y ε) := by rw [hNε]; positivity
  exact projected_root hV hγ0 hγ hpε hM hpos hyr hroot ha

/-- **C85**, the right root: if moreover the rotation half of the seventh right-singular vector is not short compared with
`γ √(2 + |t₀|² / 4)`, the solver takes the right one of its two roots, and every point is moved to near where the true calibration
moves it.  Partial for the same reason. -/
theorem C85_right_root_partial (svd : Svd) (hsvd : ∀ T s V, svd T = .ok (s, V) → Spec.IsSVD T s V) (η : ℝ) (h0 : 0 ≤ η)
    (X : DQuat) (hX : Spec.IsUnit X) (enf : Bool) (bs ws bs₀ ws₀ : List DQuat)
    (he : Spec.Exact bs₀ ws₀ X) (hm : Spec.Measured enf η bs₀ ws₀ bs ws) (tol : ℝ) (r : Calibration)
    (h : computeHandEyeCalibration svd bs ws tol enf = .ok r) (σ : ℝ) (hσ : 0 < σ)
    (hs : r.singular_values[5]? = some σ) (γ : ℝ) (hγ : γ = 4 * η * Real.sqrt bs.length / σ)
    (hγ2 : γ * (2 + Spec.translationLength X ^ 2 / 4) ≤ 1 / 2)
    (hκ : ∀ T V, setupTMatrix bs r.dq_W_E_vec = .ok T → svd T = .ok (r.singular_values, V) →
      (28 * γ) ^ 2 * (2 + Spec.translationLength X ^ 2 / 4) ≤ ∑ i : Fin 4, V 6 (Fin.castAdd 4 i) ^ 2) :
    Spec.IsUnit r.dq_H_E ∧ ∀ p : Vec3, Spec.dist (Spec.motion r.dq_H_E p) (Spec.motion X p) ≤
      γ * (2 + 5 / 4 * Spec.translationLength X) * (2 * Spec.dist p ⟨0, 0, 0⟩ + 8 + 8 * Spec.translationLength X) := by
  obtain ⟨hu, hor⟩ := C85_proportional_partial svd hsvd η h0 X hX enf bs ws bs₀ ws₀ he hm tol r h σ hσ hs γ hγ hγ2
  refine ⟨hu, hor.resolve_right (not_lt.mpr ?_)⟩
  obtain ⟨T, V, hT, hV, s, k, hk, hr, hbest⟩ := C29_best_combination svd bs ws tol enf r h
  have hIs := hsvd _ _ _ hV
  have ha : ∑ i : Fin 4, V 6 (Fin.castAdd 4 i) * V 6 (Fin.natAdd 4 i) ≠ 0 := by
    obtain ⟨T', V', _, _, _, _, hT', hV', _, hsol⟩ := compute_eq_ok h
    rw [hT] at hT'
    injection hT' with hT'
    subst hT'
    rw [hV] at hV'
    injection hV' with hV'
    have hV'' := (Prod.mk.inj hV').2
    subst hV''
    have := (solveKernel_eq_ok.mp hsol).1
    rw [Fin.sum_univ_four]
    exact this
  have hN : 2 + Spec.translationLength X ^ 2 / 4 = 2 + ‖X.dual.toH‖ ^ 2 := by rw [translationLength_eq]; ring
  have hκ' := hκ T V hT hV
  rw [hN] at hγ2 hκ'
  have hγ0 : 0 ≤ γ := by rw [hγ]; positivity
  obtain ⟨t, ht0, ht⟩ := long_root hIs.orthogonal hX hγ0 hγ2 (fun ε => by
    have := measured_off_plane hsvd h0 hX he hm h hT hV hσ hs 1 ε _ rfl
    rw [one_smul, ← hγ] at this
    exact this) ha
  have hrot : ∀ x : ℝ, ‖x • (splitRow (V 6)).rot.toH + (splitRow (V 7)).rot.toH‖ ^ 2 =
      ∑ i : Fin 4, (x * V 6 (Fin.castAdd 4 i) + V 7 (Fin.castAdd 4 i)) ^ 2 := by
    intro x
    rw [show x • (splitRow (V 6)).rot.toH + (splitRow (V 7)).rot.toH = (x • (splitRow (V 6)).rot + (splitRow (V 7)).rot).toH by
      ext <;> simp [Quat.toH] <;> rfl, norm_sq_toH, Fin.sum_univ_four]
    rfl
  have hle : ‖t • (splitRow (V 6)).rot.toH + (splitRow (V 7)).rot.toH‖ ≤ ‖s • (splitRow (V 6)).rot.toH + (splitRow (V 7)).rot.toH‖ := by
    apply le_of_sq_le_sq _ (norm_nonneg _)
    rw [hrot, hrot]
    apply (hbest t).2
    rw [ht0, abs_zero]
    exact abs_nonneg _
  have h66 : V 6 ⬝ᵥ V 6 = 1 := by have := congrFun (congrFun hIs.orthogonal 6) 6; simpa [mul_apply, dotProduct] using this
  have h77 : V 7 ⬝ᵥ V 7 = 1 := by have := congrFun (congrFun hIs.orthogonal 7) 7; simpa [mul_apply, dotProduct] using this
  have h67 : V 6 ⬝ᵥ V 7 = 0 := by have := congrFun (congrFun hIs.orthogonal 6) 7; simpa [mul_apply, dotProduct] using this
  have n6 := norm_rot_splitRow (V 6)
  have n7 := norm_rot_splitRow (V 7)
  rw [sumSq_eq_dot, h66] at n6
  rw [sumSq_eq_dot, h77] at n7
  have hκ6 : 28 * γ * Real.sqrt (2 + ‖X.dual.toH‖ ^ 2) ≤ ‖(splitRow (V 6)).rot.toH‖ := by
    apply le_of_sq_le_sq _ (norm_nonneg _)
    rw [mul_pow, Real.sq_sqrt (by positivity), norm_sq_toH (splitRow (V 6)).rot]
    rw [Fin.sum_univ_four] at hκ'
    exact hκ'
  have hlong := longer_root hκ6 (by nlinarith [sq_nonneg ‖(splitRow (V 6)).dual.toH‖, norm_nonneg (splitRow (V 6)).rot.toH])
    (by nlinarith [sq_nonneg ‖(splitRow (V 7)).dual.toH‖, norm_nonneg (splitRow (V 7)).rot.toH]) hγ0
    (by apply Real.le_sqrt_of_sq_le; nlinarith [sq_nonneg ‖X.dual.toH‖]) le_rfl hle ht
  have hsq : (4 * γ) ^ 2 * (s ^ 2 + 1) ≤ ‖s • (splitRow (V 6)).rot.toH + (splitRow (V 7)).rot.toH‖ ^ 2 := by
    have := pow_le_pow_left₀ (by positivity) hlong 2
    rwa [mul_pow, Real.sq_sqrt (by positivity)] at this
  obtain ⟨hz, -⟩ := isUnit_norm hu
  have hsum : k ^ 2 * (s ^ 2 + 1) = 1 + ‖r.dq_H_E.dual.toH‖ ^ 2 := by
    have e1 : ‖r.dq_H_E.rot.toH‖ ^ 2 + ‖r.dq_H_E.dual.toH‖ ^ 2 = k ^ 2 * (s ^ 2 * (V 6 ⬝ᵥ V 6) + 2 * s * (V 6 ⬝ᵥ V 7) + V 7 ⬝ᵥ V 7) := by
      rw [norm_sq_toH, norm_sq_toH, hr]
      simp only [dotProduct, Fin.sum_univ_eight]
      ring
    rw [hz, h66, h67, h77] at e1
    linarith
  have hk2 : k ^ 2 * ‖s • (splitRow (V 6)).rot.toH + (splitRow (V 7)).rot.toH‖ ^ 2 = 1 := by
    have e1 := norm_sq_toH r.dq_H_E.rot
    rw [hz, hr] at e1
    rw [hrot, Fin.sum_univ_four]
    simp only at e1 ⊢
    have e2 : (1 : ℝ) ^ 2 = 1 := one_pow 2
    rw [e2] at e1
    rw [e1]
    simp
    ring
  rw [show (4 : ℝ) + Spec.translationLength r.dq_H_E ^ 2 = 4 * (1 + ‖r.dq_H_E.dual.toH‖ ^ 2) by rw [translationLength_eq]; ring, ← hsum]
  have := mul_le_mul_of_nonneg_left hsq (sq_nonneg k)
  rw [hk2] at this
  linarith

example : ∃ (svd : Svd) (r : Calibration) (γ : ℝ), computeHandEyeCalibration svd sampleB sampleW' 1e-2 true = .ok r ∧ 0 < γ ∧
    Spec.IsUnit r.dq_H_E ∧ ∀ p : Vec3, Spec.dist (Spec.motion r.dq_H_E p) (Spec.motion sampleX p) ≤
      γ * (2 + 5 / 4 * Spec.translationLength sampleX) * (2 * Spec.dist p ⟨0, 0, 0⟩ + 8 + 8 * Spec.translationLength sampleX) := by
  obtain ⟨svd, hsvd, r, h, σ, hσ, hs⟩ := sample_noisy_run
  obtain ⟨T, V, _, _, _, _, hT, hV, _, hsol⟩ := compute_eq_ok h
  have ha := (solveKernel_eq_ok.mp hsol).1
  have hpos : 0 < ∑ i : Fin 4, V 6 (Fin.castAdd 4 i) ^ 2 := by
    by_contra hc
    have h0 : ∑ i : Fin 4, V 6 (Fin.castAdd 4 i) ^ 2 = 0 := le_antisymm (not_lt.mp hc) (Finset.sum_nonneg fun i _ => sq_nonneg _)
    have hz := fun i => pow_eq_zero_iff (two_ne_zero) |>.mp ((Finset.sum_eq_zero_iff_of_nonneg fun i _ => sq_nonneg _).mp h0 i (Finset.mem_univ i))
    apply ha
    have z0 : V 6 0 = 0 := hz 0
    have z1 : V 6 1 = 0 := hz 1
    have z2 : V 6 2 = 0 := hz 2
    have z3 : V 6 3 = 0 := hz 3
    simp [Root.a, splitRow, Quat.dot, z0, z1, z2, z3]
  obtain ⟨c, hc⟩ : ∃ c, c = Real.sqrt (∑ i : Fin 4, V 6 (Fin.castAdd 4 i) ^ 2) := ⟨_, rfl⟩
  have hc0 : 0 < c := by rw [hc]; exact Real.sqrt_pos.mpr hpos
  have hc2 : c ^ 2 = ∑ i : Fin 4, V 6 (Fin.castAdd 4 i) ^ 2 := by rw [hc]; exact Real.sq_sqrt hpos.le
  obtain ⟨N, hN⟩ : ∃ N, N = 2 + Spec.translationLength sampleX ^ 2 / 4 := ⟨_, rfl⟩
  have hN2 : 2 ≤ N := by rw [hN]; linarith [sq_nonneg (Spec.translationLength sampleX)]
  obtain ⟨δ, h4, h5, h6⟩ := small_noise hσ (K := N * (1 + 28 / c)) (by positivity)
  obtain ⟨he, hm⟩ := sample_measured h4.le h5
  have h3 : 0 < Real.sqrt (sampleB.length : ℕ) := Real.sqrt_pos.mpr (by norm_num [sampleB])
  obtain ⟨γ, hγ⟩ : ∃ γ, γ = 4 * (4 * δ) * Real.sqrt (sampleB.length : ℕ) / σ := ⟨_, rfl⟩
  rw [← hγ] at h6
  have hγ0 : 0 < γ := by rw [hγ]; positivity
  have h6' : γ * N + γ * N * (28 / c) ≤ 1 / 2 := by linarith
  have e1 : 0 ≤ γ * N * (28 / c) := by positivity
  have e2 : 0 ≤ γ * N := by positivity
  refine ⟨svd, r, γ, h, hγ0, C85_right_root_partial svd hsvd (4 * δ) (by positivity) sampleX sample_data.1 true _ _ _ _ he hm _ r h σ hσ hs γ hγ
    (by rw [← hN]; linarith) ?_⟩
  intro T' V' hT' hV'
  rw [hT] at hT'
  injection hT' with hT'
  subst hT'
  rw [hV] at hV'
  injection hV' with hV'
  rw [← (Prod.mk.inj hV').2, ← hN, ← hc2]
  have e3 : 28 * (γ * N) ≤ c := by
    have : γ * N * (28 / c) ≤ 1 := by linarith
    rw [mul_div_assoc', div_le_one hc0] at this
    linarith
  calc (28 * γ) ^ 2 * N ≤ (28 * γ) ^ 2 * N ^ 2 := by
        apply mul_le_mul_of_nonneg_left _ (sq_nonneg _)
        nlinarith
    _ = (28 * (γ * N)) ^ 2 := by ring
    _ ≤ c ^ 2 := by
        apply pow_le_pow_left₀ _ e3
        positivity

end HandEye
