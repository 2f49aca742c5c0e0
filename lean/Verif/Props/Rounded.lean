import Verif.Lemmas.RoundDouble

/-! # Property C89: quaternions in floating-point arithmetic -/

open Quaternion

namespace HandEye

/-- The results below hold for the type `float64` (53 binary digits, rounding to nearest). -/
theorem C89_double (acos : ℝ → ℝ) : Spec.Machine (2⁻¹ ^ 53) (doubleArith acos) := machine_double acos

/-- **C89**, the product: its rounding error is at most `10 u |p| |q|`. -/
theorem C89_product {u : ℝ} {A : Arith} (h : Spec.Machine u A) (p q : Quat) :
    ‖(A.mul p q).toH - p.toH * q.toH‖ ≤ 10 * u * (Spec.len p * Spec.len q) := by
  rw [len_eq, len_eq]
  exact Arith.mul_near h p q

example : ‖((doubleArith Real.arccos).mul ⟨0, 0.6, 0, 0.8⟩ ⟨0.8, 0, 0.6, 0⟩).toH - (⟨0, 0.6, 0, 0.8⟩ : Quat).toH * (⟨0.8, 0, 0.6, 0⟩ : Quat).toH‖
    ≤ 10 * 2⁻¹ ^ 53 := by
  have h := C89_product (C89_double Real.arccos) ⟨0, 0.6, 0, 0.8⟩ ⟨0.8, 0, 0.6, 0⟩
  have e1 : Spec.len ⟨0, 0.6, 0, 0.8⟩ = 1 := by unfold Spec.len; norm_num
  have e2 : Spec.len ⟨0.8, 0, 0.6, 0⟩ = 1 := by unfold Spec.len; norm_num
  rw [e1, e2] at h
  linarith

/-- **C89**, `normalize`: a quaternion that is not tiny gets a length within `9 u` of one and keeps its direction within `9 u`;
`np.isclose(norm, 1, atol=1e-8)` then holds as soon as `u ≤ 4e-7`. -/
theorem C89_normalize {u : ℝ} {A : Arith} (h : Spec.Machine u A) (q : Quat) (hq : 2e-8 ≤ Spec.len q) :
    ‖(A.normalize q).toH - (Spec.len q)⁻¹ • q.toH‖ ≤ 9 * u ∧ |Spec.len (A.normalize q) - 1| ≤ 9 * u ∧
      (u ≤ 4e-7 → npIsclose (A.norm (A.normalize q)) 1 1e-8) := by
  have h0 := h.nonneg
  have hs := h.small
  rw [len_eq] at hq
  rw [len_eq, len_eq]
  have hN : 0 < ‖q.toH‖ := lt_of_lt_of_le (by norm_num) hq
  have h1 := Arith.normalize_near h hq
  have e : ‖‖q.toH‖⁻¹ • q.toH‖ = 1 := by rw [norm_smul, norm_inv, norm_norm, inv_mul_cancel₀ hN.ne']
  have h2 : |‖(A.normalize q).toH‖ - 1| ≤ 9 * u := by
    have := abs_norm_sub_norm_le (A.normalize q).toH (‖q.toH‖⁻¹ • q.toH)
    rw [e] at this
    exact this.trans h1
  refine ⟨h1, h2, fun hu => ?_⟩
  have h3 := Arith.norm_near h (A.normalize q)
  have h4 := abs_sub_le (A.norm (A.normalize q)) ‖(A.normalize q).toH‖ 1
  have h5 : 7 * u * ‖(A.normalize q).toH‖ ≤ 7 * u * 2 := mul_le_mul_of_nonneg_left (by linarith [(abs_le.mp h2).2]) (by linarith)
  unfold npIsclose
  rw [abs_one]
  norm_num at hu ⊢
  linarith

example : |Spec.len ((doubleArith Real.arccos).normalize ⟨1, 2, 3, 4⟩) - 1| ≤ 1e-15 := by
  have h := (C89_normalize (C89_double Real.arccos) ⟨1, 2, 3, 4⟩ (by unfold Spec.len; exact Real.le_sqrt_of_sq_le (by norm_num))).2.1
  refine h.trans ?_
  norm_num

/-- A product of quaternions that are normalised one by one, in floating-point arithmetic. -/
noncomputable def roundedChain (A : Arith) (qs : List Quat) : Quat :=
  qs.foldl (fun r q => A.mul r (A.normalize q)) ⟨0, 0, 0, 1⟩

/-- **C89**, products of many factors: the product of `n` normalised quaternions is within `(1 + 20 u)^n - 1` of the exact product of
the exact unit quaternions. -/
theorem C89_chain {u : ℝ} {A : Arith} (h : Spec.Machine u A) (qs : List Quat) (hq : ∀ q ∈ qs, 2e-8 ≤ Spec.len q) :
    ‖(roundedChain A qs).toH - (qs.map fun q => (Spec.len q)⁻¹ • q.toH).prod‖ ≤ (1 + 20 * u) ^ qs.length - 1 ∧
      |Spec.len (roundedChain A qs) - 1| ≤ (1 + 20 * u) ^ qs.length - 1 := by
  have h0 := h.nonneg
  have hs := h.small
  have key : ∀ (l : List Quat) (r : Quat) (P : ℍ[ℝ]) (k : ℕ), (∀ q ∈ l, 2e-8 ≤ Spec.len q) → ‖P‖ = 1 →
      ‖r.toH - P‖ ≤ (1 + 20 * u) ^ k - 1 →
      ‖(l.foldl (fun r q => A.mul r (A.normalize q)) r).toH - P * (l.map fun q => (Spec.len q)⁻¹ • q.toH).prod‖ ≤
        (1 + 20 * u) ^ (k + l.length) - 1 ∧ ‖(l.map fun q => (Spec.len q)⁻¹ • q.toH).prod‖ = 1 := by
    intro l
    induction l with
    | nil =>
      intro r P k _ _ hr
      simpa using hr
    | cons q l ih =>
      intro r P k hl hP hr
      have hq := hl q List.mem_cons_self
      obtain ⟨n1, n2, _⟩ := C89_normalize h q hq
      rw [len_eq (A.normalize q)] at n2
      have n2' : ‖(A.normalize q).toH‖ ≤ 1 + 9 * u := by linarith [(abs_le.mp n2).2]
      set s := (Spec.len q)⁻¹ • q.toH with hsdef
      have hs1 : ‖s‖ = 1 := by
        have : 0 < Spec.len q := lt_of_lt_of_le (by norm_num) hq
        rw [hsdef, norm_smul, norm_inv, ← len_eq, Real.norm_of_nonneg this.le, inv_mul_cancel₀ this.ne']
      have m1 := Arith.mul_near h r (A.normalize q)
      set G := (1 + 20 * u) ^ k with hG
      have hG1 : 1 ≤ G := one_le_pow₀ (by linarith)
      have hrn : ‖r.toH‖ ≤ G := by
        have := norm_le_insert' r.toH P
        linarith
      have step : ‖(A.mul r (A.normalize q)).toH - P * s‖ ≤ (1 + 20 * u) ^ (k + 1) - 1 := by
        have e : (A.mul r (A.normalize q)).toH - P * s = ((A.mul r (A.normalize q)).toH - r.toH * (A.normalize q).toH) +
            (r.toH - P) * (A.normalize q).toH + P * ((A.normalize q).toH - s) := by noncomm_ring
        have b1 : 10 * u * (‖r.toH‖ * ‖(A.normalize q).toH‖) ≤ 10 * u * (G * (1 + 9 * u)) :=
          mul_le_mul_of_nonneg_left (mul_le_mul hrn n2' (norm_nonneg _) (by linarith)) (by linarith)
        have b2 : ‖(r.toH - P) * (A.normalize q).toH‖ ≤ (G - 1) * (1 + 9 * u) := by
          rw [norm_mul]
          exact mul_le_mul hr n2' (norm_nonneg _) (by linarith)
        have b3 : ‖P * ((A.normalize q).toH - s)‖ ≤ 9 * u := by
          rw [norm_mul, hP, one_mul]
          exact n1
        have b4 := norm_add₃_le (a := (A.mul r (A.normalize q)).toH - r.toH * (A.normalize q).toH)
          (b := (r.toH - P) * (A.normalize q).toH) (c := P * ((A.normalize q).toH - s))
        rw [← e] at b4
        rw [pow_succ, ← hG]
        have b5 : G * (90 * u * u) ≤ G * u := mul_le_mul_of_nonneg_left (by nlinarith) (by linarith)
        linarith
      have hPs : ‖P * s‖ = 1 := by rw [norm_mul, hP, hs1, one_mul]
      obtain ⟨i1, i2⟩ := ih (A.mul r (A.normalize q)) (P * s) (k + 1) (fun x hx => hl x (List.mem_cons_of_mem _ hx)) hPs step
      rw [List.map_cons, List.prod_cons, List.foldl_cons, List.length_cons, ← mul_assoc, norm_mul, hs1, i2, one_mul]
      refine ⟨?_, rfl⟩
      rw [show k + (l.length + 1) = k + 1 + l.length by ring]
      exact i1
  obtain ⟨k1, k2⟩ := key qs ⟨0, 0, 0, 1⟩ 1 0 hq (by simp) (by
    have : (⟨0, 0, 0, 1⟩ : Quat).toH = 1 := by ext <;> simp
    rw [this]; simp)
  rw [one_mul, zero_add] at k1
  refine ⟨k1, ?_⟩
  have := abs_norm_sub_norm_le (roundedChain A qs).toH (qs.map fun q => (Spec.len q)⁻¹ • q.toH).prod
  rw [k2] at this
  rw [len_eq]
  exact this.trans k1

/-- **C89**, the assertions: a product of up to ten million normalised quaternions still passes the check of `quaternion_slerp` in
`float64`. -/
theorem C89_slerp_check (acos : ℝ → ℝ) (qs : List Quat) (hq : ∀ q ∈ qs, 2e-8 ≤ Spec.len q) (hn : qs.length ≤ 10 ^ 7) :
    npIsclose ((doubleArith acos).norm (roundedChain (doubleArith acos) qs)) 1 1e-8 := by
  have h := machine_double acos
  obtain ⟨_, h1⟩ := C89_chain h qs hq
  have h2 : (1 + 20 * (2⁻¹ : ℝ) ^ 53) ^ qs.length ≤ 1 + 1e-6 := by
    have h3 : (1 + 20 * (2⁻¹ : ℝ) ^ 53) ^ qs.length ≤ Real.exp (20 * 2⁻¹ ^ 53) ^ qs.length := by
      apply pow_le_pow_left₀ (by positivity)
      linarith [Real.add_one_le_exp (20 * (2⁻¹ : ℝ) ^ 53)]
    have h4 : Real.exp (20 * 2⁻¹ ^ 53) ^ qs.length ≤ Real.exp (1 / 10 ^ 7) := by
      rw [← Real.exp_nat_mul]
      apply Real.exp_le_exp.mpr
      have : (qs.length : ℝ) ≤ 10 ^ 7 := by exact_mod_cast hn
      have e : (20 * (2⁻¹ : ℝ) ^ 53) ≤ 1 / 10 ^ 14 := by norm_num
      calc (qs.length : ℝ) * (20 * 2⁻¹ ^ 53) ≤ 10 ^ 7 * (1 / 10 ^ 14) := mul_le_mul this e (by positivity) (by positivity)
        _ = 1 / 10 ^ 7 := by norm_num
    have h5 : Real.exp (1 / 10 ^ 7) ≤ 1 + 1e-6 := by
      have := Real.exp_bound_div_one_sub_of_interval (x := 1 / 10 ^ 7) (by norm_num) (by norm_num)
      refine this.trans ?_
      norm_num
    linarith
  rw [len_eq] at h1
  have h6 := Arith.norm_near h (roundedChain (doubleArith acos) qs)
  have h7 := abs_sub_le ((doubleArith acos).norm (roundedChain (doubleArith acos) qs)) ‖(roundedChain (doubleArith acos) qs).toH‖ 1
  have h8 : 7 * (2⁻¹ : ℝ) ^ 53 * ‖(roundedChain (doubleArith acos) qs).toH‖ ≤ 7 * 2⁻¹ ^ 53 * 2 :=
    mul_le_mul_of_nonneg_left (by norm_num at h2 ⊢; linarith [(abs_le.mp h1).2]) (by norm_num)
  unfold npIsclose
  rw [abs_one]
  norm_num at h2 h8 h6 h7 ⊢
  linarith

example (q : Quat) (hq : 2e-8 ≤ Spec.len q) : npIsclose ((doubleArith Real.arccos).norm
    (roundedChain (doubleArith Real.arccos) (List.replicate 10000000 q))) 1 1e-8 :=
  C89_slerp_check _ _ (fun r hr => by rw [List.eq_of_mem_replicate hr]; exact hq) (by rw [List.length_replicate]; norm_num)

end HandEye
