import Verif.Lemmas.RoundedSolver
import Verif.Props.RoundedDual
import Verif.Props.Noise

/-! # Lemmas: what the solver does with the last two right-singular vectors, in floating-point arithmetic -/

open Quaternion Matrix

namespace HandEye

theorem enforceSameSign_mem : ∀ {bs ws ws' : List DQuat}, enforceSameSign bs ws = .ok ws' → ∀ w' ∈ ws', ∃ w ∈ ws, w' = w ∨ w' = -w := by
  intro bs
  induction bs with
  | nil =>
    intro ws ws' h w' hw
    rw [enforceSameSign] at h
    cases h
    exact ⟨w', hw, Or.inl rfl⟩
  | cons b bs ih =>
    intro ws ws' h w' hw
    cases ws with
    | nil => rw [enforceSameSign] at h; cases h
    | cons w ws =>
      rw [enforceSameSign] at h
      obtain ⟨ws1, h1, h⟩ := Py.bind_eq_ok.mp h
      cases h
      rcases List.mem_cons.mp hw with rfl | hw
      · refine ⟨w, List.mem_cons_self .., ?_⟩
        split_ifs
        · exact Or.inr rfl
        · exact Or.inl rfl
      · obtain ⟨v, hv, e⟩ := ih h1 w' hw
        exact ⟨v, List.mem_cons_of_mem _ hv, e⟩

theorem fl_step {u : ℝ} {A : Arith} (h : Spec.Machine u A) (x : ℝ) : ∃ ε, |ε| ≤ u ∧ A.fl x = x * (1 + ε) := by
  have r := h.rounds x
  by_cases hx : x = 0
  · refine ⟨0, by rw [abs_zero]; exact h.nonneg, ?_⟩
    rw [hx, abs_zero, mul_zero, sub_zero] at r
    rw [hx, zero_mul]
    exact abs_nonpos_iff.mp r
  · refine ⟨(A.fl x - x) / x, ?_, ?_⟩
    · rw [abs_div, div_le_iff₀ (abs_pos.mpr hx)]
      exact r
    · field_simp
      ring

/-- One component of a normalised combination. -/
theorem combination_near {u : ℝ} {A : Arith} (h : Spec.Machine u A) (x y n : ℝ) :
    |A.fl (A.fl (A.fl x + A.fl y) / n) - n⁻¹ * (x + y)| ≤ |n⁻¹| * (3.01 * u * (|x| + |y|)) := by
  have h0 := h.nonneg
  have hs := h.small
  obtain ⟨a, ha, e1⟩ := fl_step h x
  obtain ⟨b, hb, e2⟩ := fl_step h y
  obtain ⟨c, hc, e3⟩ := fl_step h (A.fl x + A.fl y)
  obtain ⟨d, hd, e4⟩ := fl_step h (A.fl (A.fl x + A.fl y) / n)
  have k : ∀ t : ℝ, |t| ≤ u → |(1 + t) * (1 + c) * (1 + d) - 1| ≤ 3.01 * u := by
    intro t ht
    have e : (1 + t) * (1 + c) * (1 + d) - 1 = t + c + d + (t * c + t * d + c * d) + t * c * d := by ring
    rw [e]
    have m1 : |t * c| ≤ u * (1 / 1000) := by rw [abs_mul]; exact mul_le_mul ht (hc.trans hs) (abs_nonneg _) h0
    have m2 : |t * d| ≤ u * (1 / 1000) := by rw [abs_mul]; exact mul_le_mul ht (hd.trans hs) (abs_nonneg _) h0
    have m3 : |c * d| ≤ u * (1 / 1000) := by rw [abs_mul]; exact mul_le_mul hc (hd.trans hs) (abs_nonneg _) h0
    have m4 : |t * c * d| ≤ u * (1 / 1000) * (1 / 1000) := by
      rw [abs_mul]; exact mul_le_mul m1 (hd.trans hs) (abs_nonneg _) (by positivity)
    have t1 := abs_le.mp ht
    have t2 := abs_le.mp hc
    have t3 := abs_le.mp hd
    have t4 := abs_le.mp m1
    have t5 := abs_le.mp m2
    have t6 := abs_le.mp m3
    have t7 := abs_le.mp m4
    rw [abs_le]
    constructor <;> linarith
  have e : A.fl (A.fl (A.fl x + A.fl y) / n) - n⁻¹ * (x + y) =
      n⁻¹ * (x * ((1 + a) * (1 + c) * (1 + d) - 1) + y * ((1 + b) * (1 + c) * (1 + d) - 1)) := by
    rw [e4, e3, e1, e2]; ring
  rw [e, abs_mul]
  refine mul_le_mul_of_nonneg_left ?_ (abs_nonneg _)
  refine (abs_add_le _ _).trans ?_
  rw [abs_mul, abs_mul]
  have k1 := mul_le_mul_of_nonneg_left (k a ha) (abs_nonneg x)
  have k2 := mul_le_mul_of_nonneg_left (k b hb) (abs_nonneg y)
  linarith

/-- The result is a combination of the two vectors up to rounding errors, and almost normalised. -/
theorem kernel_near {u : ℝ} {A : Arith} (hA : Spec.Machine u A) {v_7 v_8 q : DQuat} (h : A.kernel v_7 v_8 = .ok q) :
    ∃ k l m : ℝ, (∀ j, |Spec.vec8 q j - k * (l * Spec.vec8 v_7 j + m * Spec.vec8 v_8 j)| ≤
      |k| * (3.01 * u * (|l * Spec.vec8 v_7 j| + |m * Spec.vec8 v_8 j|))) ∧ |‖q.rot.toH‖ - 1| ≤ 9 * u := by
  unfold Arith.kernel at h
  obtain ⟨_, _, h⟩ := Py.bind_eq_ok.mp h
  obtain ⟨_, _, h⟩ := Py.bind_eq_ok.mp h
  obtain ⟨⟨l1, l2⟩, _, h⟩ := Py.bind_eq_ok.mp h
  obtain ⟨d, hd, hq⟩ := Py.bind_eq_ok.mp h
  set comb : DQuat := ⟨A.add (A.smul l1 v_7.rot) (A.smul l2 v_8.rot), A.add (A.smul l1 v_7.dual) (A.smul l2 v_8.dual)⟩ with hcomb
  have hn : A.norm comb.rot ≠ 0 := by
    intro e
    unfold Arith.dqNormalize Arith.divScalar at hd
    rw [if_pos e] at hd
    cases hd
  have hne : comb.rot.toH ≠ 0 := by
    intro e
    have := Arith.norm_near hA comb.rot
    rw [e, norm_zero, mul_zero, sub_zero] at this
    exact hn (abs_nonpos_iff.mp this)
  have hdv : d = ⟨A.quot comb.rot (A.norm comb.rot), A.quot comb.dual (A.norm comb.rot)⟩ := by
    unfold Arith.dqNormalize Arith.divScalar at hd
    rw [if_neg hn, if_neg hn] at hd
    cases hd
    rfl
  have hr : |‖d.rot.toH‖ - 1| ≤ 9 * u := by
    obtain ⟨b, hb, hb1, _⟩ := dqNormalize_near hA hne
    rw [show d = b from Except.ok.inj (hd.symm.trans hb)]
    have h1 : ‖‖comb.rot.toH‖⁻¹ • comb.rot.toH‖ = 1 := by
      rw [norm_smul, norm_inv, norm_norm, inv_mul_cancel₀ (norm_ne_zero_iff.mpr hne)]
    have := abs_norm_sub_norm_le b.rot.toH (‖comb.rot.toH‖⁻¹ • comb.rot.toH)
    rw [h1] at this
    exact this.trans hb1
  have hv : ∀ j, |Spec.vec8 d j - (A.norm comb.rot)⁻¹ * (l1 * Spec.vec8 v_7 j + l2 * Spec.vec8 v_8 j)| ≤
      |(A.norm comb.rot)⁻¹| * (3.01 * u * (|l1 * Spec.vec8 v_7 j| + |l2 * Spec.vec8 v_8 j|)) := by
    intro j
    have : Spec.vec8 d j = A.fl (A.fl (A.fl (l1 * Spec.vec8 v_7 j) + A.fl (l2 * Spec.vec8 v_8 j)) / A.norm comb.rot) := by
      rw [hdv]
      fin_cases j <;> rfl
    rw [this]
    exact combination_near hA _ _ _
  cases hq
  by_cases hw : d.rot.w < 0
  · simp only [if_pos hw]
    refine ⟨-(A.norm comb.rot)⁻¹, l1, l2, ?_, ?_⟩
    · intro j
      have e : Spec.vec8 (-d) j = -Spec.vec8 d j := by fin_cases j <;> simp [Spec.vec8]
      rw [e, abs_neg, neg_mul, sub_neg_eq_add, neg_add_eq_sub, abs_sub_comm]
      exact hv j
    · rw [DQuat.neg_rot, Quat.toH_neg, norm_neg]
      exact hr
  · simp only [if_neg hw]
    exact ⟨_, l1, l2, hv, hr⟩

/-- The result is near the plane of the solutions for the exact data. -/
theorem rounded_decomposition {u ω γ : ℝ} (hu : 0 ≤ u) (hu1 : u ≤ 1 / 1000) (hω : 0 ≤ ω) (hω1 : ω ≤ 1 / 1000) (hγ : 0 ≤ γ) {q X : DQuat}
    {V V' : Matrix (Fin 8) (Fin 8) ℝ} (hV : V' * V'.transpose = 1) (hnear : ∀ i, Spec.sumSq (V i - V' i) ≤ ω ^ 2) {k l m : ℝ}
    (hq : ∀ j, |Spec.vec8 q j - k * (l * V 6 j + m * V 7 j)| ≤ |k| * (3.01 * u * (|l * V 6 j| + |m * V 7 j|)))
    (hX : Spec.IsUnit X) (hoff : ∀ (a b : ℝ) (y : Fin 8 → ℝ), y = a • Spec.vec8 X + b • Spec.vec8 ⟨⟨0, 0, 0, 0⟩, X.rot⟩ →
      Spec.sumSq y - (V' *ᵥ y) 6 ^ 2 - (V' *ᵥ y) 7 ^ 2 ≤ γ ^ 2 * Spec.sumSq y) :
    ∃ (α β : ℝ) (er ed : ℍ[ℝ]), q.rot.toH = α • X.rot.toH + er ∧ q.dual.toH = α • X.dual.toH + β • X.rot.toH + ed ∧
      ‖er‖ ^ 2 + ‖ed‖ ^ 2 ≤ (1.01 * γ + 4.4 * u + 1.5 * ω) ^ 2 * (‖q.rot.toH‖ ^ 2 + ‖q.dual.toH‖ ^ 2) := by
  obtain ⟨hXr, hXd⟩ := isUnit_norm hX
  set N := Real.sqrt (1 + ‖X.dual.toH‖ ^ 2) with hN
  have hN2 : N ^ 2 = 1 + ‖X.dual.toH‖ ^ 2 := Real.sq_sqrt (by positivity)
  have hN0 : N ≠ 0 := by intro e; rw [e] at hN2; nlinarith [sq_nonneg ‖X.dual.toH‖]
  have hxx : Spec.vec8 X ⬝ᵥ Spec.vec8 X = N ^ 2 := by rw [← sumSq_eq_dot, sumSq_vec8, hXr, hN2]; ring
  have h22 : Spec.vec8 ⟨⟨0, 0, 0, 0⟩, X.rot⟩ ⬝ᵥ Spec.vec8 ⟨⟨0, 0, 0, 0⟩, X.rot⟩ = 1 := by
    rw [← sumSq_eq_dot, sumSq_vec8, norm_sq_toH]; simp only []; rw [hXr]; norm_num
  have h12 : Spec.vec8 X ⬝ᵥ Spec.vec8 ⟨⟨0, 0, 0, 0⟩, X.rot⟩ = 0 := by
    rw [dotProduct, Fin.sum_univ_eight]
    simp [Spec.vec8]
    simp at hXd
    linarith
  obtain ⟨α, β, hαβ⟩ := plane_gap hV (k₁ := N⁻¹ • Spec.vec8 X) (k₂ := Spec.vec8 ⟨⟨0, 0, 0, 0⟩, X.rot⟩) (g := γ ^ 2)
    (by rw [smul_dotProduct, dotProduct_smul, hxx]; simp only [smul_eq_mul]; field_simp) h22
    (by rw [smul_dotProduct, h12, smul_zero])
    (fun x y => hoff (x * N⁻¹) y _ (by rw [smul_smul])) l m
  set z := l • V' 6 + m • V' 7 with hz
  have h66 : V' 6 ⬝ᵥ V' 6 = 1 := by have := congrFun (congrFun hV 6) 6; simpa [mul_apply, dotProduct] using this
  have h77 : V' 7 ⬝ᵥ V' 7 = 1 := by have := congrFun (congrFun hV 7) 7; simpa [mul_apply, dotProduct] using this
  have h67 : V' 6 ⬝ᵥ V' 7 = 0 := by have := congrFun (congrFun hV 6) 7; simpa [mul_apply, dotProduct] using this
  have hz2 : len8 z ^ 2 = l ^ 2 + m ^ 2 := by
    rw [len8_sq, sumSq_eq_dot, hz]
    simp only [add_dotProduct, dotProduct_add, smul_dotProduct, dotProduct_smul, h66, h77, h67, dotProduct_comm (V' 7) (V' 6), smul_eq_mul]
    ring
  have hz0 := len8_nonneg z
  have hlm : |l| + |m| ≤ 1.415 * len8 z := by
    apply abs_le_of_sq_le_sq' _ (by positivity) |>.2
    rw [mul_pow, hz2]
    nlinarith [sq_nonneg (|l| - |m|), sq_abs l, sq_abs m]
  have n6 : len8 (V 6 - V' 6) ≤ ω := (len8_le hω).mpr (hnear 6)
  have n7 : len8 (V 7 - V' 7) ≤ ω := (len8_le hω).mpr (hnear 7)
  have l6 : len8 (V' 6) = 1 := by rw [len8, sumSq_eq_dot, h66, Real.sqrt_one]
  have l7 : len8 (V' 7) = 1 := by rw [len8, sumSq_eq_dot, h77, Real.sqrt_one]
  have s6 : len8 (V 6) ≤ 1.001 := by
    have := len8_add (V' 6) (V 6 - V' 6)
    rw [add_sub_cancel, l6] at this
    linarith
  have s7 : len8 (V 7) ≤ 1.001 := by
    have := len8_add (V' 7) (V 7 - V' 7)
    rw [add_sub_cancel, l7] at this
    linarith
  -- the distance from the combination of the exact vectors
  have d1 : len8 (Spec.vec8 q - k • z) ≤ |k| * ((4.264 * u + 1.415 * ω) * len8 z) := by
    have e1 : len8 (Spec.vec8 q - k • z) ≤ len8 (|k| • ((3.01 * u * |l|) • (fun j => |V 6 j|) + (3.01 * u * |m|) • (fun j => |V 7 j|) +
        |l| • (fun j => |(V 6 - V' 6) j|) + |m| • (fun j => |(V 7 - V' 7) j|))) := by
      apply len8_mono
      intro j
      have e : (Spec.vec8 q - k • z) j = (Spec.vec8 q j - k * (l * V 6 j + m * V 7 j)) + k * (l * (V 6 - V' 6) j + m * (V 7 - V' 7) j) := by
        simp only [hz, Pi.sub_apply, Pi.smul_apply, Pi.add_apply, smul_eq_mul]; ring
      rw [e]
      refine (abs_add_le _ _).trans ?_
      have h1 := hq j
      have h2 : |k * (l * (V 6 - V' 6) j + m * (V 7 - V' 7) j)| ≤ |k| * (|l| * |(V 6 - V' 6) j| + |m| * |(V 7 - V' 7) j|) := by
        rw [abs_mul]
        refine mul_le_mul_of_nonneg_left ?_ (abs_nonneg _)
        refine (abs_add_le _ _).trans ?_
        rw [abs_mul, abs_mul]
      rw [abs_mul, abs_mul] at h1
      simp only [Pi.add_apply, Pi.smul_apply, smul_eq_mul]
      linarith
    refine e1.trans ?_
    rw [len8_smul, abs_abs]
    refine mul_le_mul_of_nonneg_left ?_ (abs_nonneg _)
    have a1 := len8_add ((3.01 * u * |l|) • (fun j => |V 6 j|) + (3.01 * u * |m|) • (fun j => |V 7 j|) + |l| • (fun j => |(V 6 - V' 6) j|))
      (|m| • (fun j => |(V 7 - V' 7) j|))
    have a2 := len8_add ((3.01 * u * |l|) • (fun j => |V 6 j|) + (3.01 * u * |m|) • (fun j => |V 7 j|)) (|l| • (fun j => |(V 6 - V' 6) j|))
    have a3 := len8_add ((3.01 * u * |l|) • (fun j => |V 6 j|)) ((3.01 * u * |m|) • (fun j => |V 7 j|))
    rw [len8_smul, len8_smul, len8_abs, len8_abs, abs_of_nonneg (show 0 ≤ 3.01 * u * |l| by positivity),
      abs_of_nonneg (show 0 ≤ 3.01 * u * |m| by positivity)] at a3
    rw [len8_smul, len8_abs, abs_abs] at a1 a2
    have b1 : 3.01 * u * |l| * len8 (V 6) ≤ 3.01 * u * |l| * 1.001 := by gcongr
    have b2 : 3.01 * u * |m| * len8 (V 7) ≤ 3.01 * u * |m| * 1.001 := by gcongr
    have b3 : |l| * len8 (V 6 - V' 6) ≤ |l| * ω := by gcongr
    have b4 : |m| * len8 (V 7 - V' 7) ≤ |m| * ω := by gcongr
    have b5 : (|l| + |m|) * (3.01 * 1.001 * u + ω) ≤ 1.415 * len8 z * (3.01 * 1.001 * u + ω) := by gcongr
    have b6 : 0 ≤ len8 z * u := by positivity
    nlinarith
  set W := |k| * len8 z with hW
  have hW0 : 0 ≤ W := by positivity
  have dk : len8 (k • z) = W := len8_smul _ _
  have dq : W ≤ 1.006 * len8 (Spec.vec8 q) := by
    have h1 := len8_add (Spec.vec8 q) (k • z - Spec.vec8 q)
    rw [add_sub_cancel, dk] at h1
    have h2 : len8 (k • z - Spec.vec8 q) = len8 (Spec.vec8 q - k • z) := by
      have := len8_smul (-1) (Spec.vec8 q - k • z)
      rw [abs_neg, abs_one, one_mul] at this
      rw [← this]
      congr 1
      module
    rw [h2] at h1
    have h3 : |k| * ((4.264 * u + 1.415 * ω) * len8 z) ≤ 0.00568 * W := by
      have : (4.264 * u + 1.415 * ω) * W ≤ 0.00568 * W := mul_le_mul_of_nonneg_right (by linarith) hW0
      calc |k| * ((4.264 * u + 1.415 * ω) * len8 z) = (4.264 * u + 1.415 * ω) * W := by rw [hW]; ring
        _ ≤ _ := this
    linarith
  have d2 : len8 (k • z - k • (α • N⁻¹ • Spec.vec8 X + β • Spec.vec8 ⟨⟨0, 0, 0, 0⟩, X.rot⟩)) ≤ γ * W := by
    rw [← smul_sub, len8_smul]
    have : len8 (z - (α • N⁻¹ • Spec.vec8 X + β • Spec.vec8 ⟨⟨0, 0, 0, 0⟩, X.rot⟩)) ≤ γ * len8 z := by
      rw [len8_le (by positivity), mul_pow, len8_sq]
      exact hαβ
    calc _ ≤ |k| * (γ * len8 z) := mul_le_mul_of_nonneg_left this (abs_nonneg _)
      _ = γ * W := by rw [hW]; ring
  have d3 : len8 (Spec.vec8 q - k • (α • N⁻¹ • Spec.vec8 X + β • Spec.vec8 ⟨⟨0, 0, 0, 0⟩, X.rot⟩)) ≤
      (1.01 * γ + 4.4 * u + 1.5 * ω) * len8 (Spec.vec8 q) := by
    have h1 := len8_add (Spec.vec8 q - k • z) (k • z - k • (α • N⁻¹ • Spec.vec8 X + β • Spec.vec8 ⟨⟨0, 0, 0, 0⟩, X.rot⟩))
    rw [sub_add_sub_cancel] at h1
    have h3 : |k| * ((4.264 * u + 1.415 * ω) * len8 z) = (4.264 * u + 1.415 * ω) * W := by rw [hW]; ring
    rw [h3] at d1
    have h4 : (4.264 * u + 1.415 * ω + γ) * W ≤ (4.264 * u + 1.415 * ω + γ) * (1.006 * len8 (Spec.vec8 q)) := by gcongr
    have h5 := len8_nonneg (Spec.vec8 q)
    have h6 : (4.264 * u + 1.415 * ω + γ) * (1.006 * len8 (Spec.vec8 q)) ≤ (1.01 * γ + 4.4 * u + 1.5 * ω) * len8 (Spec.vec8 q) := by
      rw [← mul_assoc]
      gcongr
      linarith
    linarith
  rw [len8_le (by have := len8_nonneg (Spec.vec8 q); positivity), mul_pow, len8_sq, sumSq_vec8] at d3
  refine ⟨k * α * N⁻¹, k * β, q.rot.toH - (k * α * N⁻¹) • X.rot.toH,
    q.dual.toH - ((k * α * N⁻¹) • X.dual.toH + (k * β) • X.rot.toH), by abel, by abel, ?_⟩
  refine le_trans (le_of_eq ?_) d3
  rw [← Quat.toH_smul, ← Quat.toH_smul, ← Quat.toH_smul, ← Quat.toH_sub, ← Quat.toH_add, ← Quat.toH_sub, norm_sq_toH, norm_sq_toH,
    Spec.sumSq, Fin.sum_univ_eight]
  simp [Spec.vec8]
  ring

end HandEye
