import Verif.Props.RoundedEval3

/-! # Property C97, continued: when the orientation error is a number -/

namespace HandEye

open Quaternion

theorem inner_toH (p q : Quat) : inner ℝ p.toH q.toH = p.x * q.x + p.y * q.y + p.z * q.z + p.w * q.w := by
  rw [Quaternion.inner_def]
  simp
  ring

theorem cos_halfAngle (p q : Quat) : Real.cos (Spec.halfAngle p q) = inner ℝ p.toH q.toH / (‖p.toH‖ * ‖q.toH‖) := by
  unfold Spec.halfAngle
  have h := abs_le.mp (abs_real_inner_div_norm_mul_norm_le_one p.toH q.toH)
  rw [inner_toH] at h ⊢
  rw [len_eq, len_eq, Real.cos_arccos h.1 h.2]

theorem abs_cos_halfAngle_neg (p q : Quat) : |Real.cos (Spec.halfAngle (-p) q)| = |Real.cos (Spec.halfAngle p q)| ∧
    |Real.cos (Spec.halfAngle p (-q))| = |Real.cos (Spec.halfAngle p q)| := by
  constructor <;> rw [cos_halfAngle, cos_halfAngle, Quat.toH_neg, norm_neg]
  · rw [inner_neg_left, neg_div, abs_neg]
  · rw [inner_neg_right, neg_div, abs_neg]

/-- Normalising in floating-point arithmetic changes the cosine of the angle by less than `50 u`. -/
theorem cos_normalize {u : ℝ} {A : Arith} (h : Spec.Machine u A) {p q : Quat} (hp : 2e-8 ≤ Spec.len p) (hq : 2e-8 ≤ Spec.len q)
    (hc : |Real.cos (Spec.halfAngle p q)| ≤ 1 - 100 * u) : |Real.cos (Spec.halfAngle (A.normalize p) (A.normalize q))| ≤ 1 - 50 * u := by
  have h0 := h.nonneg
  have hs := h.small
  obtain ⟨p1, p2, -⟩ := C89_normalize h p hp
  obtain ⟨q1, q2, -⟩ := C89_normalize h q hq
  rw [len_eq] at p1 p2 q1 q2 hp hq
  have np : 0 < ‖p.toH‖ := lt_of_lt_of_le (by norm_num) hp
  have nq : 0 < ‖q.toH‖ := lt_of_lt_of_le (by norm_num) hq
  rw [cos_halfAngle] at hc ⊢
  set a := (A.normalize p).toH
  set b := (A.normalize q).toH
  set P := ‖p.toH‖⁻¹ • p.toH with hP
  set Q := ‖q.toH‖⁻¹ • q.toH with hQ
  have nP : ‖P‖ = 1 := by rw [hP, norm_smul, norm_inv, norm_norm, inv_mul_cancel₀ np.ne']
  have nQ : ‖Q‖ = 1 := by rw [hQ, norm_smul, norm_inv, norm_norm, inv_mul_cancel₀ nq.ne']
  have hPQ : |inner ℝ P Q| ≤ 1 - 100 * u := by
    have e : inner ℝ P Q = inner ℝ p.toH q.toH / (‖p.toH‖ * ‖q.toH‖) := by
      rw [hP, hQ, real_inner_smul_left, real_inner_smul_right]
      field_simp
    rw [e]
    exact hc
  obtain ⟨pa, pa'⟩ := abs_le.mp p2
  obtain ⟨qa, qa'⟩ := abs_le.mp q2
  have e : inner ℝ a b = inner ℝ P Q + (inner ℝ (a - P) b + inner ℝ P (b - Q)) := by
    rw [inner_sub_left, inner_sub_right]
    ring
  have t1 : |inner ℝ (a - P) b| ≤ 9 * u * (1 + 9 * u) :=
    (abs_real_inner_le_norm _ _).trans (mul_le_mul p1 (by linarith) (norm_nonneg _) (by linarith))
  have t2 : |inner ℝ P (b - Q)| ≤ 9 * u := by
    have := abs_real_inner_le_norm P (b - Q)
    rw [nP, one_mul] at this
    exact this.trans q1
  have t3 : |inner ℝ a b| ≤ (1 - 100 * u) + (9 * u * (1 + 9 * u) + 9 * u) := by
    rw [e]
    exact (abs_add_le _ _).trans (add_le_add hPQ ((abs_add_le _ _).trans (add_le_add t1 t2)))
  have t4 : (1 - 9 * u) * (1 - 9 * u) ≤ ‖a‖ * ‖b‖ := mul_le_mul (by linarith) (by linarith) (by linarith) (norm_nonneg _)
  have t5 : 0 < ‖a‖ * ‖b‖ := mul_pos (by linarith) (by linarith)
  rw [abs_div, abs_of_pos t5, div_le_iff₀ t5]
  refine t3.trans ?_
  refine le_trans ?_ (mul_le_mul_of_nonneg_left t4 (by linarith))
  nlinarith [mul_nonneg h0 h0, mul_nonneg (mul_nonneg h0 h0) (sub_nonneg.mpr hs)]

/-- The angle is a number whatever the errors of `arccos` are. -/
theorem angle_number {u : ℝ} {A : Arith} (h : Spec.Machine u A) {q1 q2 : Quat} (h1 : |Spec.len q1 - 1| ≤ 10 * u) (h2 : |Spec.len q2 - 1| ≤ 10 * u)
    (hc : |Real.cos (Spec.halfAngle q1 q2)| ≤ 1 - 50 * u) : ∃ x, A.angleBetween q1 q2 = .ok x := by
  by_cases hall : q1.allclose q2 1e-12
  · unfold Arith.angleBetween
    rw [if_pos hall]
    exact ⟨_, rfl⟩
  · have hA : Spec.Machine u { A with acos := Real.arccos } := ⟨h.small, h.rounds, h.dots⟩
    obtain ⟨x, hx⟩ := (C89_angle_partial hA 0 (fun x _ _ => by simp) _ _ h1 h2 hall).2 hc
    unfold Arith.angleBetween at hx ⊢
    rw [if_neg hall] at hx ⊢
    obtain ⟨j, hj, hx⟩ := Py.bind_eq_ok.mp hx
    have hj' : A.inverse q2 = .ok j := hj
    rw [hj', Py.ok_bind]
    dsimp only at hx ⊢
    split_ifs at hx with hw
    have hw' : -1 ≤ (A.mul q1 j).w ∧ (A.mul q1 j).w ≤ 1 := hw
    rw [if_pos hw']
    exact ⟨_, rfl⟩

/-- **C97**, when the error of one pair is a number: if the orientations are equal, or the cosine of half of the angle between them is at least `100 u` away from 1
and -1 (for `float64` this means an angle of more than about `5e-7` radians).  Partial: between the two it need not be a number (`C97_refuted`). -/
theorem C97_number_partial {u : ℝ} {A : Arith} (h : Spec.Machine u A) (o p : ℝ) (as cs : List Pose) (hl : as.length = cs.length) (hn : as ≠ [])
    (hlen : ∀ a ∈ as ++ cs, 2e-8 ≤ Spec.len a.q)
    (hpair : ∀ (i : ℕ) (a c : Pose), as[i]? = some a → cs[i]? = some c → a.q = c.q ∨ |Real.cos (Spec.halfAngle a.q c.q)| ≤ 1 - 100 * u) :
    ∃ rp ro flags, A.evaluate o p as cs = .ok (rp, some ro, flags) := by
  obtain ⟨rp, ro, flags, he, -, hnan, -⟩ := C97_nan_spreads A o p as cs hl hn
  cases hro : ro with
  | some r => exact ⟨rp, r, flags, by rw [he, hro]⟩
  | none =>
    exfalso
    obtain ⟨i, a, c, ha, hc, e, hE⟩ := hnan.mp hro
    have la := hlen a (List.mem_append_left _ (List.mem_of_getElem? ha))
    have lc := hlen c (List.mem_append_right _ (List.mem_of_getElem? hc))
    have number : ∃ x, A.angleBetween (if (A.normalize a.q).w < 0 then -A.normalize a.q else A.normalize a.q)
        (if (A.normalize c.q).w < 0 then -A.normalize c.q else A.normalize c.q) = .ok x := by
      rcases hpair i a c ha hc with heq | hcos
      · rw [heq]
        unfold Arith.angleBetween
        rw [if_pos]
        · exact ⟨_, rfl⟩
        · refine ⟨?_, ?_, ?_, ?_⟩ <;> · unfold npIsclose; rw [sub_self, abs_zero]; positivity
      · have hcos' := cos_normalize h la lc hcos
        obtain ⟨-, na, -⟩ := C89_normalize h a.q la
        obtain ⟨-, nc, -⟩ := C89_normalize h c.q lc
        have h0 := h.nonneg
        have flip : ∀ q : Quat, |Spec.len q - 1| ≤ 9 * u → |Spec.len (if q.w < 0 then -q else q) - 1| ≤ 10 * u := by
          intro q hq
          have : Spec.len (if q.w < 0 then -q else q) = Spec.len q := by
            split_ifs
            · rw [len_eq, len_eq, Quat.toH_neg, norm_neg]
            · rfl
          rw [this]
          linarith
        have hcos2 : |Real.cos (Spec.halfAngle (if (A.normalize a.q).w < 0 then -A.normalize a.q else A.normalize a.q)
            (if (A.normalize c.q).w < 0 then -A.normalize c.q else A.normalize c.q))| ≤ 1 - 50 * u := by
          split_ifs
          · rw [(abs_cos_halfAngle_neg _ _).1, (abs_cos_halfAngle_neg _ _).2]; exact hcos'
          · rw [(abs_cos_halfAngle_neg _ _).1]; exact hcos'
          · rw [(abs_cos_halfAngle_neg _ _).2]; exact hcos'
          · exact hcos'
        exact angle_number h (flip _ na) (flip _ nc) hcos2
    obtain ⟨x, hx⟩ := number
    unfold Arith.orientationError at hE
    dsimp only at hE
    rw [hx, Py.ok_bind] at hE
    cases hE

/-- The same for `float64`: the error is a number if the orientations of every pair are equal or differ by between `5e-7` radians and a full turn less that. -/
theorem C97_number_double (acos : ℝ → ℝ) (o p : ℝ) (as cs : List Pose) (hl : as.length = cs.length) (hn : as ≠ [])
    (hlen : ∀ a ∈ as ++ cs, 2e-8 ≤ Spec.len a.q)
    (hpair : ∀ (i : ℕ) (a c : Pose), as[i]? = some a → cs[i]? = some c →
      a.q = c.q ∨ (5e-7 ≤ 2 * Spec.halfAngle a.q c.q ∧ 2 * Spec.halfAngle a.q c.q ≤ 2 * Real.pi - 5e-7)) :
    ∃ rp ro flags, (doubleArith acos).evaluate o p as cs = .ok (rp, some ro, flags) := by
  refine C97_number_partial (C89_double acos) o p as cs hl hn hlen ?_
  intro i a c ha hc
  rcases hpair i a c ha hc with h | ⟨h1, h2⟩
  · exact Or.inl h
  · refine Or.inr ?_
    have hpi := Real.pi_gt_three
    have hpi2 := Real.pi_lt_d2
    have hx0 : 0 ≤ Spec.halfAngle a.q c.q := Real.arccos_nonneg _
    have hx1 : Spec.halfAngle a.q c.q ≤ Real.pi := Real.arccos_le_pi _
    generalize Spec.halfAngle a.q c.q = x at *
    have bound : ∀ y : ℝ, 0 ≤ y → y ≤ Real.pi → 5e-7 ≤ 2 * y → Real.cos y ≤ 1 - 100 * 2⁻¹ ^ 53 := by
      intro y y0 y1 y2
      have := Real.cos_le_one_sub_mul_cos_sq (x := y) (by rw [abs_of_nonneg y0]; exact y1)
      refine this.trans ?_
      have f1 : (2 / 10 : ℝ) ≤ 2 / Real.pi ^ 2 := by
        rw [div_le_div_iff₀ (by norm_num) (by positivity)]
        norm_num at hpi2
        nlinarith
      have f2 : (2.5e-7 : ℝ) ^ 2 ≤ y ^ 2 := pow_le_pow_left₀ (by norm_num) (by norm_num at y2 ⊢; linarith) 2
      have f3 : (2 / 10 : ℝ) * 2.5e-7 ^ 2 ≤ 2 / Real.pi ^ 2 * y ^ 2 := mul_le_mul f1 f2 (by norm_num) (by positivity)
      have f4 : (100 : ℝ) * 2⁻¹ ^ 53 ≤ 2 / 10 * 2.5e-7 ^ 2 := by norm_num
      linarith
    rw [abs_le]
    constructor
    · have := bound (Real.pi - x) (by linarith) (by linarith) (by linarith)
      rw [Real.cos_pi_sub] at this
      linarith
    · exact bound x hx0 hx1 h1

/-- A quarter turn compared with no turn, and a pair of equal orientations. -/
example (acos : ℝ → ℝ) : ∃ rp ro flags, (doubleArith acos).evaluate 1 0.02 [⟨⟨0, 0, 0⟩, ⟨0, 0, 0, 1⟩⟩, ⟨⟨1, 0, 0⟩, ⟨0.6, 0, 0, 0.8⟩⟩]
    [⟨⟨0, 0, 0⟩, ⟨1, 0, 0, 0⟩⟩, ⟨⟨1, 0, 0.01⟩, ⟨0.6, 0, 0, 0.8⟩⟩] = .ok (rp, some ro, flags) := by
  have l1 : Spec.len ⟨0, 0, 0, 1⟩ = 1 := by unfold Spec.len; norm_num
  have l2 : Spec.len ⟨1, 0, 0, 0⟩ = 1 := by unfold Spec.len; norm_num
  have l3 : Spec.len ⟨0.6, 0, 0, 0.8⟩ = 1 := by unfold Spec.len; norm_num
  refine C97_number_double acos 1 0.02 _ _ (by simp) (by simp) ?_ ?_
  · intro a ha
    simp only [List.mem_cons, List.cons_append, List.nil_append, List.not_mem_nil, or_false] at ha
    rcases ha with rfl | rfl | rfl | rfl
    · rw [l1]; norm_num
    · rw [l3]; norm_num
    · rw [l2]; norm_num
    · rw [l3]; norm_num
  · intro i a c ha hc
    rcases i with _ | _ | i
    · simp at ha hc
      subst ha hc
      right
      have : Spec.halfAngle ⟨0, 0, 0, 1⟩ ⟨1, 0, 0, 0⟩ = Real.pi / 2 := by unfold Spec.halfAngle; simp
      rw [this]
      have := Real.pi_gt_three
      norm_num
      constructor <;> linarith
    · simp at ha hc
      subst ha hc
      exact Or.inl rfl
    · simp at ha

end HandEye
