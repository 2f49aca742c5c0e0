import Verif.Props.RoundedDual
import Verif.Props.Rounded3
import Verif.Lemmas.RoundedFar

/-! # Property C90, continued: how far from the origin a path can be aligned -/

open Quaternion

namespace HandEye

/-- **C90**, aligned paths in `float64`: a path whose alignment pose comes from `from_pose` and lies within 2000 km of the origin can be aligned,
whatever the other poses are. -/
theorem C90_align_double (acos : ℝ → ℝ) (v : List DQuat) (i : ℤ) (k : ℕ) (hk : Spec.Names v.length i k) (p : Pose)
    (hv : v[k]? = some ((doubleArith acos).fromPose p)) (hq : 2e-8 ≤ Spec.len p.q) (hp : Spec.dist p.pos ⟨0, 0, 0⟩ ≤ 2e6) (enf : Bool) :
    ∃ l f, (doubleArith acos).alignPaths v i enf = .ok l ∧ l.length = v.length ∧ l[0]? = some f ∧ ‖f.rot.toH - 1‖ ≤ 3e-15 ∧
      Spec.len f.dual ≤ 1e-8 := by
  have h := C89_double acos
  obtain ⟨f1, f2⟩ := fromPose_near h hq
  set a := (doubleArith acos).fromPose p with ha
  have hT : Spec.dist p.pos ⟨0, 0, 0⟩ = ‖p.pos.toH‖ := by
    have e : p.pos.toH = (⟨p.pos.x, p.pos.y, p.pos.z, 0⟩ : Quat).toH := rfl
    rw [e, ← len_eq]
    unfold Spec.dist Spec.len
    congr 1
    ring
  rw [hT] at hp
  have hT0 := norm_nonneg p.pos.toH
  have hN : ‖a.rot.toH‖ ≤ 1.001 := by
    have := (abs_le.mp f1).2
    norm_num at this ⊢
    linarith
  have hTN : ‖p.pos.toH‖ * ‖a.rot.toH‖ ≤ 2e6 * 1.001 := mul_le_mul hp hN (norm_nonneg _) (by norm_num)
  have hd : ‖a.dual.toH‖ ≤ 1.1e6 := by
    have t := norm_le_insert' a.dual.toH ((1 / 2 : ℝ) • (p.pos.toH * a.rot.toH))
    rw [norm_smul, norm_mul, Real.norm_of_nonneg (by norm_num)] at t
    have : 6 * (2⁻¹ : ℝ) ^ 53 * (‖p.pos.toH‖ * ‖a.rot.toH‖) ≤ 6 * (2⁻¹ : ℝ) ^ 53 * (2e6 * 1.001) := mul_le_mul_of_nonneg_left hTN (by positivity)
    norm_num at this t hTN f2 ⊢
    linarith
  have hd' : 60 * (2⁻¹ : ℝ) ^ 53 * ‖a.dual.toH‖ ≤ 1e-8 := by
    have : 60 * (2⁻¹ : ℝ) ^ 53 * ‖a.dual.toH‖ ≤ 60 * (2⁻¹ : ℝ) ^ 53 * 1.1e6 := mul_le_mul_of_nonneg_left hd (by positivity)
    refine this.trans ?_
    norm_num
  obtain ⟨l, f, c1, c2, c3, c4, c5⟩ := C90_align h (by norm_num) v i k hk a hv (by rw [len_eq]; refine f1.trans ?_; norm_num) (by rw [len_eq]; exact hd') enf
  rw [len_eq a.dual] at c5
  refine ⟨l, f, c1, c2, c3, c4.trans ?_, c5.trans hd'⟩
  norm_num

example : ∃ l f, (doubleArith Real.arccos).alignPaths [(doubleArith Real.arccos).fromPose ⟨⟨1000, 2000, 0⟩, ⟨0, 0, 1, 2⟩⟩,
    (doubleArith Real.arccos).fromPose ⟨⟨1, 1e7, 0⟩, ⟨0.1, 0, 0, 2⟩⟩] 0 true = .ok l ∧ l.length = 2 ∧ l[0]? = some f ∧ ‖f.rot.toH - 1‖ ≤ 3e-15 ∧
      Spec.len f.dual ≤ 1e-8 := by
  apply C90_align_double Real.arccos _ 0 0 ⟨by norm_num, .inl rfl⟩ _ rfl
  · unfold Spec.len
    apply Real.le_sqrt_of_sq_le
    norm_num
  · unfold Spec.dist
    apply Real.sqrt_le_iff.mpr
    constructor <;> norm_num

/-- The rotation of the counterexample, about the first axis. -/
noncomputable def farRotation : Quat := ⟨8941396965703279 / 2 ^ 53, 0, 0, 8694122028382684 / 2 ^ 56⟩

theorem far_dot (acos : ℝ → ℝ) : (doubleArith acos).dot farRotation farRotation = 4503599627370497 / 2 ^ 52 := by
  unfold doubleArith farRotation
  dsimp only
  simp only [far_xx, mul_zero, roundDouble_zero, add_zero, far_xx2, far_ww, far_sum]

theorem far_norm (acos : ℝ → ℝ) : (doubleArith acos).norm farRotation = 1 := by
  unfold Arith.norm
  rw [far_dot]
  have h1 : (1 : ℝ) ≤ Real.sqrt (4503599627370497 / 2 ^ 52) := Real.le_sqrt_of_sq_le (by norm_num)
  have h2 : Real.sqrt (4503599627370497 / 2 ^ 52) < 1 + 1 / 2 ^ 53 := (Real.sqrt_lt' (by norm_num)).mpr (by norm_num)
  refine rd_pos 52 4503599627370496 ?_ ?_ ?_ ?_ (by norm_num)
  · linarith
  · norm_num at h2 ⊢; linarith
  · norm_num at h2 ⊢; linarith
  · norm_num at h1 ⊢; linarith

theorem far_normalize (acos : ℝ → ℝ) : (doubleArith acos).normalize farRotation = farRotation := by
  unfold Arith.normalize
  rw [far_norm, if_pos (by norm_num)]
  unfold Arith.quot
  simp only [div_one]
  ext
  · exact far_x
  · exact roundDouble_zero
  · exact roundDouble_zero
  · exact far_w

theorem far_fromPose (acos : ℝ → ℝ) : (doubleArith acos).fromPose ⟨⟨2 ^ 28, 0, 0⟩, farRotation⟩ =
    ⟨farRotation, ⟨8694122028382684 / 2 ^ 29, 0, 0, -(8941396965703279 / 2 ^ 26)⟩⟩ := by
  unfold Arith.fromPose
  dsimp only
  rw [far_normalize, show ((2 : ℝ) ^ 28) = 4503599627370496 / 2 ^ 24 by norm_num]
  congr 1
  have := far_tq acos
  unfold farRotation
  rw [this]
  unfold Arith.smul
  dsimp only
  rw [mul_zero]
  ext
  · exact far_dx
  · exact roundDouble_zero
  · exact roundDouble_zero
  · exact far_dw

/-- The inverse of the rotation. -/
noncomputable def farInverse : Quat := ⟨-(8941396965703277 / 2 ^ 53), 0, 0, 8694122028382682 / 2 ^ 56⟩

theorem far_inverse (acos : ℝ → ℝ) : (doubleArith acos).inverse farRotation = .ok farInverse := by
  unfold Arith.inverse Arith.divScalar
  rw [far_dot, if_neg (by norm_num)]
  congr 1
  unfold Arith.quot
  ext
  · exact far_ix
  · change roundDouble (-0 / _) = 0
    rw [neg_zero, zero_div, roundDouble_zero]
  · change roundDouble (-0 / _) = 0
    rw [neg_zero, zero_div, roundDouble_zero]
  · exact far_iw

theorem far_dqInverse (acos : ℝ → ℝ) : (doubleArith acos).dqInverse ⟨farRotation, ⟨8694122028382684 / 2 ^ 29, 0, 0, -(8941396965703279 / 2 ^ 26)⟩⟩ =
    .ok ⟨farInverse, ⟨-(8694122028382681 / 2 ^ 29), 0, 0, -(8941396965703276 / 2 ^ 26)⟩⟩ := by
  unfold Arith.dqInverse
  dsimp only
  rw [far_norm, pyAssert_pos (by norm_num), Py.ok_bind, far_inverse, Py.ok_bind, Py.pure_eq]
  have e : -farInverse = ⟨8941396965703277 / 2 ^ 53, 0, 0, -(8694122028382682 / 2 ^ 56)⟩ := by
    unfold farInverse
    ext
    · exact neg_neg _
    · exact neg_zero
    · exact neg_zero
    · rfl
  rw [e, far_e1 acos]
  unfold farInverse
  rw [far_e2 acos]

theorem far_product (acos : ℝ → ℝ) : (doubleArith acos).dqMul ⟨farInverse, ⟨-(8694122028382681 / 2 ^ 29), 0, 0, -(8941396965703276 / 2 ^ 26)⟩⟩
    ⟨farRotation, ⟨8694122028382684 / 2 ^ 29, 0, 0, -(8941396965703279 / 2 ^ 26)⟩⟩ =
    ⟨⟨0, 0, 0, 9007199254740991 / 2 ^ 53⟩, ⟨4503599627370496 / 2 ^ 78, 0, 0, 0⟩⟩ := by
  unfold Arith.dqMul
  dsimp only
  unfold farInverse farRotation
  rw [far_ir acos, far_id acos, far_er acos]
  congr 1
  unfold Arith.add
  dsimp only
  rw [add_zero]
  ext
  · exact far_dual
  · exact roundDouble_zero
  · exact roundDouble_zero
  · exact roundDouble_zero

/-- **C90** is refuted far from the origin: there is a pose with `float64` entries and an orientation of length one up to `1e-15`, less than 300000 km from
the origin, such that every path that has it at the alignment index is rejected: the assertion that the first pose of the aligned path is the identity,
which compares the dual part with zero up to `1e-8`, fails because of rounding errors. -/
theorem C90_far_refuted (acos : ℝ → ℝ) : ∃ p : Pose,
    (∀ x ∈ [p.pos.x, p.pos.y, p.pos.z, p.q.x, p.q.y, p.q.z, p.q.w], Spec.IsDouble x) ∧ |Spec.len p.q - 1| ≤ 1e-15 ∧
      Spec.dist p.pos ⟨0, 0, 0⟩ ≤ 3e8 ∧
      ∀ (v : List DQuat) (i : ℤ) (k : ℕ), Spec.Names v.length i k → v[k]? = some ((doubleArith acos).fromPose p) →
        ∀ enf, (doubleArith acos).alignPaths v i enf = .error .assertion := by
  refine ⟨⟨⟨2 ^ 28, 0, 0⟩, farRotation⟩, ?_, ?_, ?_, ?_⟩
  · have zero : Spec.IsDouble 0 := ⟨0, 0, by norm_num, by simp⟩
    have h1 := isDouble_div 8941396965703279 53 (by norm_num)
    have h2 := isDouble_div 8694122028382684 56 (by norm_num)
    have h3 := isDouble_div (2 ^ 28) 0 (by norm_num)
    push_cast at h1 h2 h3
    rw [pow_zero, div_one, show (268435456 : ℝ) = 2 ^ 28 by norm_num] at h3
    intro x hx
    simp only [List.mem_cons, List.not_mem_nil, or_false] at hx
    rcases hx with rfl | rfl | rfl | rfl | rfl | rfl | rfl
    · exact h3
    · exact zero
    · exact zero
    · exact h1
    · exact zero
    · exact zero
    · exact h2
  · have e : Spec.len farRotation = Real.sqrt ((8941396965703279 / 2 ^ 53) ^ 2 + 0 ^ 2 + 0 ^ 2 + (8694122028382684 / 2 ^ 56) ^ 2) := rfl
    dsimp only
    rw [e, abs_le]
    constructor
    · have : (1 - 1e-15 : ℝ) ≤ Real.sqrt ((8941396965703279 / 2 ^ 53) ^ 2 + 0 ^ 2 + 0 ^ 2 + (8694122028382684 / 2 ^ 56) ^ 2) :=
        Real.le_sqrt_of_sq_le (by norm_num)
      linarith
    · have : Real.sqrt ((8941396965703279 / 2 ^ 53) ^ 2 + 0 ^ 2 + 0 ^ 2 + (8694122028382684 / 2 ^ 56) ^ 2) ≤ 1 + 1e-15 :=
        Real.sqrt_le_iff.mpr ⟨by norm_num, by norm_num⟩
      linarith
  · unfold Spec.dist
    apply Real.sqrt_le_iff.mpr
    constructor <;> norm_num
  · intro v i k hk hv enf
    rw [far_fromPose] at hv
    apply Arith.alignPaths_fails (pyPos_of_names hk) hv (far_dqInverse acos)
    have e : (doubleArith acos).rebase ⟨farInverse, ⟨-(8694122028382681 / 2 ^ 29), 0, 0, -(8941396965703276 / 2 ^ 26)⟩⟩ enf
        ⟨farRotation, ⟨8694122028382684 / 2 ^ 29, 0, 0, -(8941396965703279 / 2 ^ 26)⟩⟩ =
        ⟨⟨0, 0, 0, 9007199254740991 / 2 ^ 53⟩, ⟨4503599627370496 / 2 ^ 78, 0, 0, 0⟩⟩ := by
      unfold Arith.rebase
      rw [far_product]
      dsimp only
      rw [if_neg (show ¬(9007199254740991 / 2 ^ 53 : ℝ) < 0 by norm_num), ite_self]
    rw [e]
    rintro ⟨_, hx, _⟩
    unfold npIsclose DQuat.identity at hx
    norm_num at hx

/-- **C90**, the trajectory of the end effector: on poses with rotations of length one up to rounding errors the assertion of
`compute_dual_quaternions_with_offset` on the norm never fails, and the lengths of the results are as good as those of the inputs. -/
theorem C90_offset {u : ℝ} {A : Arith} (h : Spec.Machine u A) (hu : u ≤ 4e-7) (v : List DQuat) (c b : DQuat)
    (hv : ∀ a ∈ v, |Spec.len a.rot - 1| ≤ 10 * u) (hc : |Spec.len c.rot - 1| ≤ 10 * u) (hb : |Spec.len b.rot - 1| ≤ 10 * u) :
    ∃ l, A.withOffset v c b = .ok l ∧ l.length = v.length ∧ ∀ a ∈ l, |Spec.len a.rot - 1| ≤ 9 * u := by
  have h0 := h.nonneg
  simp only [len_eq] at hv hc hb ⊢
  obtain ⟨hn, i, hi, i1, i2, i3⟩ := Arith.inverse_of_unit h hb
  have hinv : A.dqInverse b = .ok ⟨i, A.mul (A.mul (-i) b.dual) i⟩ := by
    unfold Arith.dqInverse
    rw [pyAssert_pos hn, Py.ok_bind, hi, Py.ok_bind]
    rfl
  set j : DQuat := ⟨i, A.mul (A.mul (-i) b.dual) i⟩ with hj
  have mulpos : ∀ p q : Quat, (1 - 10 * u) * (‖p.toH‖ * ‖q.toH‖) ≤ ‖(A.mul p q).toH‖ := by
    intro p q
    have t := Arith.mul_near h p q
    have := norm_le_insert' (p.toH * q.toH) (A.mul p q).toH
    rw [norm_sub_rev, norm_mul] at this
    linarith
  norm_num at hu
  have hi5 : (0.9 : ℝ) ≤ ‖i.toH‖ := by
    have t := norm_le_insert' (b.rot.toH)⁻¹ i.toH
    rw [norm_sub_rev] at t
    have hb1 := (abs_le.mp hb).2
    have hbpos : 0 < ‖b.rot.toH‖ := norm_pos_iff.mpr i3
    have e : ‖(b.rot.toH)⁻¹‖ = ‖b.rot.toH‖⁻¹ := norm_inv _
    have : (0.95 : ℝ) ≤ ‖b.rot.toH‖⁻¹ := by
      rw [le_inv_comm₀ (by norm_num) hbpos]
      norm_num
      linarith
    norm_num at this ⊢
    linarith
  have step : ∀ a ∈ v, ∃ r, (do
      let dq_W_E ← A.dqNormalize (A.dqMul (A.dqMul j a) c)
      pyAssert (A.norm dq_W_E.rot > 1e-8)
      pyAssert (npIsclose (A.norm dq_W_E.rot) 1 1e-8)
      return dq_W_E) = Except.ok r ∧ |‖r.rot.toH‖ - 1| ≤ 9 * u := by
    intro a ha
    have ha1 := (abs_le.mp (hv a ha)).1
    have hc1 := (abs_le.mp hc).1
    have ha2 : (0.9 : ℝ) ≤ ‖a.rot.toH‖ := by norm_num; linarith
    have hc2 : (0.9 : ℝ) ≤ ‖c.rot.toH‖ := by norm_num; linarith
    have half : ∀ x y : ℝ, (0.7 : ℝ) ≤ x → (0.9 : ℝ) ≤ y → 0.6 ≤ (1 - 10 * u) * (x * y) := by
      intro x y hx hy
      have t : (0.63 : ℝ) ≤ x * y := by nlinarith
      norm_num at t ⊢
      nlinarith
    have m1 : (0.6 : ℝ) ≤ ‖(A.mul i a.rot).toH‖ := (half _ _ (by norm_num at hi5 ⊢; linarith) ha2).trans (mulpos _ _)
    have m2 : 0 < ‖(A.mul (A.mul i a.rot) c.rot).toH‖ := by
      refine lt_of_lt_of_le ?_ (mulpos _ _)
      apply mul_pos
      · linarith
      · norm_num at m1 hc2
        exact mul_pos (by linarith) (by linarith)
    obtain ⟨r, hr, r1, _⟩ := dqNormalize_near h (a := A.dqMul (A.dqMul j a) c) (norm_pos_iff.mp m2)
    have r2 : |‖r.rot.toH‖ - 1| ≤ 9 * u := by
      have t := abs_norm_sub_norm_le r.rot.toH (‖(A.dqMul (A.dqMul j a) c).rot.toH‖⁻¹ • (A.dqMul (A.dqMul j a) c).rot.toH)
      have e : ‖‖(A.dqMul (A.dqMul j a) c).rot.toH‖⁻¹ • (A.dqMul (A.dqMul j a) c).rot.toH‖ = 1 := by
        rw [norm_smul, norm_inv, norm_norm]
        exact inv_mul_cancel₀ m2.ne'
      rw [e] at t
      exact t.trans r1
    have r3 := abs_le.mp r2
    have n1 := Arith.norm_near h r.rot
    have n2 : |A.norm r.rot - 1| ≤ 17 * u := by
      have t := abs_sub_le (A.norm r.rot) ‖r.rot.toH‖ 1
      nlinarith
    have n3 := abs_le.mp n2
    refine ⟨r, ?_, r2⟩
    rw [hr, Py.ok_bind, pyAssert_pos (show A.norm r.rot > 1e-8 by norm_num; linarith), Py.ok_bind, pyAssert_pos, Py.ok_bind, Py.pure_eq]
    unfold npIsclose
    rw [abs_one]
    refine n2.trans ?_
    norm_num
    linarith
  unfold Arith.withOffset
  rw [hinv, Py.ok_bind]
  clear hv
  induction v with
  | nil => exact ⟨[], rfl, rfl, by simp⟩
  | cons a v ih =>
    obtain ⟨l, e, el, hl⟩ := ih fun x hx => step x (List.mem_cons_of_mem _ hx)
    obtain ⟨r, hr, r2⟩ := step a List.mem_cons_self
    refine ⟨r :: l, ?_, by simp [el], ?_⟩
    · rw [List.mapM_cons, hr, Py.ok_bind, e, Py.ok_bind, Py.pure_eq]
    · intro x hx
      rcases List.mem_cons.mp hx with rfl | hx
      · exact r2
      · exact hl x hx

example : ∃ l, (doubleArith Real.arccos).withOffset [⟨⟨0, 0, 0, 1⟩, ⟨1, 2, 3, 0⟩⟩, ⟨⟨0, 0.6, 0, 0.8⟩, ⟨1e5, 2, 3, 0⟩⟩] ⟨⟨0.6, 0, 0, 0.8⟩, ⟨1, 0, 0, 0⟩⟩
    ⟨⟨0, 1, 0, 0⟩, ⟨0, 0, 7, 0⟩⟩ = .ok l ∧ l.length = 2 ∧ ∀ a ∈ l, |Spec.len a.rot - 1| ≤ 9 * (2⁻¹) ^ 53 := by
  have e : ∀ q : Quat, q.x ^ 2 + q.y ^ 2 + q.z ^ 2 + q.w ^ 2 = 1 → |Spec.len q - 1| ≤ 10 * (2⁻¹) ^ 53 := by
    intro q hq
    unfold Spec.len
    rw [hq, Real.sqrt_one, sub_self, abs_zero]
    positivity
  apply C90_offset (C89_double Real.arccos) (by norm_num)
  · intro a ha
    simp only [List.mem_cons, List.not_mem_nil, or_false] at ha
    rcases ha with rfl | rfl <;> apply e <;> norm_num
  · apply e; norm_num
  · apply e; norm_num

end HandEye
