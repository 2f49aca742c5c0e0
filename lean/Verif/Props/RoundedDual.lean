import Verif.Props.Rounded
import Verif.Lemmas.RoundedDual
import Verif.Props.HandEye1

/-! # Property C90: poses and aligned paths in floating-point arithmetic -/

open Quaternion

namespace HandEye

theorem fromPose_near {u : ℝ} {A : Arith} (h : Spec.Machine u A) {p : Pose} (hq : 2e-8 ≤ Spec.len p.q) :
    |‖(A.fromPose p).rot.toH‖ - 1| ≤ 9 * u ∧
    ‖(A.fromPose p).dual.toH - (1 / 2 : ℝ) • (p.pos.toH * (A.fromPose p).rot.toH)‖ ≤ 6 * u * (‖p.pos.toH‖ * ‖(A.fromPose p).rot.toH‖) := by
  have h0 := h.nonneg
  have hs := h.small
  obtain ⟨_, n2, _⟩ := C89_normalize h p.q hq
  rw [len_eq] at n2
  refine ⟨n2, ?_⟩
  set r := (A.fromPose p).rot with hr
  have e0 : A.normalize p.q = r := rfl
  set tq : Quat := ⟨p.pos.x, p.pos.y, p.pos.z, 0⟩ with htq
  have e1 : tq.toH = p.pos.toH := rfl
  have e2 : (A.fromPose p).dual = A.smul 0.5 (A.mul tq r) := rfl
  have e3 : (0.5 : ℝ) = 1 / 2 := by norm_num
  rw [e2, e3, ← e1]
  set T := ‖tq.toH‖ with hT
  set N := ‖r.toH‖ with hN
  have hTN : 0 ≤ T * N := by positivity
  have m1 := Arith.mul_near h tq r
  have m2 := Arith.smul_near h (1 / 2) (A.mul tq r)
  have m3 : ‖(A.mul tq r).toH‖ ≤ (1 + 10 * u) * (T * N) := by
    have := norm_le_insert' (A.mul tq r).toH (tq.toH * r.toH)
    rw [norm_mul] at this
    linarith
  have e4 : ‖(1 / 2 : ℝ) • (A.mul tq r).toH‖ = 1 / 2 * ‖(A.mul tq r).toH‖ := by
    rw [norm_smul, Real.norm_of_nonneg (by norm_num)]
  rw [e4] at m2
  have m4 : ‖(1 / 2 : ℝ) • (A.mul tq r).toH - (1 / 2 : ℝ) • (tq.toH * r.toH)‖ ≤ 5 * u * (T * N) := by
    rw [← smul_sub, norm_smul, Real.norm_of_nonneg (by norm_num)]
    linarith
  have m5 := norm_sub_le_norm_sub_add_norm_sub (A.smul (1 / 2) (A.mul tq r)).toH ((1 / 2 : ℝ) • (A.mul tq r).toH) ((1 / 2 : ℝ) • (tq.toH * r.toH))
  have m6 : u * (1 / 2 * ‖(A.mul tq r).toH‖) ≤ u * (1 / 2 * ((1 + 10 * u) * (T * N))) := mul_le_mul_of_nonneg_left (by linarith) h0
  have m7 : u * (1 / 2 * ((1 + 10 * u) * (T * N))) ≤ u * (T * N) := by
    have : u * (1 / 2 * (1 + 10 * u)) * (T * N) ≤ u * (T * N) := mul_le_mul_of_nonneg_right (by nlinarith) hTN
    linarith
  linarith

theorem vec_dist (q : Quat) (t : Vec3) : Spec.dist q.vec t ≤ ‖q.toH - t.toH‖ := by
  have e : t.toH = (⟨t.x, t.y, t.z, 0⟩ : Quat).toH := rfl
  rw [e, ← gap_eq]
  unfold Spec.dist Spec.gap Quat.vec
  apply Real.sqrt_le_sqrt
  dsimp only
  nlinarith [sq_nonneg q.w]

theorem dqNormalize_near {u : ℝ} {A : Arith} (h : Spec.Machine u A) {a : DQuat} (ha : a.rot.toH ≠ 0) :
    ∃ b, A.dqNormalize a = .ok b ∧ ‖b.rot.toH - ‖a.rot.toH‖⁻¹ • a.rot.toH‖ ≤ 9 * u ∧
      ‖b.dual.toH - ‖a.rot.toH‖⁻¹ • a.dual.toH‖ ≤ 9 * u * (‖a.rot.toH‖⁻¹ * ‖a.dual.toH‖) := by
  have hN : 0 < ‖a.rot.toH‖ := norm_pos_iff.mpr ha
  obtain ⟨r1, r2⟩ := Arith.quot_norm_near h ha a.rot
  obtain ⟨d1, _⟩ := Arith.quot_norm_near h ha a.dual
  refine ⟨⟨A.quot a.rot (A.norm a.rot), A.quot a.dual (A.norm a.rot)⟩, ?_, ?_, ?_⟩
  · unfold Arith.dqNormalize Arith.divScalar
    rw [if_neg r2.ne', if_neg r2.ne']
    rfl
  · have e : ‖‖a.rot.toH‖⁻¹ • a.rot.toH‖ = 1 := by rw [norm_smul, norm_inv, norm_norm, inv_mul_cancel₀ hN.ne']
    rwa [e, mul_one] at r1
  · rwa [norm_smul, norm_inv, norm_norm] at d1

/-- **C90**, poses: a pose that becomes a dual quaternion and a pose again has a position within `50 u |t|` of the original one and an orientation
within `27 u` of the normalised original one or of its negative; its scalar part is not negative. -/
theorem C90_round_trip {u : ℝ} {A : Arith} (h : Spec.Machine u A) (p : Pose) (hq : 2e-8 ≤ Spec.len p.q) :
    ∃ r, A.toPose (A.fromPose p) = .ok r ∧ Spec.dist r.pos p.pos ≤ 50 * u * Spec.dist p.pos ⟨0, 0, 0⟩ ∧
      (‖r.q.toH - (Spec.len p.q)⁻¹ • p.q.toH‖ ≤ 27 * u ∨ ‖r.q.toH + (Spec.len p.q)⁻¹ • p.q.toH‖ ≤ 27 * u) ∧ 0 ≤ r.q.w := by
  have h0 := h.nonneg
  have hs := h.small
  obtain ⟨f1, f2⟩ := fromPose_near h hq
  obtain ⟨n1, _, _⟩ := C89_normalize h p.q hq
  have e0 : A.normalize p.q = (A.fromPose p).rot := rfl
  rw [e0] at n1
  set a := A.fromPose p with ha
  set N := ‖a.rot.toH‖ with hN
  obtain ⟨l1, l2⟩ := abs_le.mp f1
  have hNpos : 0 < N := by linarith
  have hne : a.rot.toH ≠ 0 := norm_pos_iff.mp hNpos
  have hT : Spec.dist p.pos ⟨0, 0, 0⟩ = ‖p.pos.toH‖ := by
    have e : p.pos.toH = (⟨p.pos.x, p.pos.y, p.pos.z, 0⟩ : Quat).toH := rfl
    rw [e, ← len_eq]
    unfold Spec.dist Spec.len
    congr 1
    ring
  rw [hT]
  set T := ‖p.pos.toH‖ with hTdef
  have hT0 : 0 ≤ T := norm_nonneg _
  obtain ⟨b, hb, b1, b2⟩ := dqNormalize_near h hne
  rw [← hN] at b1 b2
  set S := N⁻¹ • a.rot.toH with hS
  have hS1 : ‖S‖ = 1 := by rw [hS, norm_smul, norm_inv, hN, norm_norm, ← hN, inv_mul_cancel₀ hNpos.ne']
  -- the dual part
  have d1 : ‖N⁻¹ • a.dual.toH - (1 / 2 : ℝ) • (p.pos.toH * S)‖ ≤ 6 * u * T := by
    have e : N⁻¹ • a.dual.toH - (1 / 2 : ℝ) • (p.pos.toH * S) = N⁻¹ • (a.dual.toH - (1 / 2 : ℝ) • (p.pos.toH * a.rot.toH)) := by
      rw [hS, smul_sub, mul_smul_comm, smul_comm]
    rw [e, norm_smul, norm_inv, hN, norm_norm, ← hN]
    have := mul_le_mul_of_nonneg_left f2 (inv_pos.mpr hNpos).le
    refine this.trans (le_of_eq ?_)
    field_simp
  have d2 : ‖(1 / 2 : ℝ) • (p.pos.toH * S)‖ = 1 / 2 * T := by
    rw [norm_smul, norm_mul, hS1, mul_one, Real.norm_of_nonneg (by norm_num)]
  have d3 : N⁻¹ * ‖a.dual.toH‖ ≤ (1 / 2 + 6 * u) * T := by
    have := norm_le_insert' (N⁻¹ • a.dual.toH) ((1 / 2 : ℝ) • (p.pos.toH * S))
    rw [norm_smul, norm_inv, Real.norm_of_nonneg hNpos.le, d2] at this
    linarith
  have d4 : ‖b.dual.toH - (1 / 2 : ℝ) • (p.pos.toH * S)‖ ≤ 11 * u * T := by
    have t1 := norm_sub_le_norm_sub_add_norm_sub b.dual.toH (N⁻¹ • a.dual.toH) ((1 / 2 : ℝ) • (p.pos.toH * S))
    have t2 := mul_le_mul_of_nonneg_left d3 (show 0 ≤ 9 * u by linarith)
    have t3 : 9 * u * ((1 / 2 + 6 * u) * T) ≤ 5 * u * T := by
      have : 9 * u * (1 / 2 + 6 * u) * T ≤ 5 * u * T := mul_le_mul_of_nonneg_right (by nlinarith) hT0
      linarith
    linarith
  -- twice the dual part
  have d5 : ‖(A.smul 2 b.dual).toH - p.pos.toH * S‖ ≤ 24 * u * T := by
    have t1 := Arith.smul_near h 2 b.dual
    have e : (2 : ℝ) • b.dual.toH - p.pos.toH * S = (2 : ℝ) • (b.dual.toH - (1 / 2 : ℝ) • (p.pos.toH * S)) := by
      rw [smul_sub, smul_smul]
      norm_num
    have t2 : ‖(2 : ℝ) • b.dual.toH - p.pos.toH * S‖ ≤ 22 * u * T := by
      rw [e, norm_smul, Real.norm_of_nonneg (by norm_num)]
      linarith
    have t3 : ‖(2 : ℝ) • b.dual.toH‖ ≤ (1 + 22 * u) * T := by
      have := norm_le_insert' ((2 : ℝ) • b.dual.toH) (p.pos.toH * S)
      rw [norm_mul, hS1, mul_one] at this
      linarith
    have t4 := mul_le_mul_of_nonneg_left t3 h0
    have t5 : u * ((1 + 22 * u) * T) ≤ 2 * u * T := by
      have : u * (1 + 22 * u) * T ≤ 2 * u * T := mul_le_mul_of_nonneg_right (by nlinarith) hT0
      linarith
    have t6 := norm_sub_le_norm_sub_add_norm_sub (A.smul 2 b.dual).toH ((2 : ℝ) • b.dual.toH) (p.pos.toH * S)
    linarith
  have c1 : ‖b.rot.conj.toH - star S‖ ≤ 9 * u := by
    rw [Quat.toH_conj, ← star_sub, Quaternion.norm_star]
    exact b1
  have t1 := Arith.mul_approx h d5 c1 (show ‖p.pos.toH * S‖ ≤ T by rw [norm_mul, hS1, mul_one]) (show ‖star S‖ ≤ 1 by rw [Quaternion.norm_star, hS1])
  have e1 : p.pos.toH * S * star S = p.pos.toH := by
    rw [mul_assoc, Quaternion.self_mul_star, Quaternion.normSq_eq_norm_mul_self, hS1]
    simp
  rw [e1] at t1
  have t2 : ‖(A.mul (A.smul 2 b.dual) b.rot.conj).toH - p.pos.toH‖ ≤ 50 * u * T := by
    refine t1.trans ?_
    have e : 10 * u * ((T + 24 * u * T) * (1 + 9 * u)) + 24 * u * T * (1 + 9 * u) + T * (9 * u) =
        (10 * u * ((1 + 24 * u) * (1 + 9 * u)) + 24 * u * (1 + 9 * u) + 9 * u) * T := by ring
    rw [e]
    apply mul_le_mul_of_nonneg_right _ hT0
    nlinarith [mul_nonneg h0 h0, mul_nonneg (mul_nonneg h0 h0) h0]
  have q1 : ‖b.rot.toH - (Spec.len p.q)⁻¹ • p.q.toH‖ ≤ 27 * u := by
    have s1 : ‖S - a.rot.toH‖ ≤ 9 * u := by
      have e : S - a.rot.toH = (N⁻¹ * (1 - N)) • a.rot.toH := by
        rw [hS, mul_sub, mul_one, inv_mul_cancel₀ hNpos.ne', sub_smul, one_smul]
      rw [e, norm_smul, norm_mul, norm_inv, Real.norm_of_nonneg hNpos.le, ← hN, Real.norm_eq_abs, abs_sub_comm]
      rw [show N⁻¹ * |N - 1| * N = |N - 1| * (N⁻¹ * N) by ring, inv_mul_cancel₀ hNpos.ne', mul_one]
      exact f1
    have s2 := norm_sub_le_norm_sub_add_norm_sub b.rot.toH S ((Spec.len p.q)⁻¹ • p.q.toH)
    have s3 := norm_sub_le_norm_sub_add_norm_sub S a.rot.toH ((Spec.len p.q)⁻¹ • p.q.toH)
    linarith
  refine ⟨⟨(A.mul (A.smul 2 b.dual) b.rot.conj).vec, if b.rot.w < 0 then -b.rot else b.rot⟩, ?_, (vec_dist _ _).trans t2, ?_, ?_⟩
  · unfold Arith.toPose
    rw [hb]
    rfl
  · dsimp only
    split_ifs
    · right
      rw [Quat.toH_neg, neg_add_eq_sub, norm_sub_rev]
      exact q1
    · exact .inl q1
  · dsimp only
    split_ifs with hw
    · rw [Quat.neg_w]; linarith
    · exact not_lt.mp hw

example : ∃ r, (doubleArith Real.arccos).toPose ((doubleArith Real.arccos).fromPose ⟨⟨1000, 0, 0⟩, ⟨0, 0, 3, 4⟩⟩) = .ok r ∧
    Spec.dist r.pos ⟨1000, 0, 0⟩ ≤ 1e-11 := by
  have e : Spec.len ⟨0, 0, 3, 4⟩ = 5 := by
    unfold Spec.len
    rw [show (0 : ℝ) ^ 2 + 0 ^ 2 + 3 ^ 2 + 4 ^ 2 = 5 ^ 2 by norm_num, Real.sqrt_sq (by norm_num)]
  obtain ⟨r, h1, h2, _⟩ := C90_round_trip (C89_double Real.arccos) ⟨⟨1000, 0, 0⟩, ⟨0, 0, 3, 4⟩⟩ (by rw [e]; norm_num)
  refine ⟨r, h1, h2.trans ?_⟩
  have e2 : Spec.dist ⟨1000, 0, 0⟩ ⟨0, 0, 0⟩ = 1000 := by
    unfold Spec.dist
    norm_num
    rw [show (1000000 : ℝ) = 1000 ^ 2 by norm_num, Real.sqrt_sq (by norm_num)]
  rw [e2]
  norm_num

/-- **C90**, aligned paths: the assertion of `align_paths_at_index` that the first pose is the identity is not violated by rounding errors as
long as the translation is not too large: the first pose is within `20 u` of no rotation and its dual part within `60 u` of zero, relative to the
dual part of the pose at which the path is aligned. -/
theorem C90_align {u : ℝ} {A : Arith} (h : Spec.Machine u A) (hu : u ≤ 4e-10) (v : List DQuat) (i : ℤ) (k : ℕ)
    (hk : Spec.Names v.length i k) (a : DQuat) (ha : v[k]? = some a) (h1 : |Spec.len a.rot - 1| ≤ 1 / 100)
    (h2 : 60 * u * Spec.len a.dual ≤ 1e-8) (enf : Bool) :
    ∃ l f, A.alignPaths v i enf = .ok l ∧ l.length = v.length ∧ l[0]? = some f ∧ ‖f.rot.toH - 1‖ ≤ 20 * u ∧
      Spec.len f.dual ≤ 60 * u * Spec.len a.dual := by
  have h0 := h.nonneg
  have hs := h.small
  rw [len_eq] at h1 h2
  simp only [len_eq]
  obtain ⟨inv, hi, r1, d1⟩ := Arith.inverse_mul_self h h1
  have hpos : pyPos v.length i = some k := pyPos_of_names hk
  set f := A.dqMul inv a with hf
  have one : (⟨0, 0, 0, 1⟩ : Quat).toH = 1 := by ext <;> simp
  have hw := Arith.abs_component (f.rot - ⟨0, 0, 0, 1⟩)
  rw [Quat.toH_sub, one] at hw
  have hd := Arith.abs_component f.dual
  have hu' : 20 * u ≤ 8e-9 := by norm_num at hu ⊢; linarith
  have hreb : A.rebase inv enf a = f := by
    unfold Arith.rebase
    cases enf with
    | false => rfl
    | true =>
      rw [if_pos rfl, if_neg]
      have := (abs_le.mp hw.2.2.2).1
      rw [Quat.sub_w] at this
      rw [← hf]
      norm_num at hu' ⊢
      linarith
  have hclose : (A.rebase inv enf a).allclose DQuat.identity 1e-8 := by
    rw [hreb]
    have t : ∀ x : ℝ, |x| ≤ 1e-8 → npIsclose x 0 1e-8 := by
      intro x hx
      unfold npIsclose
      simpa using hx
    have small : ‖f.rot.toH - 1‖ ≤ 1e-8 := by norm_num at hu' ⊢; linarith
    have hx : |f.rot.x| ≤ 1e-8 := by have := hw.1; rw [Quat.sub_x, sub_zero] at this; linarith
    have hy : |f.rot.y| ≤ 1e-8 := by have := hw.2.1; rw [Quat.sub_y, sub_zero] at this; linarith
    have hz : |f.rot.z| ≤ 1e-8 := by have := hw.2.2.1; rw [Quat.sub_z, sub_zero] at this; linarith
    have hww : |f.rot.w - 1| ≤ 1e-8 := by have := hw.2.2.2; rw [Quat.sub_w] at this; linarith
    refine ⟨⟨t _ hx, t _ hy, t _ hz, ?_⟩, t _ ?_, t _ ?_, t _ ?_, t _ ?_⟩
    · unfold npIsclose
      change |f.rot.w - 1| ≤ 1e-8 + 1e-5 * |1|
      rw [abs_one]
      norm_num at hww ⊢
      linarith
    · linarith [hd.1]
    · linarith [hd.2.1]
    · linarith [hd.2.2.1]
    · linarith [hd.2.2.2]
  refine ⟨_, f, Arith.alignPaths_eq hpos ha hi enf hclose, ?_, ?_, r1, d1⟩
  · have := (pyPos_some hpos).1
    simp only [List.length_map, List.length_append, List.length_drop, List.length_take]
    omega
  · have hlt := (pyPos_some hpos).1
    rw [List.getElem?_map, List.getElem?_append_left (by rw [List.length_drop]; omega), List.getElem?_drop, Nat.add_zero, ha, Option.map_some, hreb]

end HandEye
