import Verif.Lemmas.Rounded
import Verif.Lemmas.Align

/-! # Lemmas about rounding errors of dual quaternions -/

open Quaternion

namespace HandEye

namespace Arith

variable {u : ℝ} {A : Arith}

/-- A product of approximations. -/
theorem mul_approx (h : Spec.Machine u A) {p q : Quat} {P Q : ℍ[ℝ]} {a b P' Q' : ℝ} (hp : ‖p.toH - P‖ ≤ a) (hq : ‖q.toH - Q‖ ≤ b)
    (hP : ‖P‖ ≤ P') (hQ : ‖Q‖ ≤ Q') :
    ‖(A.mul p q).toH - P * Q‖ ≤ 10 * u * ((P' + a) * (Q' + b)) + a * (Q' + b) + P' * b := by
  have h0 := h.nonneg
  have ha : 0 ≤ a := le_trans (norm_nonneg _) hp
  have hb : 0 ≤ b := le_trans (norm_nonneg _) hq
  have hP0 : 0 ≤ P' := le_trans (norm_nonneg _) hP
  have hQ0 : 0 ≤ Q' := le_trans (norm_nonneg _) hQ
  have n1 : ‖p.toH‖ ≤ P' + a := (norm_le_insert' p.toH P).trans (by linarith)
  have n2 : ‖q.toH‖ ≤ Q' + b := (norm_le_insert' q.toH Q).trans (by linarith)
  have e : (A.mul p q).toH - P * Q = ((A.mul p q).toH - p.toH * q.toH) + (p.toH - P) * q.toH + P * (q.toH - Q) := by noncomm_ring
  have b1 : 10 * u * (‖p.toH‖ * ‖q.toH‖) ≤ 10 * u * ((P' + a) * (Q' + b)) :=
    mul_le_mul_of_nonneg_left (mul_le_mul n1 n2 (norm_nonneg _) (by linarith)) (by linarith)
  have b2 : ‖(p.toH - P) * q.toH‖ ≤ a * (Q' + b) := by
    rw [norm_mul]
    exact mul_le_mul hp n2 (norm_nonneg _) ha
  have b3 : ‖P * (q.toH - Q)‖ ≤ P' * b := by
    rw [norm_mul]
    exact mul_le_mul hP hq (norm_nonneg _) hP0
  have b4 := norm_add₃_le (a := (A.mul p q).toH - p.toH * q.toH) (b := (p.toH - P) * q.toH) (c := P * (q.toH - Q))
  rw [← e] at b4
  have := mul_near h p q
  linarith

theorem inverse_of_unit (h : Spec.Machine u A) {q : Quat} (hq : |‖q.toH‖ - 1| ≤ 10 * u) :
    A.norm q > 1e-8 ∧ ∃ i, A.inverse q = .ok i ∧ ‖i.toH - (q.toH)⁻¹‖ ≤ 8 * u ∧ ‖(q.toH)⁻¹‖ ≤ 1 + 11 * u ∧ q.toH ≠ 0 := by
  have h0 := h.nonneg
  have hs := h.small
  obtain ⟨l1, l2⟩ := abs_le.mp hq
  have hN : 0 < ‖q.toH‖ := by linarith
  have hinv : ‖q.toH‖⁻¹ ≤ 1 + 11 * u := by
    rw [inv_le_comm₀ hN (by linarith), inv_le_iff_one_le_mul₀ (by linarith)]
    nlinarith
  constructor
  · have := (abs_le.mp (norm_near h q)).1
    have : 7 * u * ‖q.toH‖ ≤ 7 * u * 2 := mul_le_mul_of_nonneg_left (by linarith) (by linarith)
    norm_num
    linarith
  · obtain ⟨i, hi, hi1⟩ := inverse_near h (norm_pos_iff.mp hN)
    refine ⟨i, hi, hi1.trans ?_, by rw [norm_inv]; exact hinv, norm_pos_iff.mp hN⟩
    calc 7 * u * ‖q.toH‖⁻¹ ≤ 7 * u * (1 + 11 * u) := mul_le_mul_of_nonneg_left hinv (by linarith)
      _ ≤ 8 * u := by nlinarith

/-- The same for a quaternion that is only roughly of length one. -/
theorem inverse_of_near (h : Spec.Machine u A) {q : Quat} (hq : |‖q.toH‖ - 1| ≤ 1 / 100) :
    A.norm q > 1e-8 ∧ ∃ i, A.inverse q = .ok i ∧ ‖i.toH - (q.toH)⁻¹‖ ≤ 7.1 * u ∧ ‖(q.toH)⁻¹‖ ≤ 1.0102 ∧ q.toH ≠ 0 := by
  have h0 := h.nonneg
  have hs := h.small
  obtain ⟨l1, l2⟩ := abs_le.mp hq
  have hN : 0 < ‖q.toH‖ := by linarith
  have hinv : ‖q.toH‖⁻¹ ≤ 1.0102 := by
    rw [inv_le_comm₀ hN (by norm_num)]
    norm_num
    linarith
  constructor
  · have := (abs_le.mp (norm_near h q)).1
    have : 7 * u * ‖q.toH‖ ≤ 7 * u * 2 := mul_le_mul_of_nonneg_left (by linarith) (by linarith)
    norm_num
    linarith
  · obtain ⟨i, hi, hi1⟩ := inverse_near h (norm_pos_iff.mp hN)
    refine ⟨i, hi, hi1.trans ?_, by rw [norm_inv]; exact hinv, norm_pos_iff.mp hN⟩
    calc 7 * u * ‖q.toH‖⁻¹ ≤ 7 * u * 1.0102 := mul_le_mul_of_nonneg_left hinv (by linarith)
      _ ≤ 7.1 * u := by linarith

/-- The inverse of a pose, times the pose. -/
theorem inverse_mul_self (h : Spec.Machine u A) {a : DQuat} (ha : |‖a.rot.toH‖ - 1| ≤ 1 / 100) :
    ∃ i, A.dqInverse a = .ok i ∧ ‖(A.dqMul i a).rot.toH - 1‖ ≤ 20 * u ∧ ‖(A.dqMul i a).dual.toH‖ ≤ 60 * u * ‖a.dual.toH‖ := by
  have h0 := h.nonneg
  have hs := h.small
  obtain ⟨hn, i, hi, hi1, hi2, hne⟩ := inverse_of_near h ha
  obtain ⟨l1, l2⟩ := abs_le.mp ha
  refine ⟨⟨i, A.mul (A.mul (-i) a.dual) i⟩, ?_, ?_, ?_⟩
  · unfold dqInverse
    rw [pyAssert_pos hn, Py.ok_bind, hi]
    rfl
  · have := mul_approx h hi1 (show ‖a.rot.toH - a.rot.toH‖ ≤ 0 by simp) hi2 (show ‖a.rot.toH‖ ≤ 1.01 by linarith)
    rw [inv_mul_cancel₀ hne] at this
    refine this.trans ?_
    nlinarith [mul_nonneg h0 h0, mul_nonneg (mul_nonneg h0 h0) h0]
  · set R := a.rot.toH with hR
    set D := a.dual.toH with hD
    set d := ‖D‖ with hd
    have hd0 : 0 ≤ d := norm_nonneg _
    have hin : ‖i.toH‖ ≤ 1.0174 := (norm_le_insert' i.toH R⁻¹).trans (by linarith)
    have hRn : ‖R‖ ≤ 1.01 := by linarith
    -- the first product
    have m1 : ‖(A.mul i a.dual).toH - i.toH * D‖ ≤ 11 * u * d := by
      refine (mul_near h i a.dual).trans ?_
      have : ‖i.toH‖ * ‖a.dual.toH‖ ≤ 1.0174 * d := mul_le_mul_of_nonneg_right hin hd0
      have := mul_le_mul_of_nonneg_left this (show 0 ≤ 10 * u by linarith)
      have h2 : 10 * u * (1.0174 * d) ≤ 11 * u * d := by
        have : 0.174 * u * d ≤ u * d := mul_le_mul_of_nonneg_right (by nlinarith) hd0
        nlinarith
      linarith
    -- the dual part of the inverse
    have m2 : ‖(A.mul (-i) a.dual).toH - -(i.toH * D)‖ ≤ 11 * u * d := by
      have e : (-i).toH * a.dual.toH = -(i.toH * D) := by rw [Quat.toH_neg, neg_mul]
      have := mul_near h (-i) a.dual
      rw [e, Quat.toH_neg, norm_neg] at this
      refine this.trans ?_
      have : ‖i.toH‖ * ‖a.dual.toH‖ ≤ 1.0174 * d := mul_le_mul_of_nonneg_right hin hd0
      have := mul_le_mul_of_nonneg_left this (show 0 ≤ 10 * u by linarith)
      have h2 : 10 * u * (1.0174 * d) ≤ 11 * u * d := by
        have : 0.174 * u * d ≤ u * d := mul_le_mul_of_nonneg_right (by nlinarith) hd0
        nlinarith
      linarith
    have nID : ‖-(i.toH * D)‖ ≤ 1.0174 * d := by
      rw [norm_neg, norm_mul]
      exact mul_le_mul_of_nonneg_right hin hd0
    have m3 := mul_approx h m2 (show ‖i.toH - i.toH‖ ≤ 0 by simp) nID hin
    have m3' : ‖(A.mul (A.mul (-i) a.dual) i).toH - -(i.toH * D) * i.toH‖ ≤ 23 * u * d := by
      refine m3.trans ?_
      have e : 10 * u * ((1.0174 * d + 11 * u * d) * (1.0174 + 0)) + 11 * u * d * (1.0174 + 0) + 1.0174 * d * 0 =
          (10 * u * ((1.0174 + 11 * u) * 1.0174) + 11 * u * 1.0174) * d := by ring
      rw [e]
      apply mul_le_mul_of_nonneg_right _ hd0
      nlinarith [mul_nonneg h0 h0, mul_nonneg (mul_nonneg h0 h0) h0]
    have n3 : ‖-(i.toH * D) * i.toH‖ ≤ 1.0352 * d := by
      rw [norm_mul]
      have := mul_le_mul nID hin (norm_nonneg _) (by positivity)
      refine this.trans ?_
      have : (1.0174 : ℝ) * 1.0174 ≤ 1.0352 := by norm_num
      nlinarith [mul_le_mul_of_nonneg_right this hd0]
    have m4 := mul_approx h m3' (show ‖a.rot.toH - R‖ ≤ 0 by simp [hR]) n3 hRn
    have m4' : ‖(A.mul (A.mul (A.mul (-i) a.dual) i) a.rot).toH - -(i.toH * D) * i.toH * R‖ ≤ 35 * u * d := by
      refine m4.trans ?_
      have e : 10 * u * ((1.0352 * d + 23 * u * d) * (1.01 + 0)) + 23 * u * d * (1.01 + 0) + 1.0352 * d * 0 =
          (10 * u * ((1.0352 + 23 * u) * 1.01) + 23 * u * 1.01) * d := by ring
      rw [e]
      apply mul_le_mul_of_nonneg_right _ hd0
      nlinarith [mul_nonneg h0 h0, mul_nonneg (mul_nonneg h0 h0) h0]
    -- the exact sum
    have s1 : ‖i.toH * D + -(i.toH * D) * i.toH * R‖ ≤ 9 * u * d := by
      have e : i.toH * D + -(i.toH * D) * i.toH * R = i.toH * D * ((R⁻¹ - i.toH) * R) := by
        rw [sub_mul, inv_mul_cancel₀ hne]
        noncomm_ring
      rw [e, norm_mul, norm_mul, norm_mul, norm_sub_rev]
      have b1 : ‖i.toH‖ * ‖D‖ ≤ 1.0174 * d := mul_le_mul_of_nonneg_right hin hd0
      have b2 : ‖i.toH - R⁻¹‖ * ‖R‖ ≤ 7.1 * u * 1.01 := mul_le_mul hi1 hRn (norm_nonneg _) (by linarith)
      refine (mul_le_mul b1 b2 (by positivity) (by positivity)).trans ?_
      have : 1.0174 * (7.1 * u * 1.01) ≤ 9 * u := by nlinarith [mul_nonneg h0 h0, mul_nonneg (mul_nonneg h0 h0) h0]
      nlinarith [mul_le_mul_of_nonneg_right this hd0]
    set p := A.mul i a.dual with hp
    set q := A.mul (A.mul (A.mul (-i) a.dual) i) a.rot with hq
    have s2 : ‖p.toH + q.toH‖ ≤ 55 * u * d := by
      have e : p.toH + q.toH = (p.toH - i.toH * D) + (q.toH - -(i.toH * D) * i.toH * R) + (i.toH * D + -(i.toH * D) * i.toH * R) := by
        noncomm_ring
      rw [e]
      exact norm_add₃_le.trans (by linarith)
    change ‖(A.add p q).toH‖ ≤ 60 * u * d
    have s3 := (norm_le_insert' (A.add p q).toH (p.toH + q.toH)).trans (add_le_add_right (add_near h p q) _)
    have s4 : u * ‖p.toH + q.toH‖ ≤ u * (55 * u * d) := mul_le_mul_of_nonneg_left s2 h0
    have s5 : u * (55 * u * d) ≤ u * d := by
      have : 55 * u * (u * d) ≤ 1 * (u * d) := mul_le_mul_of_nonneg_right (by linarith) (by positivity)
      linarith
    have s6 : 0 ≤ u * d := by positivity
    linarith

theorem abs_component (q : Quat) : |q.x| ≤ ‖q.toH‖ ∧ |q.y| ≤ ‖q.toH‖ ∧ |q.z| ≤ ‖q.toH‖ ∧ |q.w| ≤ ‖q.toH‖ := by
  have h := norm_sq_quat q
  refine ⟨?_, ?_, ?_, ?_⟩ <;> apply abs_le_of_sq_le_sq _ (norm_nonneg _) <;> rw [h] <;>
    nlinarith [sq_nonneg q.x, sq_nonneg q.y, sq_nonneg q.z, sq_nonneg q.w]

/-- What `align_paths_at_index` does when the alignment pose exists. -/
theorem alignPaths_eq_assert {v : List DQuat} {i : ℤ} {k : ℕ} (hk : pyPos v.length i = some k) {a inv : DQuat} (ha : v[k]? = some a)
    (hi : A.dqInverse a = .ok inv) (enf : Bool) :
    A.alignPaths v i enf = (do
      pyAssert ((A.rebase inv enf a).allclose DQuat.identity 1e-8)
      return (v.drop k ++ v.take k).map (A.rebase inv enf)) := by
  have hlt := (pyPos_some hk).1
  have hget : pyGet v i = .ok a := by
    unfold pyGet
    rw [hk]
    simp only [ha]
  unfold alignPaths
  rw [hget, Py.ok_bind, hi, Py.ok_bind]
  have hb : pyBound (v.map (A.rebase inv enf)).length i = k := by
    rw [List.length_map]
    exact pyBound_of_pyPos hk
  dsimp only
  unfold pyFrom pyTo
  rw [hb, ← List.map_drop, ← List.map_take, ← List.map_append]
  have hfirst : pyAt ((v.drop k ++ v.take k).map (A.rebase inv enf)) 0 = .ok (A.rebase inv enf a) := by
    rw [pyAt_eq_ok, List.getElem?_map]
    have : (v.drop k ++ v.take k)[0]? = some a := by
      rw [List.getElem?_append_left (by rw [List.length_drop]; omega), List.getElem?_drop, Nat.add_zero]
      exact ha
    rw [this]
    rfl
  rw [hfirst, Py.ok_bind]

theorem alignPaths_eq {v : List DQuat} {i : ℤ} {k : ℕ} (hk : pyPos v.length i = some k) {a inv : DQuat} (ha : v[k]? = some a)
    (hi : A.dqInverse a = .ok inv) (enf : Bool) (hc : (A.rebase inv enf a).allclose DQuat.identity 1e-8) :
    A.alignPaths v i enf = .ok ((v.drop k ++ v.take k).map (A.rebase inv enf)) := by
  rw [alignPaths_eq_assert hk ha hi enf, pyAssert_pos hc]
  rfl

theorem alignPaths_fails {v : List DQuat} {i : ℤ} {k : ℕ} (hk : pyPos v.length i = some k) {a inv : DQuat} (ha : v[k]? = some a)
    (hi : A.dqInverse a = .ok inv) (enf : Bool) (hc : ¬(A.rebase inv enf a).allclose DQuat.identity 1e-8) :
    A.alignPaths v i enf = .error .assertion := by
  rw [alignPaths_eq_assert hk ha hi enf, pyAssert_neg hc]
  rfl

end Arith

end HandEye
