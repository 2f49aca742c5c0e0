import Verif.Lemmas.System
import Mathlib.Tactic.LinearCombination

/-! # The kernel of the linear system on exact data -/

namespace HandEye

open Spec (cross)

theorem cancel {a b : ℝ} (ha : a ≠ 0) (h : a * b = 0) : b = 0 := (mul_eq_zero.mp h).resolve_left ha

theorem eq_zero_of_two_axes {b₁ b₂ p : Vec3} (h : cross b₁ b₂ ≠ ⟨0, 0, 0⟩)
    (h1 : cross b₁ p = ⟨0, 0, 0⟩) (h2 : cross b₂ p = ⟨0, 0, 0⟩) : p = ⟨0, 0, 0⟩ := by
  simp only [cross, Vec3.ext_iff, ne_eq] at h h1 h2 ⊢
  obtain ⟨a1, a2, a3⟩ := h1
  obtain ⟨c1, c2, c3⟩ := h2
  by_contra hp
  apply h
  generalize b₁.x = x₁ at *; generalize b₁.y = y₁ at *; generalize b₁.z = z₁ at *
  generalize b₂.x = x₂ at *; generalize b₂.y = y₂ at *; generalize b₂.z = z₂ at *
  generalize p.x = x at *; generalize p.y = y at *; generalize p.z = z at *
  have hp' : x ≠ 0 ∨ y ≠ 0 ∨ z ≠ 0 := by tauto
  rcases hp' with hh | hh | hh <;> refine ⟨?_, ?_, ?_⟩ <;>
    refine cancel hh ?_ <;> grind

/-- `b p - p b` is the pure quaternion `2 b × p`. -/
theorem commutator_vec (b p : Quat) :
    (b * p - p * b).w = 0 ∧ (b * p - p * b).vec = (2 : ℝ) • cross b.vec p.vec := by
  refine ⟨by simp; ring, ?_⟩
  ext <;> simp [cross] <;> ring

theorem vec_mul_pure {c r : Quat} (hc : c.w = 0) :
    (c * r).vec = r.w • c.vec + cross c.vec r.vec := by
  ext <;> simp [cross, hc] <;> ring

/-- The rotation part of the kernel argument. -/
theorem axes_kernel {bs : List DQuat} {r p : Quat}
    (h : ∀ b ∈ bs, ((b.rot * p - p * b.rot) * r).vec = ⟨0, 0, 0⟩)
    (h2 : Spec.TwoAxes bs) (hr : r.w ≠ 0 ∨ ∃ b ∈ bs, b.rot.vec.dot r.vec ≠ 0) :
    p.vec = ⟨0, 0, 0⟩ := by
  have h' : ∀ b ∈ bs, r.w • cross b.rot.vec p.vec + cross (cross b.rot.vec p.vec) r.vec = ⟨0, 0, 0⟩ := by
    intro b hb
    have := h b hb
    rw [vec_mul_pure (commutator_vec _ _).1, (commutator_vec _ _).2] at this
    simp only [Vec3.ext_iff, Vec3.add_x, Vec3.add_y, Vec3.add_z, Vec3.smul_x, Vec3.smul_y,
      Vec3.smul_z, cross] at this ⊢
    obtain ⟨e1, e2, e3⟩ := this
    refine ⟨?_, ?_, ?_⟩ <;> linarith
  obtain ⟨b₁, hb₁, b₂, hb₂, hn⟩ := h2
  have hz : ∀ b ∈ bs, r.w ≠ 0 ∨ (b.rot.vec.dot r.vec ≠ 0) → cross b.rot.vec p.vec = ⟨0, 0, 0⟩ := by
    intro b hb hcond
    have e := h' b hb
    have hperp : b.rot.vec.dot (cross b.rot.vec p.vec) = 0 := by
      simp only [Vec3.dot, cross]; ring
    generalize cross b.rot.vec p.vec = c at *
    by_cases hw : r.w = 0
    · have hd := hcond.resolve_left (fun h => h hw)
      rw [hw] at e
      simp only [Vec3.ext_iff, Vec3.add_x, Vec3.add_y, Vec3.add_z, Vec3.smul_x, Vec3.smul_y,
        Vec3.smul_z, cross, Vec3.dot] at e hd hperp ⊢
      obtain ⟨e1, e2, e3⟩ := e
      refine ⟨?_, ?_, ?_⟩ <;> refine cancel hd ?_ <;> grind
    · simp only [Vec3.ext_iff, Vec3.add_x, Vec3.add_y, Vec3.add_z, Vec3.smul_x, Vec3.smul_y,
        Vec3.smul_z, cross, Vec3.dot] at e ⊢
      obtain ⟨e1, e2, e3⟩ := e
      have hs : c.x * c.x + c.y * c.y + c.z * c.z = 0 := by
        refine cancel hw ?_
        linear_combination c.x * e1 + c.y * e2 + c.z * e3
      refine ⟨?_, ?_, ?_⟩ <;> nlinarith [sq_nonneg c.x, sq_nonneg c.y, sq_nonneg c.z]
  by_cases hw : r.w = 0
  · obtain ⟨b, hb, hd⟩ := hr.resolve_left (fun h => h hw)
    have hbp := hz b hb (Or.inr hd)
    -- some axis is not parallel to b
    obtain ⟨b', hb', hn'⟩ : ∃ b' ∈ bs, cross b.rot.vec b'.rot.vec ≠ ⟨0, 0, 0⟩ := by
      by_contra hc
      push Not at hc
      have c1 := hc b₁ hb₁
      have c2 := hc b₂ hb₂
      apply hn
      have c1' : cross b₁.rot.vec b.rot.vec = ⟨0, 0, 0⟩ := by
        simp only [cross, Vec3.ext_iff] at c1 ⊢; grind
      have c2' : cross b₂.rot.vec b.rot.vec = ⟨0, 0, 0⟩ := by
        simp only [cross, Vec3.ext_iff] at c2 ⊢; grind
      by_contra hne
      have := eq_zero_of_two_axes hne c1' c2'
      rw [this] at hd
      simp [Vec3.dot] at hd
    have e := h' b' hb'
    have hperp : b.rot.vec.dot (cross b'.rot.vec p.vec) = 0 := by
      simp only [Vec3.dot, cross, Vec3.ext_iff] at hbp ⊢; grind
    refine eq_zero_of_two_axes hn' hbp ?_
    generalize cross b'.rot.vec p.vec = c at *
    rw [hw] at e
    simp only [Vec3.ext_iff, Vec3.add_x, Vec3.add_y, Vec3.add_z, Vec3.smul_x, Vec3.smul_y,
      Vec3.smul_z, cross, Vec3.dot] at e hd hperp ⊢
    obtain ⟨e1, e2, e3⟩ := e
    refine ⟨?_, ?_, ?_⟩ <;> refine cancel hd ?_ <;> grind
  · exact eq_zero_of_two_axes hn (hz b₁ hb₁ (Or.inl hw)) (hz b₂ hb₂ (Or.inl hw))

theorem quat_real {p : Quat} (h : p.vec = ⟨0, 0, 0⟩) : p = p.w • (1 : Quat) := by
  simp only [Vec3.ext_iff, Quat.vec_x, Quat.vec_y, Quat.vec_z] at h
  ext <;> simp [h]

/-- The system of exact data: its solutions, as dual quaternions. -/
theorem exact_kernel {bs ws : List DQuat} {X : DQuat} (hX : Spec.IsUnit X) (he : Spec.Exact bs ws X)
    (h2 : Spec.TwoAxes bs) (hr : X.rot.w ≠ 0 ∨ ∃ b ∈ bs, b.rot.vec.dot X.rot.vec ≠ 0)
    {y : DQuat} (hy : ∀ p ∈ bs.zip ws, (p.1 * y - y * p.2).rot.vec = ⟨0, 0, 0⟩ ∧
      (p.1 * y - y * p.2).dual.vec = ⟨0, 0, 0⟩) :
    ∃ l m : ℝ, y = ⟨l • X.rot, l • X.dual + m • X.rot⟩ := by
  set P := y * X.conj with hP
  have hyP : y = P * X := by rw [hP, mul_assoc, DQuat.conj_mul_unit hX, mul_one]
  have hc : ∀ b ∈ bs, ((b * P - P * b) * X).rot.vec = ⟨0, 0, 0⟩ ∧
      ((b * P - P * b) * X).dual.vec = ⟨0, 0, 0⟩ := by
    intro b hb
    obtain ⟨w, hw, hbw⟩ : ∃ w, (b, w) ∈ bs.zip ws ∧ Spec.HandEyeEq b X w := by
      obtain ⟨i, hi, rfl⟩ := List.getElem_of_mem hb
      have hl := he.length_eq
      refine ⟨ws[i], ?_, he.get hi (by omega)⟩
      rw [List.mem_iff_getElem]
      exact ⟨i, by simp; omega, by simp⟩
    have := hy _ hw
    rw [handEyeEq_iff] at hbw
    have e : (b * P - P * b) * X = b * y - y * w := by
      rw [hyP, mul_assoc P, ← hbw]; noncomm_ring
    rw [e]; exact this
  have hp := axes_kernel (p := P.rot) (r := X.rot) (fun b hb => (hc b hb).1) h2 hr
  have hPr := quat_real hp
  have hp2 := axes_kernel (p := P.dual) (r := X.rot) (bs := bs) (by
    intro b hb
    have := (hc b hb).2
    have e : ((b * P - P * b) * X).dual = (b.rot * P.dual - P.dual * b.rot) * X.rot := by
      simp only [DQuat.mul_dual, DQuat.mul_rot, DQuat.sub_dual, DQuat.sub_rot]
      rw [hPr]
      simp only [Quat.smul_mul, Quat.mul_smul', mul_one, one_mul]
      noncomm_ring
    rwa [e] at this) h2 hr
  have hPd := quat_real hp2
  refine ⟨P.rot.w, P.dual.w, ?_⟩
  rw [hyP]
  apply DQuat.ext'
  · simp only [DQuat.mul_rot]
    conv_lhs => rw [hPr]
    rw [Quat.smul_mul, one_mul]
  · simp only [DQuat.mul_dual]
    conv_lhs => rw [hPr, hPd]
    rw [Quat.smul_mul, one_mul, Quat.smul_mul, one_mul]

end HandEye
