import Verif.Lemmas.DualQuat

/-! Helper lemmas about the rigid motion of a dual quaternion. -/

namespace HandEye

open Quaternion

/-- The quaternion `[x, y, z, 0]` of a vector. -/
def Quat.ofVec (v : Vec3) : Quat := ⟨v.x, v.y, v.z, 0⟩

namespace Quat
@[simp] theorem ofVec_x (v : Vec3) : (ofVec v).x = v.x := rfl
@[simp] theorem ofVec_y (v : Vec3) : (ofVec v).y = v.y := rfl
@[simp] theorem ofVec_z (v : Vec3) : (ofVec v).z = v.z := rfl
@[simp] theorem ofVec_w (v : Vec3) : (ofVec v).w = 0 := rfl
@[simp] theorem vec_x (q : Quat) : q.vec.x = q.x := rfl
@[simp] theorem vec_y (q : Quat) : q.vec.y = q.y := rfl
@[simp] theorem vec_z (q : Quat) : q.vec.z = q.z := rfl
@[simp] theorem vec_ofVec (v : Vec3) : (ofVec v).vec = v := rfl

theorem ofVec_vec {q : Quat} (h : q.w = 0) : ofVec q.vec = q := by
  ext <;> simp [h]

theorem normSq_toH (q : Quat) : normSq q.toH = q.dot q := by
  rw [normSq_def']; simp only [toH_re, toH_imI, toH_imJ, toH_imK, dot]; ring

end Quat

namespace DQuat

/-- `motion` in terms of the model's quaternions. -/
theorem motion_eq (a : DQuat) (x : Vec3) :
    Spec.motion a x = ((1 / a.rot.dot a.rot) •
      (a.rot * Quat.ofVec x * a.rot.conj + (2 : ℝ) • (a.dual * a.rot.conj))).vec := by
  have h : (1 / normSq a.rot.toH) • (a.rot.toH * x.toH * star a.rot.toH +
      (2 : ℝ) • (a.dual.toH * star a.rot.toH)) = ((1 / a.rot.dot a.rot) •
      (a.rot * Quat.ofVec x * a.rot.conj + (2 : ℝ) • (a.dual * a.rot.conj))).toH := by
    rw [Quat.toH_smul, Quat.toH_add, Quat.toH_mul, Quat.toH_mul, Quat.toH_conj, Quat.toH_smul,
      Quat.toH_mul, Quat.toH_conj, Quat.normSq_toH]
    rfl
  unfold Spec.motion
  rw [h]
  rfl

theorem sandwich_w (r : Quat) (x : Vec3) : (r * Quat.ofVec x * r.conj).w = 0 := by
  simp; ring

theorem dual_conj_w (r d : Quat) : (d * r.conj).w = r.dot d := by
  simp [Quat.dot]; ring

theorem motion_unit {a : DQuat} (h : Spec.IsUnit a) (x : Vec3) :
    Quat.ofVec (Spec.motion a x) =
      a.rot * Quat.ofVec x * a.rot.conj + (2 : ℝ) • (a.dual * a.rot.conj) := by
  rw [motion_eq, IsUnit.rot h, div_one, one_smul, Quat.ofVec_vec]
  rw [Quat.add_w, Quat.smul_w, sandwich_w, dual_conj_w, IsUnit.orth h]
  ring

theorem ofVec_injective : Function.Injective Quat.ofVec := by
  intro u v h
  have := congrArg Quat.vec h
  simpa using this

/-- Products act by composition. -/
theorem motion_mul {a b : DQuat} (ha : Spec.IsUnit a) (hb : Spec.IsUnit b) (x : Vec3) :
    Spec.motion (a * b) x = Spec.motion a (Spec.motion b x) := by
  apply ofVec_injective
  rw [motion_unit (isUnit_mul ha hb), motion_unit ha, motion_unit hb]
  have h1 := Quat.mul_conj_unit (IsUnit.rot hb)
  simp only [mul_rot, mul_dual, Quat.conj_mul_rev, mul_add, add_mul, mul_assoc, smul_add,
    Quat.mul_smul', Quat.smul_mul]
  rw [← mul_assoc b.rot b.rot.conj a.rot.conj, h1, one_mul]
  abel

theorem motion_one (x : Vec3) : Spec.motion (1 : DQuat) x = x := by
  apply ofVec_injective
  rw [motion_unit isUnit_one]
  simp

/-- `passive_transform_point` applies the motion. -/
theorem passive_eq {a : DQuat} (h : a.rot.dot a.rot ≠ 0) (x : Vec3) :
    a.passiveTransformPoint x = .ok (Spec.motion a x) := by
  have hone : (⟨0, 0, 0, 1⟩ : Quat) = 1 := rfl
  have hpose : DQuat.fromPose ⟨x, ⟨0, 0, 0, 1⟩⟩ = ⟨1, (0.5 : ℝ) • Quat.ofVec x⟩ := by
    apply ext'
    · simp only [fromPose]
      rw [Quat.normalize_unit (by norm_num [Quat.dot])]
      rfl
    · simp only [fromPose]
      rw [Quat.normalize_unit (by norm_num [Quat.dot]), hone, mul_one]
      rfl
  have hn := (Quat.norm_pos h).ne'
  have hr : (a * ⟨1, (0.5 : ℝ) • Quat.ofVec x⟩).rot = a.rot := by simp
  unfold passiveTransformPoint
  simp only [hpose, toPose]
  rw [normalize_ok (by rw [hr]; exact h), hr]
  simp only [Py.ok_bind, Py.pure_eq, motion_eq]
  congr 2
  simp only [smul_dual, smul_rot, mul_dual, mul_rot, mul_one, Quat.conj_smul, Quat.smul_mul,
    Quat.mul_smul', smul_smul, smul_add, add_mul]
  have e1 : 1 / a.rot.norm * (2 * (1 / a.rot.norm * 0.5)) = 1 / a.rot.dot a.rot := by
    rw [← Quat.norm_mul_self]; field_simp; norm_num
  have e2 : 1 / a.rot.norm * (2 * (1 / a.rot.norm)) = 1 / a.rot.dot a.rot * 2 := by
    rw [← Quat.norm_mul_self]; field_simp
  rw [e1, e2]

theorem passive_unit {a : DQuat} (h : Spec.IsUnit a) (x : Vec3) :
    a.passiveTransformPoint x = .ok (Spec.motion a x) :=
  passive_eq (by rw [IsUnit.rot h]; exact one_ne_zero) x

theorem active_unit {a : DQuat} (h : Spec.IsUnit a) (x : Vec3) :
    a.activeTransformPoint x = .ok (Spec.motion a.conj x) := by
  simp only [activeTransformPoint, inverse_unit h, Py.ok_bind, passive_unit (isUnit_conj h)]

theorem motion_conj_motion {a : DQuat} (h : Spec.IsUnit a) (x : Vec3) :
    Spec.motion a.conj (Spec.motion a x) = x := by
  rw [← motion_mul (isUnit_conj h) h, conj_mul_unit h, motion_one]

theorem motion_motion_conj {a : DQuat} (h : Spec.IsUnit a) (x : Vec3) :
    Spec.motion a (Spec.motion a.conj x) = x := by
  rw [← motion_mul h (isUnit_conj h), mul_conj_unit h, motion_one]

end DQuat

end HandEye
