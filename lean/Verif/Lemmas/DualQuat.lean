import Verif.Lemmas.Py
import Verif.Lemmas.Quat
import Verif.Spec.Motion

/-! Helper lemmas about dual quaternions. -/

namespace HandEye

open Quaternion

namespace DQuat

/-- The constructor's assertion never fires: it tests a bound method, which is always true. -/
theorem construct_eq_ok (r d : Quat) : construct r d = .ok ⟨r, d⟩ := rfl

@[simp] theorem add_rot (a b : DQuat) : (a + b).rot = a.rot + b.rot := rfl
@[simp] theorem add_dual (a b : DQuat) : (a + b).dual = a.dual + b.dual := rfl
@[simp] theorem sub_rot (a b : DQuat) : (a - b).rot = a.rot - b.rot := rfl
@[simp] theorem sub_dual (a b : DQuat) : (a - b).dual = a.dual - b.dual := rfl
@[simp] theorem neg_rot (a : DQuat) : (-a).rot = -a.rot := rfl
@[simp] theorem neg_dual (a : DQuat) : (-a).dual = -a.dual := rfl
@[simp] theorem smul_rot (s : ℝ) (a : DQuat) : (s • a).rot = s • a.rot := rfl
@[simp] theorem smul_dual (s : ℝ) (a : DQuat) : (s • a).dual = s • a.dual := rfl
@[simp] theorem mul_rot (a b : DQuat) : (a * b).rot = a.rot * b.rot := rfl
@[simp] theorem mul_dual (a b : DQuat) : (a * b).dual = a.rot * b.dual + a.dual * b.rot := rfl
@[simp] theorem conj_rot (a : DQuat) : a.conj.rot = a.rot.conj := rfl
@[simp] theorem conj_dual (a : DQuat) : a.conj.dual = a.dual.conj := rfl
@[simp] theorem identity_rot : identity.rot = 1 := rfl
@[simp] theorem identity_dual : identity.dual = 0 := rfl

instance : Zero DQuat := ⟨⟨0, 0⟩⟩
instance : One DQuat := ⟨identity⟩

@[simp] theorem zero_rot : (0 : DQuat).rot = 0 := rfl
@[simp] theorem zero_dual : (0 : DQuat).dual = 0 := rfl
@[simp] theorem one_rot : (1 : DQuat).rot = 1 := rfl
@[simp] theorem one_dual : (1 : DQuat).dual = 0 := rfl
theorem one_eq : (1 : DQuat) = identity := rfl

theorem ext' {a b : DQuat} (h1 : a.rot = b.rot) (h2 : a.dual = b.dual) : a = b :=
  DQuat.ext h1 h2

instance : Ring DQuat where
  add_assoc a b c := ext' (add_assoc _ _ _) (add_assoc _ _ _)
  zero_add a := ext' (zero_add _) (zero_add _)
  add_zero a := ext' (add_zero _) (add_zero _)
  add_comm a b := ext' (add_comm _ _) (add_comm _ _)
  left_distrib a b c := ext' (by simp [mul_add]) (by simp [mul_add]; abel)
  right_distrib a b c := ext' (by simp [add_mul]) (by simp [add_mul]; abel)
  zero_mul a := ext' (by simp) (by simp)
  mul_zero a := ext' (by simp) (by simp)
  mul_assoc a b c := ext' (by simp [mul_assoc]) (by simp [mul_add, add_mul, mul_assoc]; abel)
  one_mul a := ext' (by simp) (by simp)
  mul_one a := ext' (by simp) (by simp)
  neg_add_cancel a := ext' (neg_add_cancel _) (neg_add_cancel _)
  sub_eq_add_neg a b := ext' (sub_eq_add_neg _ _) (sub_eq_add_neg _ _)
  nsmul := nsmulRec
  zsmul := zsmulRec

theorem smul_mul (s : ℝ) (a b : DQuat) : (s • a) * b = s • (a * b) :=
  ext' (by simp [Quat.smul_mul]) (by simp [Quat.smul_mul, smul_add])

theorem mul_smul' (s : ℝ) (a b : DQuat) : a * (s • b) = s • (a * b) :=
  ext' (by simp [Quat.mul_smul']) (by simp [Quat.mul_smul', smul_add])

theorem conj_mul_rev (a b : DQuat) : (a * b).conj = b.conj * a.conj :=
  ext' (by simp [Quat.conj_mul_rev]) (by simp [Quat.conj_mul_rev]; abel)

@[simp] theorem conj_conj (a : DQuat) : a.conj.conj = a := ext' (by simp) (by simp)

theorem isUnit_iff {a : DQuat} : Spec.IsUnit a ↔ a.rot.dot a.rot = 1 ∧ a.rot.dot a.dual = 0 := by
  unfold Spec.IsUnit
  rw [normSq_def']
  simp only [Quat.toH_re, Quat.toH_imI, Quat.toH_imJ, Quat.toH_imK, re_mul, re_star, imI_star,
    imJ_star, imK_star, Quat.dot]
  constructor <;> rintro ⟨h1, h2⟩ <;> constructor <;> linarith

theorem IsUnit.rot {a : DQuat} (h : Spec.IsUnit a) : a.rot.dot a.rot = 1 := (isUnit_iff.mp h).1
theorem IsUnit.orth {a : DQuat} (h : Spec.IsUnit a) : a.rot.dot a.dual = 0 := (isUnit_iff.mp h).2
theorem IsUnit.norm {a : DQuat} (h : Spec.IsUnit a) : a.rot.norm = 1 :=
  Quat.norm_eq_one.mpr (IsUnit.rot h)

/-- `r d* + d r* = 2 (r·d)`. -/
theorem cross_conj (r d : Quat) : r * d.conj + d * r.conj = (2 * r.dot d) • (1 : Quat) := by
  ext <;> simp [Quat.dot] <;> ring

theorem cross_conj' (r d : Quat) : r.conj * d + d.conj * r = (2 * r.dot d) • (1 : Quat) := by
  ext <;> simp [Quat.dot] <;> ring

theorem mul_conj_unit {a : DQuat} (h : Spec.IsUnit a) : a * a.conj = 1 := by
  apply ext'
  · simpa using Quat.mul_conj_unit (IsUnit.rot h)
  · simp [cross_conj, IsUnit.orth h]

theorem conj_mul_unit {a : DQuat} (h : Spec.IsUnit a) : a.conj * a = 1 := by
  apply ext'
  · simpa using Quat.conj_mul_unit (IsUnit.rot h)
  · simp [cross_conj', IsUnit.orth h]

theorem isUnit_iff_mul_conj {a : DQuat} : Spec.IsUnit a ↔ a * a.conj = 1 := by
  refine ⟨mul_conj_unit, fun h => isUnit_iff.mpr ?_⟩
  have h1 := congrArg (fun x : DQuat => x.rot.w) h
  have h2 := congrArg (fun x : DQuat => x.dual.w) h
  simp at h1 h2
  simp only [Quat.dot]
  constructor <;> linarith

theorem isUnit_conj {a : DQuat} (h : Spec.IsUnit a) : Spec.IsUnit a.conj := by
  rw [isUnit_iff] at *
  simpa using h

theorem isUnit_neg {a : DQuat} (h : Spec.IsUnit a) : Spec.IsUnit (-a) := by
  rw [isUnit_iff] at *
  simpa using h

theorem isUnit_mul {a b : DQuat} (ha : Spec.IsUnit a) (hb : Spec.IsUnit b) : Spec.IsUnit (a * b) := by
  rw [isUnit_iff_mul_conj, conj_mul_rev, mul_assoc, ← mul_assoc b, mul_conj_unit hb, one_mul,
    mul_conj_unit ha]

theorem isUnit_one : Spec.IsUnit (1 : DQuat) := by
  rw [isUnit_iff]; simp [Quat.dot]

theorem norm_ok {a : DQuat} (h : a.rot.norm > 1e-8) :
    a.norm = .ok (a.rot.norm, a.rot.dot a.dual / a.rot.norm) := by
  simp [norm, pyAssert_pos h]

theorem norm_error {a : DQuat} (h : ¬ a.rot.norm > 1e-8) : a.norm = .error .assertion := by
  simp [norm, pyAssert_neg h]

theorem dot_ne_zero_of_norm {q : Quat} (h : q.norm > 1e-8) : q.dot q ≠ 0 := by
  intro h0
  rw [Quat.norm, h0, Real.sqrt_zero] at h
  norm_num at h

theorem inverse_ok {a : DQuat} (h : a.rot.norm > 1e-8) :
    a.inverse = .ok ⟨a.rot.inv', (-a.rot.inv') * a.dual * a.rot.inv'⟩ := by
  simp [inverse, norm_ok h, pyAssert_pos h, Quat.inverse_ok (dot_ne_zero_of_norm h)]

theorem inverse_error {a : DQuat} (h : ¬ a.rot.norm > 1e-8) : a.inverse = .error .assertion := by
  simp [inverse, norm_error h]

theorem inverse_unit {a : DQuat} (h : Spec.IsUnit a) : a.inverse = .ok a.conj := by
  have hn : a.rot.norm > 1e-8 := by rw [IsUnit.norm h]; norm_num
  rw [inverse_ok hn]
  congr 1
  apply ext'
  · exact Quat.inv'_unit (IsUnit.rot h)
  · simp only [Quat.inv'_unit (IsUnit.rot h), conj_dual]
    have hc := cross_conj' a.rot a.dual
    rw [IsUnit.orth h, mul_zero, zero_smul] at hc
    have : a.rot.conj * a.dual = -(a.dual.conj * a.rot) := eq_neg_of_add_eq_zero_left hc
    rw [neg_mul, this, neg_neg, mul_assoc, Quat.mul_conj_unit (IsUnit.rot h), mul_one]

theorem normalize_ok {a : DQuat} (h : a.rot.dot a.rot ≠ 0) :
    a.normalize = .ok ((1 / a.rot.norm) • a) := by
  have hn := (Quat.norm_pos h).ne'
  simp only [normalize, Quat.divScalar_ok hn, Py.ok_bind]
  rfl

theorem normalize_error {a : DQuat} (h : a.rot.dot a.rot = 0) :
    a.normalize = .error .nonFinite := by
  have : a.rot.norm = 0 := by rw [Quat.norm, h, Real.sqrt_zero]
  simp [normalize, this, Quat.divScalar_error]

theorem one_smul' (a : DQuat) : (1 : ℝ) • a = a := ext' (one_smul _ _) (one_smul _ _)

theorem normalize_unit {a : DQuat} (h : a.rot.dot a.rot = 1) : a.normalize = .ok a := by
  rw [normalize_ok (by rw [h]; exact one_ne_zero), Quat.norm_eq_one.mpr h, div_one, one_smul']

theorem toPose_unit {a : DQuat} (h : a.rot.dot a.rot = 1) :
    a.toPose = .ok (⟨(((2 : ℝ) • a.dual) * a.rot.conj).vec,
      if a.rot.w < 0 then -a.rot else a.rot⟩, a) := by
  simp [toPose, normalize_unit h]

end DQuat

end HandEye
