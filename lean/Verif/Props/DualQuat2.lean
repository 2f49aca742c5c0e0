import Verif.Lemmas.Motion
import Verif.Props.DualQuat1

/-! # Properties C15 to C17 of `dual_quaternion.py` -/

namespace HandEye

open Quaternion

/-! ## C15 point transforms -/

/-- C15: for a dual quaternion built from a pose, `passive_transform_point` rotates and then
translates. -/
theorem C15_rotate_then_translate (p : Pose) (h : p.q.norm = 1) (x : Vec3) :
    (DQuat.fromPose p).passiveTransformPoint x = .ok (p.q.rotateVector x + p.pos) := by
  have hd := Quat.norm_eq_one.mp h
  have hgt : p.q.norm > 1e-8 := by rw [h]; norm_num
  rw [DQuat.passive_unit (fromPose_unit p hgt)]
  congr 1
  apply DQuat.ofVec_injective
  rw [DQuat.motion_unit (fromPose_unit p hgt)]
  have e : DQuat.fromPose p = ⟨p.q, (0.5 : ℝ) • (Quat.ofVec p.pos * p.q)⟩ := by
    unfold DQuat.fromPose
    rw [Quat.normalize_unit hd]
    rfl
  rw [e]
  simp only [Quat.smul_mul, mul_assoc, Quat.mul_conj_unit hd, mul_one, smul_smul]
  have e2 : (2 : ℝ) * 0.5 = 1 := by norm_num
  rw [e2, one_smul, ← mul_assoc]
  have hs : p.q * Quat.ofVec x * p.q.conj = Quat.ofVec (p.q.rotateVector x) := by
    apply Quat.toH_injective
    rw [Quat.toH_mul, Quat.toH_mul, Quat.toH_conj]
    exact (C03_sandwich p.q x h).symm
  rw [hs]
  ext <;> simp

/-- C15: transforming by a product is transforming by the right and then by the left factor. -/
theorem C15_composition (a b : DQuat) (ha : Spec.IsUnit a) (hb : Spec.IsUnit b) (x : Vec3) :
    (a * b).passiveTransformPoint x = b.passiveTransformPoint x >>= a.passiveTransformPoint := by
  rw [DQuat.passive_unit (DQuat.isUnit_mul ha hb), DQuat.passive_unit hb, Py.ok_bind,
    DQuat.passive_unit ha, DQuat.motion_mul ha hb]

/-- C15: distances are preserved. -/
theorem C15_isometry (a : DQuat) (ha : Spec.IsUnit a) (x y x' y' : Vec3)
    (hx : a.passiveTransformPoint x = .ok x') (hy : a.passiveTransformPoint y = .ok y') :
    (x' - y').norm = (x - y).norm := by
  rw [DQuat.passive_unit ha] at hx hy
  obtain rfl := Except.ok.inj hx
  obtain rfl := Except.ok.inj hy
  have key : Quat.ofVec (Spec.motion a x - Spec.motion a y) =
      a.rot * Quat.ofVec (x - y) * a.rot.conj := by
    have e : ∀ u v : Vec3, Quat.ofVec (u - v) = Quat.ofVec u - Quat.ofVec v := by
      intro u v; ext <;> simp
    rw [e, e, DQuat.motion_unit ha, DQuat.motion_unit ha, mul_sub, sub_mul]
    abel
  have hn : ∀ v : Vec3, v.dot v = (Quat.ofVec v).dot (Quat.ofVec v) := by
    intro v; simp [Quat.dot, Vec3.dot]
  have : (Spec.motion a x - Spec.motion a y).dot (Spec.motion a x - Spec.motion a y) =
      (x - y).dot (x - y) := by
    rw [hn, key, Quat.dot_mul_mul, Quat.dot_mul_mul, Quat.dot_conj_conj, DQuat.IsUnit.rot ha, hn]
    ring
  rw [Vec3.norm, Vec3.norm, this]

/-- C15: `active_transform_point` undoes `passive_transform_point` and the other way round. -/
theorem C15_active_inverts_passive (a : DQuat) (ha : Spec.IsUnit a) (x : Vec3) :
    (a.passiveTransformPoint x >>= a.activeTransformPoint) = .ok x ∧
    (a.activeTransformPoint x >>= a.passiveTransformPoint) = .ok x := by
  constructor
  · rw [DQuat.passive_unit ha, Py.ok_bind, DQuat.active_unit ha, DQuat.motion_conj_motion ha]
  · rw [DQuat.active_unit ha, Py.ok_bind, DQuat.passive_unit ha, DQuat.motion_motion_conj ha]

/-- Non-triviality: a unit dual quaternion with rotation and translation. -/
example : Spec.IsUnit ⟨⟨3/5, 0, 0, 4/5⟩, ⟨4, 5, 6, -3⟩⟩ := by
  rw [DQuat.isUnit_iff]; norm_num [Quat.dot]

/-! ## C16 matrices -/

/-- A point in homogeneous coordinates. -/
def Spec.homogeneous (x : Vec3) : Fin 4 → ℝ := ![x.x, x.y, x.z, 1]

theorem toMatrix_unit {a : DQuat} (h : a.rot.dot a.rot = 1) :
    a.toMatrix = .ok (!![a.rot.toRotationMatrix 0 0, a.rot.toRotationMatrix 0 1,
        a.rot.toRotationMatrix 0 2, (((2 : ℝ) • a.dual) * a.rot.conj).x;
      a.rot.toRotationMatrix 1 0, a.rot.toRotationMatrix 1 1, a.rot.toRotationMatrix 1 2,
        (((2 : ℝ) • a.dual) * a.rot.conj).y;
      a.rot.toRotationMatrix 2 0, a.rot.toRotationMatrix 2 1, a.rot.toRotationMatrix 2 2,
        (((2 : ℝ) • a.dual) * a.rot.conj).z;
      0, 0, 0, 1], a) := by
  simp only [DQuat.toMatrix, DQuat.normalize_unit h, Py.ok_bind, DQuat.toPose_unit h]
  rfl

/-- C16: for a unit dual quaternion, `to_matrix` is a homogeneous rigid transformation: its upper left
block is a rotation, its last row is (0,0,0,1), and it maps homogeneous points as the motion does. -/
theorem C16_rigid (a : DQuat) (ha : Spec.IsUnit a) :
    ∃ M, a.toMatrix = .ok (M, a) ∧
      (Matrix.of fun i j : Fin 3 => M i.castSucc j.castSucc) ∈
        Matrix.specialOrthogonalGroup (Fin 3) ℝ ∧
      M 3 = ![0, 0, 0, 1] ∧
      ∀ x, M.mulVec (Spec.homogeneous x) = Spec.homogeneous (Spec.motion a x) := by
  have hd := DQuat.IsUnit.rot ha
  refine ⟨_, toMatrix_unit hd, ?_, ?_, ?_⟩
  · have := C04_special_orthogonal a.rot (DQuat.IsUnit.norm ha)
    convert this using 1
    ext i j
    fin_cases i <;> fin_cases j <;> rfl
  · ext j; fin_cases j <;> rfl
  · intro x
    have hm := DQuat.motion_unit ha x
    have hx := congrArg Quat.x hm
    have hy := congrArg Quat.y hm
    have hz := congrArg Quat.z hm
    simp only [Quat.dot] at hd
    ext i
    fin_cases i
    · simp [Matrix.mulVec, dotProduct, Fin.sum_univ_four, Spec.homogeneous, Quat.toRotationMatrix]
      simp at hx
      rw [hx]
      linear_combination (-x.x) * hd
    · simp [Matrix.mulVec, dotProduct, Fin.sum_univ_four, Spec.homogeneous, Quat.toRotationMatrix]
      simp at hy
      rw [hy]
      linear_combination (-x.y) * hd
    · simp [Matrix.mulVec, dotProduct, Fin.sum_univ_four, Spec.homogeneous, Quat.toRotationMatrix]
      simp at hz
      rw [hz]
      linear_combination (-x.z) * hd
    · simp [Matrix.mulVec, dotProduct, Fin.sum_univ_four, Spec.homogeneous]

/-- A 4x4 matrix is determined by its action on homogeneous points. -/
theorem homogeneous_ext {M N : Matrix (Fin 4) (Fin 4) ℝ}
    (h : ∀ x, M.mulVec (Spec.homogeneous x) = N.mulVec (Spec.homogeneous x)) : M = N := by
  have h0 := h ⟨0, 0, 0⟩
  have h1 := h ⟨1, 0, 0⟩
  have h2 := h ⟨0, 1, 0⟩
  have h3 := h ⟨0, 0, 1⟩
  have c3 : ∀ i, M i 3 = N i 3 := by
    intro i
    have := congrFun h0 i
    simpa [Matrix.mulVec, dotProduct, Fin.sum_univ_four, Spec.homogeneous] using this
  ext i j
  fin_cases j
  · have := congrFun h1 i
    simp [Matrix.mulVec, dotProduct, Fin.sum_univ_four, Spec.homogeneous, c3 i] at this
    exact this
  · have := congrFun h2 i
    simp [Matrix.mulVec, dotProduct, Fin.sum_univ_four, Spec.homogeneous, c3 i] at this
    exact this
  · have := congrFun h3 i
    simp [Matrix.mulVec, dotProduct, Fin.sum_univ_four, Spec.homogeneous, c3 i] at this
    exact this
  · exact c3 i

/-- C16: the matrix of a product is the product of the matrices. -/
theorem C16_product (a b : DQuat) (ha : Spec.IsUnit a) (hb : Spec.IsUnit b) :
    ∃ A B, a.toMatrix = .ok (A, a) ∧ b.toMatrix = .ok (B, b) ∧
      (a * b).toMatrix = .ok (A * B, a * b) := by
  obtain ⟨A, hA, -, -, mA⟩ := C16_rigid a ha
  obtain ⟨B, hB, -, -, mB⟩ := C16_rigid b hb
  obtain ⟨C, hC, -, -, mC⟩ := C16_rigid (a * b) (DQuat.isUnit_mul ha hb)
  refine ⟨A, B, hA, hB, ?_⟩
  rw [hC]
  congr 2
  apply homogeneous_ext
  intro x
  rw [mC, ← Matrix.mulVec_mulVec, mB, mA, DQuat.motion_mul ha hb]

/-- C16: `from_transformation_matrix` recovers the dual quaternion up to sign, except for half turns. -/
theorem C16_roundtrip (a : DQuat) (ha : Spec.IsUnit a) (hw : a.rot.w ≠ 0) :
    ∃ M, a.toMatrix = .ok (M, a) ∧
      DQuat.fromTransformationMatrix M = .ok (if 0 < a.rot.w then a else -a) := by
  have hd := DQuat.IsUnit.rot ha
  refine ⟨_, toMatrix_unit hd, ?_⟩
  unfold DQuat.fromTransformationMatrix
  have hR : (!![a.rot.toRotationMatrix 0 0, a.rot.toRotationMatrix 0 1, a.rot.toRotationMatrix 0 2;
      a.rot.toRotationMatrix 1 0, a.rot.toRotationMatrix 1 1, a.rot.toRotationMatrix 1 2;
      a.rot.toRotationMatrix 2 0, a.rot.toRotationMatrix 2 1, a.rot.toRotationMatrix 2 2] :
      Matrix (Fin 3) (Fin 3) ℝ) = a.rot.toRotationMatrix := by
    ext i j; fin_cases i <;> fin_cases j <;> rfl
  have hq := C05_quaternion_roundtrip a.rot (DQuat.IsUnit.norm ha) hw
  have key : ∀ r : Quat, (r = a.rot ∨ r = -a.rot) →
      DQuat.fromPose ⟨(((2 : ℝ) • a.dual) * a.rot.conj).vec, r⟩ =
        ⟨r, a.dual * a.rot.conj * r⟩ := by
    intro r hr
    have hrr : r.dot r = 1 := by rcases hr with rfl | rfl <;> simpa using hd
    apply DQuat.ext'
    · simp only [DQuat.fromPose, Quat.normalize_unit hrr]
    · simp only [DQuat.fromPose, Quat.normalize_unit hrr]
      have hv : (⟨(((2 : ℝ) • a.dual) * a.rot.conj).vec.x, (((2 : ℝ) • a.dual) * a.rot.conj).vec.y,
          (((2 : ℝ) • a.dual) * a.rot.conj).vec.z, 0⟩ : Quat) = (2 : ℝ) • (a.dual * a.rot.conj) := by
        have : Quat.ofVec (((2 : ℝ) • a.dual) * a.rot.conj).vec = ((2 : ℝ) • a.dual) * a.rot.conj := by
          apply Quat.ofVec_vec
          rw [Quat.smul_mul, Quat.smul_w, DQuat.dual_conj_w, DQuat.IsUnit.orth ha, mul_zero]
        rw [← Quat.smul_mul]
        exact this
      rw [hv, Quat.smul_mul, smul_smul]
      norm_num
  change (Quat.fromRotationMatrix !![a.rot.toRotationMatrix 0 0, a.rot.toRotationMatrix 0 1, a.rot.toRotationMatrix 0 2;
      a.rot.toRotationMatrix 1 0, a.rot.toRotationMatrix 1 1, a.rot.toRotationMatrix 1 2;
      a.rot.toRotationMatrix 2 0, a.rot.toRotationMatrix 2 1, a.rot.toRotationMatrix 2 2] >>=
      fun q => Except.ok (DQuat.fromPose ⟨(((2 : ℝ) • a.dual) * a.rot.conj).vec, q⟩)) = _
  rw [hR, hq, Py.ok_bind]
  congr 1
  have hc := Quat.conj_mul_unit hd
  by_cases h : 0 < a.rot.w
  · rw [if_pos h, if_pos h, key _ (Or.inl rfl)]
    apply DQuat.ext'
    · rfl
    · simp only [mul_assoc, hc, mul_one]
  · rw [if_neg h, if_neg h, key _ (Or.inr rfl)]
    apply DQuat.ext'
    · rfl
    · simp only [mul_assoc, mul_neg, hc, mul_one, DQuat.neg_dual]

/-! ## C17 normalisation -/

/-- C17, for dual quaternions whose parts are orthogonal: `normalize()` establishes
`is_normalized()`. -/
theorem C17_normalize_partial (a : DQuat) (h : a.rot ≠ ⟨0, 0, 0, 0⟩) (ho : a.rot.dot a.dual = 0) :
    ∃ b, a.normalize = .ok b ∧ b.isNormalized = .ok true ∧ Spec.IsUnit b := by
  have hd : a.rot.dot a.rot ≠ 0 := fun h0 => h (Quat.dot_self_eq_zero.mp h0)
  have hn := Quat.norm_pos hd
  have hu : Spec.IsUnit ((1 / a.rot.norm) • a) := by
    rw [DQuat.isUnit_iff]
    simp only [DQuat.smul_rot, DQuat.smul_dual, Quat.smul_dot, Quat.dot_smul, ho]
    refine ⟨?_, by ring⟩
    rw [← Quat.norm_mul_self]
    field_simp
  refine ⟨_, DQuat.normalize_ok hd, ?_, hu⟩
  generalize (1 / a.rot.norm) • a = b at *
  have hb := DQuat.IsUnit.norm hu
  rw [DQuat.isNormalized, DQuat.norm_ok (by rw [hb]; norm_num)]
  simp [hb, DQuat.IsUnit.orth hu]
  norm_num

/-- C17 refuted: `normalize()` does not make the parts orthogonal, so `is_normalized()` can be false
right after it. -/
theorem C17_normalize_refuted :
    ∃ a b, a.rot ≠ ⟨0, 0, 0, 0⟩ ∧ DQuat.normalize a = .ok b ∧ b.isNormalized = .ok false := by
  have hu : (⟨0, 0, 0, 1⟩ : Quat).dot ⟨0, 0, 0, 1⟩ = 1 := by norm_num [Quat.dot]
  refine ⟨⟨⟨0, 0, 0, 1⟩, ⟨0, 0, 0, 1⟩⟩, _, ?_, DQuat.normalize_unit hu, ?_⟩
  · intro h
    have := congrArg Quat.w h
    norm_num at this
  · have hn : (⟨0, 0, 0, 1⟩ : Quat).norm = 1 := Quat.norm_eq_one.mpr hu
    rw [DQuat.isNormalized, DQuat.norm_ok (by simp only [hn]; norm_num)]
    simp only [hn, hu, Py.ok_bind, Py.pure_eq]
    norm_num

/-- C17 refuted: the constructor accepts everything, normalised or not. -/
theorem C17_constructor_refuted (r d : Quat) : DQuat.construct r d = .ok ⟨r, d⟩ := rfl

/-- Non-triviality: a non-unit dual quaternion with orthogonal parts. -/
example : (⟨0, 0, 0, 2⟩ : Quat).dot ⟨1, 2, 3, 0⟩ = 0 := by norm_num [Quat.dot]

end HandEye
