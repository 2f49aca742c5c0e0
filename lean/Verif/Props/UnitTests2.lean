import Verif.Props.UnitTests
import Verif.Props.DualQuat2

/-!
# C82: the assertions of the unit tests of dual quaternions hold in the model

One theorem for each test of `test/test_dual_quaternion.py` (TD below), with the numbers of the test and the tolerances of
`numpy.testing`.
-/

namespace HandEye

open Spec

theorem dquatClose_of_eq {rtol atol : ℝ} {a d : DQuat} (h : a = d) (hr : 0 ≤ rtol) (ha : 0 ≤ atol) :
    DQuatClose rtol atol a d := by
  subst h
  exact ⟨quatClose_of_eq rfl hr ha, quatClose_of_eq rfl hr ha⟩

/-- TD:14-25 `test_addition`. -/
theorem C82_dq_addition : DQuatClose 1e-6 0 ((⟨⟨1, 2, 3, 4⟩, ⟨1, 3, 3, 0⟩⟩ : DQuat) + ⟨⟨3, 5, 3, 2⟩, ⟨-4, 2, 3, 0⟩⟩)
    ⟨⟨4, 7, 6, 6⟩, ⟨-3, 5, 6, 0⟩⟩ := by
  refine dquatClose_of_eq (DQuat.ext' ?_ ?_) (by norm_num) (by norm_num) <;> simp only [DQuat.add_rot, DQuat.add_dual] <;>
    ext <;> norm_num

/-- TD:27-38 `test_multiplication`, for all dual quaternions; and the numbers of the test. -/
theorem C82_dq_multiplication (a b : DQuat) :
    a * b = ⟨a.rot * b.rot, a.rot * b.dual + a.dual * b.rot⟩ ∧
    (⟨⟨1, 2, 3, 4⟩, ⟨1, 3, 3, 0⟩⟩ : DQuat) * ⟨⟨1, 4, 5, 1⟩, ⟨-4, 2, 3, 0⟩⟩ =
      ⟨⟨3, 16, 25, -20⟩, ⟨-12, -6, 26, -37⟩⟩ := by
  refine ⟨rfl, DQuat.ext' ?_ ?_⟩ <;> simp only [DQuat.mul_rot, DQuat.mul_dual] <;> ext <;> norm_num

/-- TD:40-46 `test_multiplication_with_scalar`. -/
theorem C82_dq_multiplication_with_scalar :
    DQuatClose 1e-7 0 ((2.5 : ℝ) • (⟨⟨0.5, 0.5, -0.5, 0.5⟩, ⟨1, 3, 3, 0⟩⟩ : DQuat))
      ⟨⟨1.25, 1.25, -1.25, 1.25⟩, ⟨2.5, 7.5, 7.5, 0⟩⟩ := by
  refine dquatClose_of_eq (DQuat.ext' ?_ ?_) (by norm_num) (by norm_num) <;> simp only [DQuat.smul_rot, DQuat.smul_dual] <;>
    ext <;> norm_num

/-- What `test_division` and `test_inverse` check holds for all dual quaternions that can be inverted. -/
theorem mul_inverse_identity {a i : DQuat} (h : a.inverse = .ok i) : a * i = DQuat.identity := by
  by_cases hn : a.rot.norm > 1e-8
  · rw [DQuat.inverse_ok hn] at h
    injection h with h
    have hd := DQuat.dot_ne_zero_of_norm hn
    subst h
    rw [← DQuat.one_eq]
    apply DQuat.ext'
    · exact Quat.mul_inv' hd
    · simp only [DQuat.mul_dual]
      rw [neg_mul, neg_mul, mul_neg, ← mul_assoc, ← mul_assoc, Quat.mul_inv' hd, one_mul]
      exact neg_add_cancel _
  · rw [DQuat.inverse_error hn] at h
    cases h

/-- TD:48-54 `test_division`: the part that is not commented out. -/
theorem C82_dq_division : ∃ r, (⟨⟨1, 2, 3, 4⟩, ⟨1, 3, 3, 6⟩⟩ : DQuat).divDQuat ⟨⟨1, 2, 3, 4⟩, ⟨1, 3, 3, 6⟩⟩ = .ok r ∧
    DQuatClose 1e-7 1e-6 r ⟨⟨0, 0, 0, 1⟩, ⟨0, 0, 0, 0⟩⟩ := by
  have hn : (⟨⟨1, 2, 3, 4⟩, ⟨1, 3, 3, 6⟩⟩ : DQuat).rot.norm > 1e-8 := by
    dsimp only; rw [norm_1234]; linarith [sqrt30_bounds.1]
  have hi := DQuat.inverse_ok hn
  refine ⟨_, by unfold DQuat.divDQuat; rw [hi]; rfl, dquatClose_of_eq (mul_inverse_identity hi) (by norm_num) (by norm_num)⟩

/-- TD:69-74 `test_division_with_scalar`. -/
theorem C82_dq_division_with_scalar : ∃ r, (⟨⟨0.5, 0.5, -0.5, 0.5⟩, ⟨1, 3, 3, 0⟩⟩ : DQuat).divScalar 2 = .ok r ∧
    DQuatClose 1e-7 0 r ⟨⟨0.25, 0.25, -0.25, 0.25⟩, ⟨0.5, 1.5, 1.5, 0⟩⟩ := by
  refine ⟨_, by unfold DQuat.divScalar; rw [Quat.divScalar_ok (by norm_num), Py.ok_bind, Quat.divScalar_ok (by norm_num)]; rfl,
    dquatClose_of_eq (DQuat.ext' ?_ ?_) (by norm_num) (by norm_num)⟩ <;> ext <;> norm_num

/-- TD:76-81 `test_conjugate`. -/
theorem C82_dq_conjugate : DQuatClose 1e-7 1e-6 (⟨⟨1, 2, 3, 4⟩, ⟨1, 3, 3, 5⟩⟩ : DQuat).conj
    ⟨⟨-1, -2, -3, 4⟩, ⟨-1, -3, -3, 5⟩⟩ :=
  dquatClose_of_eq rfl (by norm_num) (by norm_num)

/-- TD:83-94 `test_conjugate_identity`, for all dual quaternions. -/
theorem C82_dq_conjugate_identity (a : DQuat) :
    DQuatClose 1e-7 1e-6 (a * a.conj) ⟨a.rot * a.rot.conj, a.rot.conj * a.dual + a.dual.conj * a.rot⟩ := by
  refine dquatClose_of_eq (DQuat.ext' rfl ?_) (by norm_num) (by norm_num)
  change a.rot * a.dual.conj + a.dual * a.rot.conj = _
  rw [DQuat.cross_conj, DQuat.cross_conj']

theorem norm_1111 : (⟨1, 1, 1, 1⟩ : Quat).norm = 2 := by
  unfold Quat.norm Quat.dot
  rw [show (1 : ℝ) * 1 + 1 * 1 + 1 * 1 + 1 * 1 = 2 ^ 2 by norm_num, Real.sqrt_sq (by norm_num)]

/-- TD:96-108 `test_normalize`. -/
theorem C82_dq_normalize :
    (∃ r, (⟨⟨1, 2, 3, 4⟩, ⟨1, 3, 3, 0⟩⟩ : DQuat).normalize = .ok r ∧
      DQuatClose 1e-7 0 r
        ⟨⟨0.18257419, 0.36514837, 0.54772256, 0.73029674⟩, ⟨0.18257419, 0.54772256, 0.54772256, 0⟩⟩) ∧
    ∃ r, (DQuat.fromPose ⟨⟨1, 2, 3⟩, ⟨1, 1, 1, 1⟩⟩).normalize = .ok r ∧
      DQuatClose 1e-7 0 r ⟨⟨0.5, 0.5, 0.5, 0.5⟩, ⟨0, 1, 0.5, -1.5⟩⟩ := by
  constructor
  · have hd : (⟨⟨1, 2, 3, 4⟩, ⟨1, 3, 3, 0⟩⟩ : DQuat).rot.dot (⟨⟨1, 2, 3, 4⟩, ⟨1, 3, 3, 0⟩⟩ : DQuat).rot ≠ 0 := by
      norm_num [Quat.dot]
    refine ⟨_, DQuat.normalize_ok hd, ?_⟩
    dsimp only
    rw [norm_1234]
    obtain ⟨h1, h2⟩ := inv_sqrt30_bounds
    generalize 1 / Real.sqrt 30 = k at *
    constructor <;> constructor <;> simp only [DQuat.smul_rot, DQuat.smul_dual, Quat.smul_x, Quat.smul_y, Quat.smul_z,
      Quat.smul_w, AssertClose] <;> rw [abs_le] <;> norm_num [abs_of_pos] <;> constructor <;> linarith
  · have hf : DQuat.fromPose ⟨⟨1, 2, 3⟩, ⟨1, 1, 1, 1⟩⟩ = ⟨⟨0.5, 0.5, 0.5, 0.5⟩, ⟨0, 1, 0.5, -1.5⟩⟩ := by
      have hq : (⟨1, 1, 1, 1⟩ : Quat).normalize = ⟨0.5, 0.5, 0.5, 0.5⟩ := by
        unfold Quat.normalize
        rw [norm_1111, if_pos (by norm_num)]
        norm_num
      unfold DQuat.fromPose
      dsimp only
      rw [hq]
      apply DQuat.ext'
      · rfl
      · ext <;> norm_num
    rw [hf]
    exact ⟨_, DQuat.normalize_unit (by norm_num [Quat.dot]), dquatClose_of_eq rfl (by norm_num) (by norm_num)⟩

/-- TD:110-116 `test_scalar`. -/
theorem C82_dq_scalar : ∃ r, (⟨⟨1, 2, 3, 4⟩, ⟨1, 3, 3, 1⟩⟩ : DQuat).scalar = .ok r ∧
    DQuatClose 1e-7 1e-6 r ⟨⟨0, 0, 0, 4⟩, ⟨0, 0, 0, 1⟩⟩ := by
  have e : (0.5 : ℝ) • ((⟨⟨1, 2, 3, 4⟩, ⟨1, 3, 3, 1⟩⟩ : DQuat) + (⟨⟨1, 2, 3, 4⟩, ⟨1, 3, 3, 1⟩⟩ : DQuat).conj) =
      ⟨⟨0, 0, 0, 4⟩, ⟨0, 0, 0, 1⟩⟩ := by
    apply DQuat.ext' <;> simp only [DQuat.smul_rot, DQuat.smul_dual, DQuat.add_rot, DQuat.add_dual, DQuat.conj, Quat.conj] <;>
      ext <;> norm_num
  refine ⟨_, ?_, dquatClose_of_eq rfl (by norm_num) (by norm_num)⟩
  unfold DQuat.scalar
  rw [e]
  dsimp only
  rw [pyAssert_pos (by norm_num)]
  rfl

/-- TD:118-123 `test_inverse`. -/
theorem C82_dq_inverse : ∃ i, (⟨⟨1, 2, 3, 4⟩, ⟨5, 6, 7, 8⟩⟩ : DQuat).inverse = .ok i ∧
    DQuatClose 1e-7 1e-6 (⟨⟨1, 2, 3, 4⟩, ⟨5, 6, 7, 8⟩⟩ * i) ⟨⟨0, 0, 0, 1⟩, ⟨0, 0, 0, 0⟩⟩ := by
  have hn : (⟨⟨1, 2, 3, 4⟩, ⟨5, 6, 7, 8⟩⟩ : DQuat).rot.norm > 1e-8 := by
    dsimp only; rw [norm_1234]; linarith [sqrt30_bounds.1]
  have hi := DQuat.inverse_ok hn
  exact ⟨_, hi, dquatClose_of_eq (mul_inverse_identity hi) (by norm_num) (by norm_num)⟩

/-- TD:125-130 `test_equality`, for all dual quaternions. -/
theorem C82_dq_equality (a : DQuat) : a.pyEq a := by
  refine ⟨⟨?_, ?_, ?_, ?_⟩, ?_, ?_, ?_, ?_⟩ <;> exact npIsclose_self _ (by norm_num)

theorem fromPose_of_unit (pos : Vec3) {q : Quat} (h : q.dot q = 1) :
    DQuat.fromPose ⟨pos, q⟩ = ⟨q, (0.5 : ℝ) • (⟨pos.x, pos.y, pos.z, 0⟩ * q)⟩ := by
  unfold DQuat.fromPose
  dsimp only
  rw [Quat.normalize_unit h]

/-- The position of a pose comes back. -/
theorem fromPose_position (pos : Vec3) {q : Quat} (h : q.dot q = 1) :
    ((2 : ℝ) • (DQuat.fromPose ⟨pos, q⟩).dual) * (DQuat.fromPose ⟨pos, q⟩).rot.conj = ⟨pos.x, pos.y, pos.z, 0⟩ := by
  rw [fromPose_of_unit pos h]
  dsimp only
  rw [smul_smul, show (2 : ℝ) * 0.5 = 1 by norm_num, one_smul, mul_assoc, Quat.mul_conj_unit h, mul_one]

/-- What the two poses of `test_conversions` have in common. -/
theorem conversion_of_unit (pos : Vec3) {q : Quat} (h : q.dot q = 1) :
    (DQuat.fromPose ⟨pos, q⟩).toPose = .ok (⟨pos, if q.w < 0 then -q else q⟩, DQuat.fromPose ⟨pos, q⟩) ∧
    (DQuat.fromPose ⟨pos, q⟩).toMatrix = .ok (!![q.toRotationMatrix 0 0, q.toRotationMatrix 0 1, q.toRotationMatrix 0 2, pos.x;
      q.toRotationMatrix 1 0, q.toRotationMatrix 1 1, q.toRotationMatrix 1 2, pos.y;
      q.toRotationMatrix 2 0, q.toRotationMatrix 2 1, q.toRotationMatrix 2 2, pos.z; 0, 0, 0, 1], DQuat.fromPose ⟨pos, q⟩) := by
  have hr : (DQuat.fromPose ⟨pos, q⟩).rot = q := by rw [fromPose_of_unit pos h]
  have hu : (DQuat.fromPose ⟨pos, q⟩).rot.dot (DQuat.fromPose ⟨pos, q⟩).rot = 1 := by rw [hr, h]
  constructor
  · rw [DQuat.toPose_unit hu, fromPose_position pos h, hr]; rfl
  · rw [toMatrix_unit hu, fromPose_position pos h, hr]

/-- TD:132-150 `test_conversions`.  The first pose comes back as it is, the second one with the other quaternion of the same
rotation. -/
theorem C82_dq_conversions :
    (∃ out a M, (DQuat.fromPose ⟨⟨1, 2, 3⟩, ⟨1, 0, 0, 0⟩⟩).toPose = .ok (out, a) ∧ a.toMatrix = .ok (M, a) ∧
      out = ⟨⟨1, 2, 3⟩, ⟨1, 0, 0, 0⟩⟩ ∧
      ∀ i j, AssertClose 1e-7 1e-6 (M i j)
        ((!![1, 0, 0, 1; 0, -1, 0, 2; 0, 0, -1, 3; 0, 0, 0, 1] : Matrix (Fin 4) (Fin 4) ℝ) i j)) ∧
    ∃ out a M, (DQuat.fromPose ⟨⟨1, -2, -3⟩, ⟨-0.5 * Real.sqrt 2, 0, 0, -0.5 * Real.sqrt 2⟩⟩).toPose = .ok (out, a) ∧
      a.toMatrix = .ok (M, a) ∧ out.pos = ⟨1, -2, -3⟩ ∧ -out.q = ⟨-0.5 * Real.sqrt 2, 0, 0, -0.5 * Real.sqrt 2⟩ ∧
      ∀ i j, AssertClose 1e-7 1e-6 (M i j)
        ((!![1, 0, 0, 1; 0, 0, -1, -2; 0, 1, 0, -3; 0, 0, 0, 1] : Matrix (Fin 4) (Fin 4) ℝ) i j) := by
  constructor
  · obtain ⟨h1, h2⟩ := conversion_of_unit ⟨1, 2, 3⟩ (q := ⟨1, 0, 0, 0⟩) (by norm_num [Quat.dot])
    refine ⟨_, _, _, h1, h2, by simp, ?_⟩
    have hR : (⟨1, 0, 0, 0⟩ : Quat).toRotationMatrix = !![1, 0, 0; 0, -1, 0; 0, 0, -1] := by
      unfold Quat.toRotationMatrix; norm_num
    rw [hR]
    intro i j
    exact close_of_eq rfl (by norm_num) (by norm_num)
  · have hm := Real.mul_self_sqrt (show (0 : ℝ) ≤ 2 by norm_num)
    have hp : 0 < Real.sqrt 2 := Real.sqrt_pos.mpr (by norm_num)
    have hq : (⟨-0.5 * Real.sqrt 2, 0, 0, -0.5 * Real.sqrt 2⟩ : Quat).dot ⟨-0.5 * Real.sqrt 2, 0, 0, -0.5 * Real.sqrt 2⟩ = 1 := by
      unfold Quat.dot; dsimp only; linarith
    obtain ⟨h1, h2⟩ := conversion_of_unit ⟨1, -2, -3⟩ hq
    refine ⟨_, _, _, h1, h2, rfl, ?_, ?_⟩
    · dsimp only
      rw [if_pos (by linarith), neg_neg]
    · have hR : (⟨-0.5 * Real.sqrt 2, 0, 0, -0.5 * Real.sqrt 2⟩ : Quat).toRotationMatrix = !![1, 0, 0; 0, 0, -1; 0, 1, 0] := by
        unfold Quat.toRotationMatrix
        dsimp only
        have e1 : (-0.5 * Real.sqrt 2) ^ 2 = 1 / 2 := by linarith
        have e2 : 2 * (-0.5 * Real.sqrt 2) * (-0.5 * Real.sqrt 2) = 1 := by linarith
        rw [e1, e2]
        norm_num
      rw [hR]
      intro i j
      exact close_of_eq rfl (by norm_num) (by norm_num)

/-- The product of the two motions of the tests. -/
theorem consecutive : DQuat.fromPose ⟨⟨0, 10, 1⟩, ⟨1, 0, 0, 0⟩⟩ * DQuat.fromPose ⟨⟨2, 1, 3⟩, ⟨0, 1, 0, 0⟩⟩ =
    DQuat.fromPose ⟨⟨2, 9, -2⟩, ⟨0, 0, 1, 0⟩⟩ := by
  rw [fromPose_of_unit _ (by norm_num [Quat.dot]), fromPose_of_unit _ (by norm_num [Quat.dot]),
    fromPose_of_unit _ (by norm_num [Quat.dot])]
  apply DQuat.ext' <;> simp only [DQuat.mul_rot, DQuat.mul_dual] <;> ext <;> norm_num

/-- TD:152-158 `test_consecutive_transformations`. -/
theorem C82_dq_consecutive_transformations :
    DQuatClose 1e-7 0 (DQuat.fromPose ⟨⟨0, 10, 1⟩, ⟨1, 0, 0, 0⟩⟩ * DQuat.fromPose ⟨⟨2, 1, 3⟩, ⟨0, 1, 0, 0⟩⟩)
      (DQuat.fromPose ⟨⟨2, 9, -2⟩, ⟨0, 0, 1, 0⟩⟩) :=
  dquatClose_of_eq consecutive (by norm_num) (by norm_num)

/-- TD:160-169 `test_transforming_points`, for all points: the motion of the third frame and the product of the other two
move each of them to the same place (which the test does not name). -/
theorem C82_dq_transforming_points (p : Vec3) :
    ∃ i i', (DQuat.fromPose ⟨⟨2, 9, -2⟩, ⟨0, 0, 1, 0⟩⟩).inverse = .ok i ∧
      (DQuat.fromPose ⟨⟨0, 10, 1⟩, ⟨1, 0, 0, 0⟩⟩ * DQuat.fromPose ⟨⟨2, 1, 3⟩, ⟨0, 1, 0, 0⟩⟩).inverse = .ok i' ∧
      i.passiveTransformPoint p = .ok ⟨-(p.x - 2), -(p.y - 9), p.z + 2⟩ ∧
      i'.passiveTransformPoint p = .ok ⟨-(p.x - 2), -(p.y - 9), p.z + 2⟩ := by
  have hq : (⟨0, 0, 1, 0⟩ : Quat).dot ⟨0, 0, 1, 0⟩ = 1 := by norm_num [Quat.dot]
  have hu : Spec.IsUnit (DQuat.fromPose ⟨⟨2, 9, -2⟩, ⟨0, 0, 1, 0⟩⟩) := by
    rw [DQuat.isUnit_iff, fromPose_of_unit _ hq]
    constructor <;> norm_num [Quat.dot]
  have hi := DQuat.inverse_unit hu
  have hp : (DQuat.fromPose ⟨⟨2, 9, -2⟩, ⟨0, 0, 1, 0⟩⟩).conj.passiveTransformPoint p = .ok ⟨-(p.x - 2), -(p.y - 9), p.z + 2⟩ := by
    unfold DQuat.passiveTransformPoint
    rw [fromPose_of_unit _ hq, fromPose_of_unit p (q := ⟨0, 0, 0, 1⟩) (by norm_num [Quat.dot])]
    dsimp only
    rw [DQuat.toPose_unit (by simp only [DQuat.mul_rot, DQuat.conj, Quat.conj]; norm_num [Quat.dot]), Py.ok_bind]
    refine congrArg Except.ok ?_
    ext <;> simp [Quat.vec, DQuat.conj, Quat.conj] <;> ring
  exact ⟨_, _, hi, by rw [consecutive]; exact hi, hp, hp⟩

/-- TD:171-184 `test_dq_to_matrix`, for all poses whose quaternion can be normalised and has a positive real part. -/
theorem C82_dq_to_matrix (pos : Vec3) (q : Quat) (hn : q.norm > 1e-8) (hw : 0 < q.w) :
    ∃ a M, (DQuat.fromPose ⟨pos, q⟩).normalize = .ok a ∧ a.toMatrix = .ok (M, a) ∧
      DQuat.fromTransformationMatrix M = .ok a := by
  have hu : Spec.IsUnit (DQuat.fromPose ⟨pos, q⟩) := fromPose_unit ⟨pos, q⟩ hn
  have hrot : 0 < (DQuat.fromPose ⟨pos, q⟩).rot.w := by
    unfold DQuat.fromPose
    dsimp only
    rw [Quat.normalize_of_gt hn, Quat.smul_w]
    have : 0 < q.norm := by linarith
    positivity
  obtain ⟨M, hM, hback⟩ := C16_roundtrip _ hu hrot.ne'
  rw [if_pos hrot] at hback
  exact ⟨_, M, DQuat.normalize_unit (DQuat.IsUnit.rot hu), hM, hback⟩

/-- The pose of the test. -/
example : ∃ a M, (DQuat.fromPose ⟨⟨1, 2, 3⟩, ⟨4, 5, 6, 7⟩⟩).normalize = .ok a ∧ a.toMatrix = .ok (M, a) ∧
    DQuat.fromTransformationMatrix M = .ok a := by
  refine C82_dq_to_matrix _ _ ?_ (by norm_num)
  have : (1 : ℝ) ≤ (⟨4, 5, 6, 7⟩ : Quat).norm := Real.le_sqrt_of_sq_le (by norm_num [Quat.dot])
  linarith

end HandEye
