import Verif.Model.TestTransform
import Verif.Props.UnitTests2
import Verif.Props.TestPaths2

/-!
# C82: the random transforms of the tests, and the first test of the calibration
-/

namespace HandEye

open Spec

/-- The matrix that `rand_transform` gives. -/
theorem randTransform_eq (t : Vec3) {R : Matrix (Fin 4) (Fin 4) ℝ} (h : Spec.Rotation4 R) :
    randTransform t R = !![R 0 0, R 0 1, R 0 2, t.x; R 1 0, R 1 1, R 1 2, t.y; R 2 0, R 2 1, R 2 2, t.z; 0, 0, 0, 1] := by
  have r0 : R 3 0 = 0 := h.row 0
  have r1 : R 3 1 = 0 := h.row 1
  have r2 : R 3 2 = 0 := h.row 2
  have c0 : R 0 3 = 0 := h.column 0
  have c1 : R 1 3 = 0 := h.column 1
  have c2 : R 2 3 = 0 := h.column 2
  have hc := h.corner
  unfold randTransform translationMatrix
  ext i j
  rw [Matrix.mul_apply, Fin.sum_univ_four]
  fin_cases i <;> fin_cases j <;> simp [r0, r1, r2, c0, c1, c2, hc]

/-- C82: `random_transform_as_dual_quaternion` gives a unit dual quaternion with a positive scalar part which moves points
as the drawn rotation followed by the drawn translation does; its option has no effect. -/
theorem C82_random_transform_partial (t : Vec3) (R : Matrix (Fin 4) (Fin 4) ℝ) (h : Spec.Rotation4 R) (ht : ¬ Spec.HalfTurn4 R) :
    ∃ a, (∀ o, randomTransformAsDualQuaternion t R o = .ok a) ∧ Spec.IsUnit a ∧ 0 < a.rot.w ∧
      ∀ x, Spec.homogeneous (Spec.motion a x) = R.mulVec (Spec.homogeneous x) + ![t.x, t.y, t.z, 0] := by
  have hb : (Matrix.of fun i j : Fin 3 => R i.castSucc j.castSucc) =
      !![R 0 0, R 0 1, R 0 2; R 1 0, R 1 1, R 1 2; R 2 0, R 2 1, R 2 2] := by
    ext i j; fin_cases i <;> fin_cases j <;> rfl
  have hso := h.block
  rw [hb] at hso
  have htr : (!![R 0 0, R 0 1, R 0 2; R 1 0, R 1 1, R 1 2; R 2 0, R 2 1, R 2 2] : Matrix (Fin 3) (Fin 3) ℝ).trace ≠ -1 := by
    rw [Matrix.trace_fin_three]
    exact ht
  obtain ⟨q, hq, hn, hw, hR⟩ := C05_matrix_roundtrip_partial _ hso htr
  have hd : q.dot q = 1 := Quat.norm_eq_one.mp hn
  have hM := randTransform_eq t h
  have hf : DQuat.fromTransformationMatrix (randTransform t R) = .ok (DQuat.fromPose ⟨t, q⟩) := by
    rw [hM]
    unfold DQuat.fromTransformationMatrix
    change (Quat.fromRotationMatrix !![R 0 0, R 0 1, R 0 2; R 1 0, R 1 1, R 1 2; R 2 0, R 2 1, R 2 2] >>= _) = _
    rw [hq]
    rfl
  have hrot : (DQuat.fromPose ⟨t, q⟩).rot = q := by rw [fromPose_of_unit t hd]
  have hu : Spec.IsUnit (DQuat.fromPose ⟨t, q⟩) := fromPose_unit ⟨t, q⟩ (by dsimp only; rw [hn]; norm_num)
  refine ⟨_, ?_, hu, by rw [hrot]; exact hw, ?_⟩
  · intro o
    unfold randomTransformAsDualQuaternion
    rw [hf, Py.ok_bind, if_neg (by rw [hrot]; rintro ⟨-, h'⟩; linarith)]
    rfl
  · intro x
    obtain ⟨M, e1, -, -, e4⟩ := C16_rigid _ hu
    rw [(conversion_of_unit t hd).2, hR] at e1
    injection e1 with e1
    have e1 := (congrArg Prod.fst e1).symm
    dsimp only at e1
    rw [← e4 x, e1]
    have r0 : R 3 0 = 0 := h.row 0
    have r1 : R 3 1 = 0 := h.row 1
    have r2 : R 3 2 = 0 := h.row 2
    have c0 : R 0 3 = 0 := h.column 0
    have c1 : R 1 3 = 0 := h.column 1
    have c2 : R 2 3 = 0 := h.column 2
    ext i
    fin_cases i <;>
      simp [Matrix.mulVec, dotProduct, Fin.sum_univ_four, Spec.homogeneous, r0, r1, r2, c0, c1, c2, h.corner]

/-- C82 is refuted for half turns, which have no quaternion in `from_rotation_matrix`. -/
theorem C82_random_transform_refuted (t : Vec3) (R : Matrix (Fin 4) (Fin 4) ℝ) (h : Spec.Rotation4 R) (ht : Spec.HalfTurn4 R)
    (o : Bool) : randomTransformAsDualQuaternion t R o = .error .nonFinite := by
  have htr : (!![R 0 0, R 0 1, R 0 2; R 1 0, R 1 1, R 1 2; R 2 0, R 2 1, R 2 2] : Matrix (Fin 3) (Fin 3) ℝ).trace = -1 := by
    rw [Matrix.trace_fin_three]
    exact ht
  unfold randomTransformAsDualQuaternion DQuat.fromTransformationMatrix
  rw [randTransform_eq t h]
  change ((Quat.fromRotationMatrix !![R 0 0, R 0 1, R 0 2; R 1 0, R 1 1, R 1 2; R 2 0, R 2 1, R 2 2] >>= _) >>= _) = _
  rw [C05_halfturn_refuted _ htr]
  rfl

/-- C82: `random_quaternion` gives the one of the two unit quaternions of the drawn rotation whose scalar part is not
negative. -/
theorem C82_random_quaternion (q : Quat) (h : q.norm = 1) :
    ∃ r, randomQuaternion q = .ok r ∧ (r = q ∨ r = -q) ∧ r.norm = 1 ∧ 0 ≤ r.w := by
  have hneg : (-q).norm = 1 := by
    rw [Quat.norm_eq_one] at *
    simpa [Quat.dot] using h
  unfold randomQuaternion
  dsimp only
  by_cases hw : q.w < 0
  · rw [if_pos hw, pyAssert_pos (by rw [hneg]; exact npIsclose_self 1 (by norm_num))]
    exact ⟨_, rfl, Or.inr rfl, hneg, by simp; linarith⟩
  · rw [if_neg hw, pyAssert_pos (by rw [h]; exact npIsclose_self 1 (by norm_num))]
    exact ⟨_, rfl, Or.inl rfl, h, not_lt.mp hw⟩

theorem testTransforms_ok (d : TestDraws) (h1 : Spec.Rotation4 d.rotation_H_E) (h2 : Spec.Rotation4 d.rotation_B_W)
    (n1 : ¬ Spec.HalfTurn4 d.rotation_H_E) (n2 : ¬ Spec.HalfTurn4 d.rotation_B_W) :
    ∃ X W, testTransforms d = .ok (X, W) ∧ Spec.IsUnit X ∧ 0 < X.rot.w ∧ Spec.IsUnit W := by
  obtain ⟨X, e1, u1, w1, -⟩ := C82_random_transform_partial d.translation_H_E _ h1 n1
  obtain ⟨W, e2, u2, w2, -⟩ := C82_random_transform_partial d.translation_B_W _ h2 n2
  refine ⟨X, W, ?_, u1, w1, u2⟩
  unfold testTransforms
  rw [e1, Py.ok_bind, pyAssert_pos (by linarith), Py.ok_bind, DQuat.toPose_unit (DQuat.IsUnit.rot u1), Py.ok_bind]
  dsimp only
  rw [DQuat.normalize_unit (DQuat.IsUnit.rot u1), Py.ok_bind, e2, Py.ok_bind, pyAssert_pos (by linarith)]
  rfl

/-- The checks of the tests succeed if the calibration is the true one. -/
theorem checkCalibration_ok {X : DQuat} (hX : Spec.IsUnit X) (hw : 0 < X.rot.w) {atol : ℝ} (ha : 0 ≤ atol)
    {r : CalibrationResult} (hs : r.success = true) (hr : r.dq_H_E = some X) : checkCalibration X atol r = .ok () := by
  have hd := DQuat.IsUnit.rot hX
  unfold checkCalibration
  rw [pyAssert_pos hs, Py.ok_bind, hr]
  dsimp only
  rw [DQuat.toPose_unit hd, Py.ok_bind]
  dsimp only
  rw [DQuat.normalize_unit hd, Py.ok_bind, if_neg (by linarith), pyAssert_pos hw, Py.ok_bind, toMatrix_unit hd, Py.ok_bind]
  dsimp only
  rw [Py.ok_bind, pyAssert_pos]
  refine ⟨⟨?_, ?_, ?_, ?_⟩, ?_, ?_, ?_, ?_⟩ <;> exact npIsclose_self _ ha

/-- C82: what the last assertion of the tests accepts: with a rigid calibration of positive scalar part, exactly those whose eight
components are within `atol + 1e-5 |component|` of the true ones. -/
theorem C82_check (X Y : DQuat) (hX : Spec.IsUnit X) (hY : Spec.IsUnit Y) (hw : 0 < Y.rot.w) (atol : ℝ)
    (r : CalibrationResult) (hs : r.success = true) (hr : r.dq_H_E = some Y) :
    checkCalibration X atol r = if ∀ j, |Spec.vec8 X j - Spec.vec8 Y j| ≤ atol + 1e-5 * |Spec.vec8 Y j| then .ok ()
      else .error .assertion := by
  unfold checkCalibration
  rw [pyAssert_pos hs, Py.ok_bind, hr]
  dsimp only
  rw [DQuat.toPose_unit (DQuat.IsUnit.rot hY), Py.ok_bind]
  dsimp only
  rw [DQuat.normalize_unit (DQuat.IsUnit.rot hY), Py.ok_bind, if_neg (by linarith), pyAssert_pos hw, Py.ok_bind,
    toMatrix_unit (DQuat.IsUnit.rot hX), Py.ok_bind]
  dsimp only
  rw [toMatrix_unit (DQuat.IsUnit.rot hY), Py.ok_bind]
  dsimp only
  have hiff : X.allclose Y atol ↔ ∀ j, |Spec.vec8 X j - Spec.vec8 Y j| ≤ atol + 1e-5 * |Spec.vec8 Y j| := by
    constructor
    · rintro ⟨⟨h1, h2, h3, h4⟩, h5, h6, h7, h8⟩ j
      fin_cases j
      · exact h1
      · exact h2
      · exact h3
      · exact h4
      · exact h5
      · exact h6
      · exact h7
      · exact h8
    · intro h
      exact ⟨⟨h 0, h 1, h 2, h 3⟩, h 4, h 5, h 6, h 7⟩
  by_cases h : X.allclose Y atol
  · rw [pyAssert_pos h, if_pos (hiff.mp h)]
  · rw [pyAssert_neg h, if_neg (fun k => h (hiff.mpr k))]

/-- A translation that is wrong by 4 mm is rejected, one that is wrong by 1 mm is accepted. -/
example (r : CalibrationResult) (hs : r.success = true) :
    (r.dq_H_E = some ⟨⟨0, 0, 0, 1⟩, ⟨0.002, 0, 0, 0⟩⟩ → checkCalibration ⟨⟨0, 0, 0, 1⟩, ⟨0, 0, 0, 0⟩⟩ 1e-3 r = .error .assertion) ∧
    (r.dq_H_E = some ⟨⟨0, 0, 0, 1⟩, ⟨0.0005, 0, 0, 0⟩⟩ → checkCalibration ⟨⟨0, 0, 0, 1⟩, ⟨0, 0, 0, 0⟩⟩ 1e-3 r = .ok ()) := by
  constructor
  · intro h
    rw [C82_check _ _ (by rw [DQuat.isUnit_iff]; norm_num [Quat.dot]) (by rw [DQuat.isUnit_iff]; norm_num [Quat.dot]) (by norm_num) _ r hs h,
      if_neg]
    intro k
    have := k 4
    simp [Spec.vec8] at this
    norm_num at this
  · intro h
    rw [C82_check _ _ (by rw [DQuat.isUnit_iff]; norm_num [Quat.dot]) (by rw [DQuat.isUnit_iff]; norm_num [Quat.dot]) (by norm_num) _ r hs h,
      if_pos]
    intro j
    fin_cases j <;> simp [Spec.vec8] <;> norm_num [abs_of_nonneg]

/-- C82, `test_hand_eye_calibration`: if neither drawn rotation is a half turn, all the assertions of the test after the one
about the success hold, whatever else is drawn: the test passes exactly if RANSAC reports a success (with its paths being
generated without an error). -/
theorem C82_hand_eye_test (svd : Svd) (hsvd : ∀ T s V, svd T = .ok (s, V) → Spec.IsSVD T s V) (d : TestDraws)
    (h1 : Spec.Rotation4 d.rotation_H_E) (h2 : Spec.Rotation4 d.rotation_B_W)
    (n1 : ¬ Spec.HalfTurn4 d.rotation_H_E) (n2 : ¬ Spec.HalfTurn4 d.rotation_B_W) (fuel : ℕ) :
    ∃ X W bs ws, testTransforms d = .ok (X, W) ∧ generateTestPaths 20 X W true {} {} d.path_B_H d.path_W_E = .ok (bs, ws) ∧
      (∀ r, ransac svd d.samples testConfig bs ws fuel = .ok (some r) → testHandEyeCalibration svd d fuel =
        if r.success = true then .ok (some ()) else .error .assertion) ∧
      (ransac svd d.samples testConfig bs ws fuel = .ok none → testHandEyeCalibration svd d fuel = .ok none) ∧
      ∀ e, ransac svd d.samples testConfig bs ws fuel = .error e → testHandEyeCalibration svd d fuel = .error e := by
  obtain ⟨X, W, et, uX, wX, uW⟩ := testTransforms_ok d h1 h2 n1 n2
  obtain ⟨bs, ws, ep, -⟩ := C80_exact 20 (by norm_num) X W uX uW {} {} d.path_B_H d.path_W_E rfl rfl rfl rfl
  have hstart : testHandEyeCalibration svd d fuel = (do
      let r ← ransac svd d.samples testConfig bs ws fuel
      match r with
      | none => return none
      | some r => do
        checkCalibration X 1e-3 r
        return some ()) := by
    unfold testHandEyeCalibration
    rw [et, Py.ok_bind]
    dsimp only
    rw [ep, Py.ok_bind]
    rfl
  refine ⟨X, W, bs, ws, et, ep, ?_, ?_, ?_⟩
  · intro r hr
    rw [hstart, hr, Py.ok_bind]
    dsimp only
    by_cases hs : r.success = true
    · obtain ⟨hX, -⟩ := C80_calibration svd hsvd d.samples testConfig rfl (by norm_num [testConfig]) 20 (by norm_num) X W uX wX uW
        {} {} d.path_B_H d.path_W_E rfl rfl rfl rfl bs ws ep fuel r hr hs
      rw [if_pos hs, checkCalibration_ok uX wX (by norm_num) hs hX]
      rfl
    · rw [if_neg hs]
      unfold checkCalibration
      rw [pyAssert_neg hs]
      rfl
  · intro hr
    rw [hstart, hr]
    rfl
  · intro e hr
    rw [hstart, hr]
    rfl

/-- A quarter turn about the z axis and a translation. -/
example : ∃ a, (∀ o, randomTransformAsDualQuaternion ⟨1, 2, 3⟩ !![0, -1, 0, 0; 1, 0, 0, 0; 0, 0, 1, 0; 0, 0, 0, 1] o = .ok a) ∧
    Spec.IsUnit a ∧ Spec.motion a ⟨1, 0, 0⟩ = ⟨1, 3, 3⟩ := by
  obtain ⟨a, e, u, -, hm⟩ := C82_random_transform_partial ⟨1, 2, 3⟩ !![0, -1, 0, 0; 1, 0, 0, 0; 0, 0, 1, 0; 0, 0, 0, 1]
    ⟨by
      have : (Matrix.of fun i j : Fin 3 => (!![0, -1, 0, 0; 1, 0, 0, 0; 0, 0, 1, 0; 0, 0, 0, 1] : Matrix (Fin 4) (Fin 4) ℝ)
          i.castSucc j.castSucc) = !![0, -1, 0; 1, 0, 0; 0, 0, 1] := by
        ext i j; fin_cases i <;> fin_cases j <;> rfl
      rw [this, Matrix.mem_specialOrthogonalGroup_iff, Matrix.mem_orthogonalGroup_iff]
      constructor
      · ext i j
        fin_cases i <;> fin_cases j <;> simp [Matrix.mul_apply, Fin.sum_univ_three]
      · simp [Matrix.det_fin_three], by intro j; fin_cases j <;> rfl, by intro j; fin_cases j <;> rfl, rfl⟩
    (by unfold Spec.HalfTurn4; simp; norm_num)
  refine ⟨a, e, u, ?_⟩
  have h := hm ⟨1, 0, 0⟩
  have h0 := congrFun h 0
  have h1 := congrFun h 1
  have h2 := congrFun h 2
  simp [Spec.homogeneous] at h0 h1 h2
  ext
  · simpa using h0
  · dsimp only; linarith
  · simpa using h2

end HandEye
