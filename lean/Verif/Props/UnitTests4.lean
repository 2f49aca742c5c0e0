import Verif.Lemmas.TestSpoiled

/-! # C82: the tests of the calibration with outliers and with noise, and the test of the plot -/

namespace HandEye

/-- A result whose calibration is the true one up to sign passes the last assertions. -/
theorem checkCalibration_sign {X : DQuat} (hX : Spec.IsUnit X) (hw : 0 < X.rot.w) {atol : ℝ} (ha : 0 ≤ atol) {r : CalibrationResult}
    (hs : r.success = true) {dq : DQuat} (hr : r.dq_H_E = some dq) (h1 : Spec.SameUpToSign dq X) (h2 : 0 ≤ dq.rot.w) :
    checkCalibration X atol r = .ok () := by
  rcases sameUpToSign_iff.mp h1 with h | h
  · exact checkCalibration_ok hX hw ha hs (by rw [hr, h])
  · exfalso
    rw [h, DQuat.neg_rot, Quat.neg_w] at h2
    linarith

/-- C82, `test_plot_poses`: if neither drawn rotation is a half turn, the plot is drawn. -/
theorem C82_plot_test (d : TestDraws) (h1 : Spec.Rotation4 d.rotation_H_E) (h2 : Spec.Rotation4 d.rotation_B_W)
    (n1 : ¬ Spec.HalfTurn4 d.rotation_H_E) (n2 : ¬ Spec.HalfTurn4 d.rotation_B_W) : ∃ figure, testPlotPoses d = .ok figure := by
  obtain ⟨X, W, et, uX, -, uW⟩ := testTransforms_ok d h1 h2 n1 n2
  obtain ⟨bs, ws, ep, lb, lw, -, -, ub, uw, -⟩ := C80_exact 20 (by norm_num) X W uX uW {} {} d.path_B_H d.path_W_E rfl rfl rfl rfl
  obtain ⟨figure, hf⟩ := plotTestPaths_unit (bs := bs) (ws := ws) (fun a ha => (ub a ha).1) (fun a ha => (uw a ha).1) (by rintro rfl; simp at lb)
    (by rintro rfl; simp at lw)
  refine ⟨figure, ?_⟩
  unfold testPlotPoses
  rw [et, Py.ok_bind]
  dsimp only
  rw [ep, Py.ok_bind]
  dsimp only
  rw [hf]
  rfl

/-- A good sample has the same pose in both paths. -/
theorem good_samples {oB oW : PathOptions} {dB dW : PathDraws} {n : ℕ} (hB : oB.include_noise = false)
    (hW : oW.include_noise = false) {v u : List DQuat} (hv : generateTestPath n oB dB = .ok v)
    (hu : generateTestPath n oW dW = .ok u) (i : ℕ) (a b : DQuat) (hi : (v.zip u)[i]? = some (a, b))
    (hg : Spec.GoodSample oB oW dB dW i) : a = helixPose (Spec.sampleTime n i) ∧ b = a := by
  obtain ⟨-, sv⟩ := generateTestPath_sound hv
  obtain ⟨-, su⟩ := generateTestPath_sound hu
  obtain ⟨ha, hb⟩ := List.getElem?_zip_eq_some.mp hi
  obtain ⟨hi1, ha⟩ := List.getElem?_eq_some_iff.mp ha
  obtain ⟨hi2, hb⟩ := List.getElem?_eq_some_iff.mp hb
  have e1 := sample_inlier hB (sv i hi1) hg.1
  have e2 := sample_inlier hW (su i hi2) hg.2
  dsimp only at ha hb
  rw [ha] at e1
  rw [hb] at e2
  exact ⟨e1, by rw [e1, e2]⟩

/-- C82, `test_hand_eye_calibration_with_outliers`: let `v` and `u` be the two paths before they are moved, both without poses that
differ by a half turn.  If three samples are good in both paths, no other sample has the scalar parts of a good one, seen from any
good one, and seen from another sample fewer than ten samples have matching scalar parts, then all the assertions of the test after
the one about the success hold: the test passes exactly if RANSAC reports a success. -/
theorem C82_outlier_test (svd : Svd) (hsvd : ∀ T s V, svd T = .ok (s, V) → Spec.IsSVD T s V) (d : TestDraws)
    (h1 : Spec.Rotation4 d.rotation_H_E) (h2 : Spec.Rotation4 d.rotation_B_W)
    (n1 : ¬ Spec.HalfTurn4 d.rotation_H_E) (n2 : ¬ Spec.HalfTurn4 d.rotation_B_W)
    (hdB : Spec.UniformDraws d.path_B_H) (hdW : Spec.UniformDraws d.path_W_E) (v u : List DQuat)
    (hv : generateTestPath 20 outlierOptions_B_H d.path_B_H = .ok v) (hu : generateTestPath 20 outlierOptions_W_E d.path_W_E = .ok u)
    (nv : Spec.NoHalfTurns v) (nu : Spec.NoHalfTurns u) (Good : ℕ → Prop)
    (hG : Good = Spec.GoodSample outlierOptions_B_H outlierOptions_W_E d.path_B_H d.path_W_E)
    (h3 : ∃ i j k, i < j ∧ j < k ∧ k < 20 ∧ Good i ∧ Good j ∧ Good k)
    (hvis : ∀ (i j : ℕ) p q, (v.zip u)[i]? = some p → (v.zip u)[j]? = some q → Good i → Spec.Corresponds 1e-2 p q → Good j)
    (hfew : ∀ (i : ℕ) p, (v.zip u)[i]? = some p → ¬ Good i → Spec.number (Spec.Corresponds 1e-2 p) (v.zip u) < 10) (fuel : ℕ) :
    ∃ X W bs ws, testTransforms d = .ok (X, W) ∧
      generateTestPaths 20 X W true outlierOptions_B_H outlierOptions_W_E d.path_B_H d.path_W_E = .ok (bs, ws) ∧
      (∀ r, ransac svd d.samples testConfig bs ws fuel = .ok (some r) → testWithOutliers svd d fuel =
        if r.success = true then .ok (some ()) else .error .assertion) ∧
      (ransac svd d.samples testConfig bs ws fuel = .ok none → testWithOutliers svd d fuel = .ok none) ∧
      ∀ e, ransac svd d.samples testConfig bs ws fuel = .error e → testWithOutliers svd d fuel = .error e := by
  subst hG
  obtain ⟨X, W, et, uX, wX, uW⟩ := testTransforms_ok d h1 h2 n1 n2
  obtain ⟨lv, sv⟩ := generateTestPath_sound hv
  obtain ⟨lu, su⟩ := generateTestPath_sound hu
  have uv : ∀ a ∈ v, Spec.IsUnit a := by
    intro a ha
    obtain ⟨i, hi, rfl⟩ := List.getElem_of_mem ha
    exact sample_unit rfl (fun _ => hdB) (sv i hi)
  have uu : ∀ a ∈ u, Spec.IsUnit a := by
    intro a ha
    obtain ⟨i, hi, rfl⟩ := List.getElem_of_mem ha
    exact sample_unit rfl (fun _ => hdW) (su i hi)
  obtain ⟨bs, ws, ep, ub, uw, lb, lw, ab, aw, uo, no⟩ := generated_paths (by norm_num) uX uW hv hu uv uu nv nu
  obtain ⟨figure, hf⟩ := plotTestPaths_unit ub uw (by rintro rfl; simp at lb) (by rintro rfl; simp at lw)
  have hstart : testWithOutliers svd d fuel = (do
      let r ← ransac svd d.samples testConfig bs ws fuel
      match r with
      | none => return none
      | some r => do
        checkCalibration X 2e-2 r
        return some ()) := by
    unfold testWithOutliers testOnPaths
    rw [et, Py.ok_bind]
    dsimp only
    rw [ep, Py.ok_bind]
    dsimp only
    rw [hf, Py.ok_bind]
    rfl
  -- a good sample has the same pose in both paths
  have same := good_samples rfl rfl hv hu
  have key : ∀ r, ransac svd d.samples testConfig bs ws fuel = .ok (some r) → r.success = true →
      ∃ dq, r.dq_H_E = some dq ∧ Spec.SameUpToSign dq X ∧ 0 ≤ dq.rot.w := by
    intro r hr hs
    obtain ⟨i, j, k, hij, hjk, hk, gi, gj, gk⟩ := h3
    have hz : (v.zip u).length = 20 := by rw [List.length_zip, lv, lu]; rfl
    have hat : ∀ m : ℕ, m < 20 → Spec.GoodSample outlierOptions_B_H outlierOptions_W_E d.path_B_H d.path_W_E m →
        (v.zip u)[m]? = some (helixPose (Spec.sampleTime 20 m), helixPose (Spec.sampleTime 20 m)) := by
      intro m hm hg
      have e : (v.zip u)[m]? = some (v.zip u)[m] := List.getElem?_eq_getElem (by omega)
      obtain ⟨e1, e2⟩ := same m _ _ e hg
      rw [e, ← e1]
      congr 1
      exact Prod.ext rfl e2
    exact spoiled_outcome hsvd rfl rfl (by norm_num [testConfig]) uX wX.ne' uW (by rw [lu, lv]) uv uu nu no uo
      (fun i a b hi hg => (same i a b hi hg).2) (hat i (by omega) gi) gi hvis hfew
      ⟨i, _, _, j, _, _, k, _, _, hat i (by omega) gi, hat j (by omega) gj, hat k hk gk, gi, gj, gk, helix_axes hij hjk hk⟩ ab aw hr hs
  refine ⟨X, W, bs, ws, et, ep, ?_, ?_, ?_⟩
  · intro r hr
    rw [hstart, hr, Py.ok_bind]
    dsimp only
    by_cases hs : r.success = true
    · obtain ⟨dq, a1, a2, a3⟩ := key r hr hs
      rw [if_pos hs, checkCalibration_sign uX wX (by norm_num) hs a1 a2 a3]
      rfl
    · rw [if_neg hs]
      unfold checkCalibration
      rw [pyAssert_neg hs]
      rfl
  · intro hr
    rw [hstart, hr]
    rfl
  · intro e hr
    rw [hstart, hr]
    rfl

/-- The paths that the calibration gets. -/
theorem paths_unit {oB oW : PathOptions} {dB dW : PathDraws} {n : ℕ} (hn : 0 < n) {X W : DQuat} (hX : Spec.IsUnit X) (hW : Spec.IsUnit W)
    {v u : List DQuat} (hv : generateTestPath n oB dB = .ok v) (hu : generateTestPath n oW dW = .ok u)
    (uv : ∀ a ∈ v, Spec.IsUnit a) (uu : ∀ a ∈ u, Spec.IsUnit a) :
    ∃ bs ws, generateTestPaths n X W true oB oW dB dW = .ok (bs, ws) ∧ (∀ a ∈ bs, Spec.IsUnit a) ∧ (∀ a ∈ ws, Spec.IsUnit a) ∧
      bs.length = n ∧ ws.length = n := by
  obtain ⟨lv, -⟩ := generateTestPath_sound hv
  obtain ⟨lu, -⟩ := generateTestPath_sound hu
  have uo : ∀ a ∈ u.map fun b => W.conj * b * X, Spec.IsUnit a := by
    intro a ha
    obtain ⟨b, hb, rfl⟩ := List.mem_map.mp ha
    exact DQuat.isUnit_mul (DQuat.isUnit_mul (DQuat.isUnit_conj hW) (uu b hb)) hX
  have align : ∀ l : List DQuat, l.length = n → (∀ a ∈ l, Spec.IsUnit a) →
      ∃ r, alignPathsAtIndex l = .ok r ∧ (∀ a ∈ r, Spec.IsUnit a) ∧ r.length = n := by
    intro l hl ul
    have h := align_unit (v := l) (pyPos_natCast (n := l.length) (k := 0) (by omega)) ul true
    refine ⟨_, h, ?_, by simp [hl]⟩
    intro a ha
    obtain ⟨b, hb, rfl⟩ := List.mem_map.mp ha
    rw [List.rotate_zero] at hb
    rw [rebase_true]
    exact posW_unit (DQuat.isUnit_mul (DQuat.isUnit_conj (ul _ (List.getElem_mem _))) (ul b hb))
  obtain ⟨bs, b1, b2, b3⟩ := align v lv uv
  obtain ⟨ws, w1, w2, w3⟩ := align _ (by rw [List.length_map, lu]) uo
  refine ⟨bs, ws, ?_, b2, w2, b3, w3⟩
  unfold generateTestPaths
  rw [hv, Py.ok_bind, if_pos rfl, b1, Py.ok_bind, hu, Py.ok_bind, offset_unit uu hX hW, Py.ok_bind, w1]
  rfl

/-- What the assertions say about a calibration whose rotation is normalised. -/
theorem checkCalibration_iff {X Y : DQuat} (hX : Spec.IsUnit X) (hY : Y.rot.dot Y.rot = 1) (atol : ℝ) {r : CalibrationResult}
    (hs : r.success = true) (hr : r.dq_H_E = some Y) :
    (checkCalibration X atol r = .ok () ↔
      Y.rot.w ≠ 0 ∧ ∀ j, |Spec.vec8 X j - Spec.vec8 Y j| ≤ atol + 1e-5 * |Spec.vec8 Y j|) ∧
    (checkCalibration X atol r = .ok () ∨ checkCalibration X atol r = .error .assertion) := by
  have hiff : X.allclose Y atol ↔ ∀ j, |Spec.vec8 X j - Spec.vec8 Y j| ≤ atol + 1e-5 * |Spec.vec8 Y j| := by
    constructor
    · rintro ⟨⟨h1, h2, h3, h4⟩, h5, h6, h7, h8⟩ j
      fin_cases j
      · exact h1
      · exact h2
      · exact h3
      · exact h4
      · exact h5
      · exact h6
      · exact h7
      · exact h8
    · intro h
      exact ⟨⟨h 0, h 1, h 2, h 3⟩, h 4, h 5, h 6, h 7⟩
  have e : checkCalibration X atol r = (do
      pyAssert ((if Y.rot.w < 0 then -Y.rot else Y.rot).w > 0)
      pyAssert (X.allclose Y atol)) := by
    unfold checkCalibration
    rw [pyAssert_pos hs, Py.ok_bind, hr]
    dsimp only
    rw [DQuat.toPose_unit hY, Py.ok_bind]
    dsimp only
    rw [DQuat.normalize_unit hY, Py.ok_bind, toMatrix_unit (DQuat.IsUnit.rot hX), Py.ok_bind]
    dsimp only
    rw [toMatrix_unit hY, Py.ok_bind]
  have hw : (if Y.rot.w < 0 then -Y.rot else Y.rot).w > 0 ↔ Y.rot.w ≠ 0 := by
    split_ifs with h
    · rw [Quat.neg_w]
      exact ⟨fun _ => h.ne, fun _ => by linarith⟩
    · exact ⟨fun h => h.ne', fun h' => lt_of_le_of_ne (not_lt.mp h) (Ne.symm h')⟩
  rw [e, ← hw, ← hiff]
  by_cases h1 : (if Y.rot.w < 0 then -Y.rot else Y.rot).w > 0
  · rw [pyAssert_pos h1, Py.ok_bind]
    by_cases h2 : X.allclose Y atol
    · rw [pyAssert_pos h2]
      exact ⟨⟨fun _ => ⟨h1, h2⟩, fun _ => rfl⟩, Or.inl rfl⟩
    · rw [pyAssert_neg h2]
      exact ⟨⟨fun h => (by cases h), fun h => absurd h.2 h2⟩, Or.inr rfl⟩
  · rw [pyAssert_neg h1]
    exact ⟨⟨fun h => (by cases h), fun h => absurd h.1 h1⟩, Or.inr rfl⟩

/-- The scaled axis of the noise is long enough to be normalised. -/
theorem noiseAxis_long {d : PathDraws} {i : ℕ} (h : 1e-13 < (d.noise_axis i).norm) : 1e-16 < (noiseAxis noiseOptions d i).norm := by
  have e : (noiseAxis noiseOptions d i).norm = 0.001 * (d.noise_axis i).norm := by
    unfold Vec3.norm noiseAxis noiseOptions
    rw [show (0.001 : ℝ) = Real.sqrt (0.001 ^ 2) from (Real.sqrt_sq (by norm_num)).symm, ← Real.sqrt_mul (by positivity)]
    congr 1
    simp only [Vec3.dot]
    rw [Real.sqrt_sq (by norm_num)]
    ring
  rw [e]
  linarith

/-- C82, `test_hand_eye_calibration_with_noise`: whatever noise is drawn (no axis shorter than 10⁻¹³), the only ways to fail are that
RANSAC raises, or one of the assertions: that RANSAC reports a success, that its calibration is no half turn, and that its eight
components are within 0.04 (and 10⁻⁵ relative) of the true ones. -/
theorem C82_noise_test (svd : Svd) (d : TestDraws) (h1 : Spec.Rotation4 d.rotation_H_E) (h2 : Spec.Rotation4 d.rotation_B_W)
    (n1 : ¬ Spec.HalfTurn4 d.rotation_H_E) (n2 : ¬ Spec.HalfTurn4 d.rotation_B_W)
    (aB : ∀ i, 1e-13 < (d.path_B_H.noise_axis i).norm) (aW : ∀ i, 1e-13 < (d.path_W_E.noise_axis i).norm) (fuel : ℕ) :
    ∃ X W bs ws, testTransforms d = .ok (X, W) ∧
      generateTestPaths 20 X W true noiseOptions noiseOptions d.path_B_H d.path_W_E = .ok (bs, ws) ∧
      (∀ r, ransac svd d.samples testConfig bs ws fuel = .ok (some r) →
        (testWithNoise svd d fuel = .ok (some ()) ↔ r.success = true ∧ ∃ Y, r.dq_H_E = some Y ∧ Y.rot.w ≠ 0 ∧
          ∀ j, |Spec.vec8 X j - Spec.vec8 Y j| ≤ 4e-2 + 1e-5 * |Spec.vec8 Y j|) ∧
        (testWithNoise svd d fuel = .ok (some ()) ∨ testWithNoise svd d fuel = .error .assertion)) ∧
      (ransac svd d.samples testConfig bs ws fuel = .ok none → testWithNoise svd d fuel = .ok none) ∧
      ∀ e, ransac svd d.samples testConfig bs ws fuel = .error e → testWithNoise svd d fuel = .error e := by
  obtain ⟨X, W, et, uX, wX, uW⟩ := testTransforms_ok d h1 h2 n1 n2
  obtain ⟨v, hv⟩ := noisyPath_total 20 (d := d.path_B_H) (o := noiseOptions) rfl (by norm_num [noiseOptions]) (by norm_num [noiseOptions])
    (fun i => noiseAxis_long (aB i))
  obtain ⟨u, hu⟩ := noisyPath_total 20 (d := d.path_W_E) (o := noiseOptions) rfl (by norm_num [noiseOptions]) (by norm_num [noiseOptions])
    (fun i => noiseAxis_long (aW i))
  have units : ∀ (p : PathDraws) (l : List DQuat), generateTestPath 20 noiseOptions p = .ok l → ∀ a ∈ l, Spec.IsUnit a := by
    intro p l hl a ha
    obtain ⟨i, hi, rfl⟩ := List.getElem_of_mem ha
    exact ((C80_noise_position 20 noiseOptions p rfl rfl l hl).2 i hi).1
  obtain ⟨bs, ws, ep, ub, uw, lb, lw⟩ := paths_unit (by norm_num) uX uW hv hu (units _ v hv) (units _ u hu)
  obtain ⟨figure, hf⟩ := plotTestPaths_unit ub uw (by rintro rfl; simp at lb) (by rintro rfl; simp at lw)
  have hstart : testWithNoise svd d fuel = (do
      let r ← ransac svd d.samples testConfig bs ws fuel
      match r with
      | none => return none
      | some r => do
        checkCalibration X 4e-2 r
        return some ()) := by
    unfold testWithNoise testOnPaths
    rw [et, Py.ok_bind]
    dsimp only
    rw [ep, Py.ok_bind]
    dsimp only
    rw [hf, Py.ok_bind]
    rfl
  refine ⟨X, W, bs, ws, et, ep, ?_, ?_, ?_⟩
  · intro r hr
    rw [hstart, hr, Py.ok_bind]
    dsimp only
    by_cases hs : r.success = true
    · obtain ⟨bf, wf, samples, outs, c, c1, hco, hc, e1, -⟩ := C37_best_candidate svd d.samples testConfig bs ws fuel r hr hs
      have hrot : c.dq_H_E.rot.dot c.dq_H_E.rot = 1 := by
        obtain ⟨n, hn⟩ := List.getElem?_of_mem hc
        have hlt : n < outs.length := (List.getElem?_eq_some_iff.mp hn).1
        have hz := List.forall₂_iff_get.mp hco.outcomes
        have hsn : n < samples.length := by rw [hz.1]; exact hlt
        have hev := hz.2 n hsn hlt
        simp only [List.get_eq_getElem] at hev
        rw [(List.getElem?_eq_some_iff.mp hn).2] at hev
        obtain ⟨_, _, _, _, _, _, _, _, _, _, _, h, _⟩ := C37_candidate svd testConfig bs ws bf wf _ c hev
        exact h
      obtain ⟨k1, k2⟩ := checkCalibration_iff uX hrot 4e-2 hs e1
      rcases k2 with k | k
      · rw [k]
        refine ⟨⟨fun _ => ⟨hs, c.dq_H_E, e1, k1.mp k⟩, fun _ => rfl⟩, Or.inl rfl⟩
      · rw [k]
        refine ⟨⟨fun h => (by cases h), ?_⟩, Or.inr rfl⟩
        rintro ⟨-, Y, hY, hh⟩
        rw [e1] at hY
        cases hY
        rw [k1.mpr hh] at k
        cases k
    · have k : checkCalibration X 4e-2 r = .error .assertion := by
        unfold checkCalibration
        rw [pyAssert_neg hs]
        rfl
      rw [k]
      exact ⟨⟨fun h => (by cases h), fun h => absurd h.1 hs⟩, Or.inr rfl⟩
  · intro hr
    rw [hstart, hr]
    rfl
  · intro e hr
    rw [hstart, hr]
    rfl

end HandEye
