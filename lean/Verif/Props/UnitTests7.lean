import Verif.Props.UnitTests4
import Verif.Props.Ransac11

/-! # Property C82: how the tests with outliers and with noise can end -/

namespace HandEye

open Classical in
/-- RANSAC with the configuration of the tests on twenty pairs of rigid motions. -/
theorem test_course (svd : Svd) (rng : ℕ → List ℕ) {bs ws : List DQuat} (ub : ∀ a ∈ bs, Spec.IsUnit a) (uw : ∀ a ∈ ws, Spec.IsUnit a)
    (lb : bs.length = 20) (lw : ws.length = 20) (fuel : ℕ) :
    (filteredPoses testConfig bs ws = .error .assertion ∧ ransac svd rng testConfig bs ws (fuel + 1) = .error .assertion) ∨
    ∃ bf wf, filteredPoses testConfig bs ws = .ok (bf, wf) ∧
      (wf.length < 3 → ransac svd rng testConfig bs ws (fuel + 1) = .error .value) ∧
      (3 ≤ wf.length → (∀ k, Spec.IsSample wf.length 3 (rng k)) →
        ((∃ r, ransac svd rng testConfig bs ws (fuel + 1) = .ok (some r) ∧ r.success = true) ∨ ransac svd rng testConfig bs ws (fuel + 1) = .ok none) ∧
        (50 ≤ ((List.range (fuel + 1)).countP fun k => decide (Spec.LeadsToCalibration svd testConfig 1e-2 (bf.zip wf) (bs.zip ws) (rng k))) →
          ∃ r, ransac svd rng testConfig bs ws (fuel + 1) = .ok (some r) ∧ r.success = true) ∧
        ((∀ k < fuel + 1, ¬ Spec.LeadsToCalibration svd testConfig 1e-2 (bf.zip wf) (bs.zip ws) (rng k)) →
          ransac svd rng testConfig bs ws (fuel + 1) = .ok none)) := by
  have hl : ws.length = bs.length := by rw [lb, lw]
  rcases C107_no_exception svd rng testConfig (Or.inl ⟨rfl, by norm_num [testConfig]⟩) (by norm_num [testConfig]) (by norm_num [testConfig])
    (by norm_num [testConfig]) (by norm_num [testConfig]) (by norm_num [testConfig]) bs ws hl ub uw (by rw [lw]; norm_num [testConfig]) fuel with
    ⟨-, h1, h2⟩ | ⟨bf, wf, h1, h2, h3, -, h5, h6⟩
  · exact Or.inl ⟨h1, h2⟩
  · refine Or.inr ⟨bf, wf, h1, fun h => h5 h rfl, fun h hr => ?_⟩
    obtain ⟨o, ho⟩ := h6 (Or.inl h) (Or.inl hr)
    obtain ⟨c1, c2, c3⟩ := C107_random svd rng testConfig rfl 1e-2 rfl (by norm_num) rfl (by norm_num [testConfig]) (by norm_num [testConfig])
      (by norm_num [testConfig]) (by norm_num [testConfig]) bs ws bf wf hl ub uw h1 h (by norm_num [testConfig]) (by rw [lw]; norm_num [testConfig])
      hr (fuel + 1)
    refine ⟨?_, fun h => ?_, c3⟩
    · cases o with
      | none => exact Or.inr ho
      | some r => exact Or.inl ⟨r, ho, c1 r ho⟩
    · obtain ⟨r, hr⟩ := c2 h
      exact ⟨r, hr, c1 r hr⟩

open Classical in
/-- C82, `test_hand_eye_calibration_with_outliers`, all ways to end, for draws as in `C82_outlier_test`: an exception if the prefilter leaves fewer than
three poses; otherwise the test passes or RANSAC goes on.  It passes once 50 of the samples lead to a calibration, and goes on as long as none does. -/
theorem C82_outlier_outcome (svd : Svd) (hsvd : ∀ T s V, svd T = .ok (s, V) → Spec.IsSVD T s V) (d : TestDraws)
    (h1 : Spec.Rotation4 d.rotation_H_E) (h2 : Spec.Rotation4 d.rotation_B_W)
    (n1 : ¬ Spec.HalfTurn4 d.rotation_H_E) (n2 : ¬ Spec.HalfTurn4 d.rotation_B_W)
    (hdB : Spec.UniformDraws d.path_B_H) (hdW : Spec.UniformDraws d.path_W_E) (v u : List DQuat)
    (hv : generateTestPath 20 outlierOptions_B_H d.path_B_H = .ok v) (hu : generateTestPath 20 outlierOptions_W_E d.path_W_E = .ok u)
    (nv : Spec.NoHalfTurns v) (nu : Spec.NoHalfTurns u) (Good : ℕ → Prop)
    (hG : Good = Spec.GoodSample outlierOptions_B_H outlierOptions_W_E d.path_B_H d.path_W_E)
    (h3 : ∃ i j k, i < j ∧ j < k ∧ k < 20 ∧ Good i ∧ Good j ∧ Good k)
    (hvis : ∀ (i j : ℕ) p q, (v.zip u)[i]? = some p → (v.zip u)[j]? = some q → Good i → Spec.Corresponds 1e-2 p q → Good j)
    (hfew : ∀ (i : ℕ) p, (v.zip u)[i]? = some p → ¬ Good i → Spec.number (Spec.Corresponds 1e-2 p) (v.zip u) < 10) (fuel : ℕ) :
    ∃ X W bs ws, testTransforms d = .ok (X, W) ∧
      generateTestPaths 20 X W true outlierOptions_B_H outlierOptions_W_E d.path_B_H d.path_W_E = .ok (bs, ws) ∧
      ((filteredPoses testConfig bs ws = .error .assertion ∧ testWithOutliers svd d (fuel + 1) = .error .assertion) ∨
       ∃ bf wf, filteredPoses testConfig bs ws = .ok (bf, wf) ∧
        (wf.length < 3 → testWithOutliers svd d (fuel + 1) = .error .value) ∧
        (3 ≤ wf.length → (∀ k, Spec.IsSample wf.length 3 (d.samples k)) →
          (testWithOutliers svd d (fuel + 1) = .ok (some ()) ∨ testWithOutliers svd d (fuel + 1) = .ok none) ∧
          (50 ≤ ((List.range (fuel + 1)).countP fun k => decide (Spec.LeadsToCalibration svd testConfig 1e-2 (bf.zip wf) (bs.zip ws) (d.samples k))) →
            testWithOutliers svd d (fuel + 1) = .ok (some ())) ∧
          ((∀ k < fuel + 1, ¬ Spec.LeadsToCalibration svd testConfig 1e-2 (bf.zip wf) (bs.zip ws) (d.samples k)) →
            testWithOutliers svd d (fuel + 1) = .ok none))) := by
  obtain ⟨X, W, bs, ws, et, ep, k1, k2, k3⟩ := C82_outlier_test svd hsvd d h1 h2 n1 n2 hdB hdW v u hv hu nv nu Good hG h3 hvis hfew (fuel + 1)
  obtain ⟨X', W', et', uX, -, uW⟩ := testTransforms_ok d h1 h2 n1 n2
  rw [et] at et'
  cases et'
  have uv : ∀ a ∈ v, Spec.IsUnit a := by
    intro a ha
    obtain ⟨i, hi, rfl⟩ := List.getElem_of_mem ha
    exact sample_unit rfl (fun _ => hdB) ((generateTestPath_sound hv).2 i hi)
  have uu : ∀ a ∈ u, Spec.IsUnit a := by
    intro a ha
    obtain ⟨i, hi, rfl⟩ := List.getElem_of_mem ha
    exact sample_unit rfl (fun _ => hdW) ((generateTestPath_sound hu).2 i hi)
  obtain ⟨bs', ws', ep', ub, uw, lb, lw⟩ := paths_unit (by norm_num) uX uW hv hu uv uu
  rw [ep] at ep'
  cases ep'
  have pass : (∃ r, ransac svd d.samples testConfig bs ws (fuel + 1) = .ok (some r) ∧ r.success = true) →
      testWithOutliers svd d (fuel + 1) = .ok (some ()) := by
    rintro ⟨r, hr, hs⟩
    rw [k1 r hr, if_pos hs]
  refine ⟨X, W, bs, ws, et, ep, ?_⟩
  rcases test_course svd d.samples ub uw lb lw fuel with ⟨a1, a2⟩ | ⟨bf, wf, a1, a2, a3⟩
  · exact Or.inl ⟨a1, k3 _ a2⟩
  · refine Or.inr ⟨bf, wf, a1, fun h => k3 _ (a2 h), fun h hr => ?_⟩
    obtain ⟨b1, b2, b3⟩ := a3 h hr
    exact ⟨b1.imp pass k2, fun h => pass (b2 h), fun h => k2 (b3 h)⟩

open Classical in
/-- C82, `test_hand_eye_calibration_with_noise`, all ways to end, whatever noise is drawn (no axis shorter than 10⁻¹³): an exception if the prefilter leaves fewer
than three poses; otherwise RANSAC goes on, or it reports a success and the test passes exactly if the calibration is no half turn and its components
are within 0.04 (and 10⁻⁵ relative) of the true ones. -/
theorem C82_noise_outcome (svd : Svd) (d : TestDraws) (h1 : Spec.Rotation4 d.rotation_H_E) (h2 : Spec.Rotation4 d.rotation_B_W)
    (n1 : ¬ Spec.HalfTurn4 d.rotation_H_E) (n2 : ¬ Spec.HalfTurn4 d.rotation_B_W)
    (aB : ∀ i, 1e-13 < (d.path_B_H.noise_axis i).norm) (aW : ∀ i, 1e-13 < (d.path_W_E.noise_axis i).norm) (fuel : ℕ) :
    ∃ X W bs ws, testTransforms d = .ok (X, W) ∧
      generateTestPaths 20 X W true noiseOptions noiseOptions d.path_B_H d.path_W_E = .ok (bs, ws) ∧
      ((filteredPoses testConfig bs ws = .error .assertion ∧ testWithNoise svd d (fuel + 1) = .error .assertion) ∨
       ∃ bf wf, filteredPoses testConfig bs ws = .ok (bf, wf) ∧
        (wf.length < 3 → testWithNoise svd d (fuel + 1) = .error .value) ∧
        (3 ≤ wf.length → (∀ k, Spec.IsSample wf.length 3 (d.samples k)) →
          (testWithNoise svd d (fuel + 1) = .ok none ∨ ∃ r Y, ransac svd d.samples testConfig bs ws (fuel + 1) = .ok (some r) ∧ r.success = true ∧
            r.dq_H_E = some Y ∧ testWithNoise svd d (fuel + 1) =
              if Y.rot.w ≠ 0 ∧ ∀ j, |Spec.vec8 X j - Spec.vec8 Y j| ≤ 4e-2 + 1e-5 * |Spec.vec8 Y j| then .ok (some ()) else .error .assertion) ∧
          (50 ≤ ((List.range (fuel + 1)).countP fun k => decide (Spec.LeadsToCalibration svd testConfig 1e-2 (bf.zip wf) (bs.zip ws) (d.samples k))) →
            testWithNoise svd d (fuel + 1) ≠ .ok none) ∧
          ((∀ k < fuel + 1, ¬ Spec.LeadsToCalibration svd testConfig 1e-2 (bf.zip wf) (bs.zip ws) (d.samples k)) →
            testWithNoise svd d (fuel + 1) = .ok none))) := by
  obtain ⟨X, W, bs, ws, et, ep, k1, k2, k3⟩ := C82_noise_test svd d h1 h2 n1 n2 aB aW (fuel + 1)
  obtain ⟨X', W', et', uX, -, uW⟩ := testTransforms_ok d h1 h2 n1 n2
  rw [et] at et'
  cases et'
  obtain ⟨v, hv⟩ := noisyPath_total 20 (d := d.path_B_H) (o := noiseOptions) rfl (by norm_num [noiseOptions]) (by norm_num [noiseOptions])
    (fun i => noiseAxis_long (aB i))
  obtain ⟨u, hu⟩ := noisyPath_total 20 (d := d.path_W_E) (o := noiseOptions) rfl (by norm_num [noiseOptions]) (by norm_num [noiseOptions])
    (fun i => noiseAxis_long (aW i))
  have units : ∀ (p : PathDraws) (l : List DQuat), generateTestPath 20 noiseOptions p = .ok l → ∀ a ∈ l, Spec.IsUnit a := by
    intro p l hl a ha
    obtain ⟨i, hi, rfl⟩ := List.getElem_of_mem ha
    exact ((C80_noise_position 20 noiseOptions p rfl rfl l hl).2 i hi).1
  obtain ⟨bs', ws', ep', ub, uw, lb, lw⟩ := paths_unit (by norm_num) uX uW hv hu (units _ v hv) (units _ u hu)
  rw [ep] at ep'
  cases ep'
  refine ⟨X, W, bs, ws, et, ep, ?_⟩
  rcases test_course svd d.samples ub uw lb lw fuel with ⟨a1, a2⟩ | ⟨bf, wf, a1, a2, a3⟩
  · exact Or.inl ⟨a1, k3 _ a2⟩
  · refine Or.inr ⟨bf, wf, a1, fun h => k3 _ (a2 h), fun h hr => ?_⟩
    obtain ⟨b1, b2, b3⟩ := a3 h hr
    refine ⟨?_, fun h hn => ?_, fun h => k2 (b3 h)⟩
    · rcases b1 with ⟨r, r1, r2⟩ | h
      · right
        obtain ⟨-, -, -, -, c, -, -, -, e1, -⟩ := C37_best_candidate svd d.samples testConfig bs ws (fuel + 1) r r1 r2
        obtain ⟨c1, c2⟩ := k1 r r1
        refine ⟨r, c.dq_H_E, r1, r2, e1, ?_⟩
        split
        · next hc => exact c1.mpr ⟨r2, _, e1, hc⟩
        · next hc =>
          refine c2.resolve_left fun hh => hc ?_
          obtain ⟨-, Y, hY, hh⟩ := c1.mp hh
          rw [e1] at hY
          cases hY
          exact hh
      · exact Or.inl (k2 h)
    · obtain ⟨r, r1, r2⟩ := b2 h
      rcases (k1 r r1).2 with h | h <;> rw [h] at hn <;> cases hn

end HandEye
