import Verif.Props.UnitTests5
import Verif.Props.UnitTests7
import Verif.Props.TestPaths4

/-! # Property C82, an example: the test with outliers when none is drawn -/

namespace HandEye

/-- The path with the options of outliers, none of which is drawn, is the plain path. -/
theorem no_outlier_drawn {o : PathOptions} (h1 : o.include_noise = false) (h2 : o.outlier_probability < 1) (d : PathDraws) :
    ∃ v, generateTestPath 20 o (oneOutlier 1) = .ok v ∧ generateTestPath 20 {} d = .ok v ∧ v.length = 20 ∧
      ∀ i (h : i < v.length), v[i] = helixPose (Spec.sampleTime 20 i) := by
  obtain ⟨v, hv⟩ := generateTestPath_total 20 (o := o) (oneOutlier 1) h1
  obtain ⟨u, hu⟩ := generateTestPath_total 20 (o := {}) d rfl
  obtain ⟨lv, sv⟩ := generateTestPath_sound hv
  obtain ⟨lu, su⟩ := generateTestPath_sound hu
  have ev : ∀ i (h : i < v.length), v[i] = helixPose (Spec.sampleTime 20 i) := by
    intro i h
    refine sample_inlier h1 (sv i h) ?_
    unfold Spec.IsOutlier
    rintro ⟨-, h⟩
    have : (oneOutlier 1).outlier i = 1 := by unfold oneOutlier; simp
    rw [this] at h
    linarith
  have eu : ∀ i (h : i < u.length), u[i] = helixPose (Spec.sampleTime 20 i) := by
    intro i h
    refine sample_inlier rfl (su i h) ?_
    rintro ⟨h, -⟩
    cases h
  have e : v = u := List.ext_getElem (by rw [lv, lu]) fun i h1 h2 => by rw [ev i h1, eu i h2]
  exact ⟨v, hv, by rw [e]; exact hu, lv, ev⟩

/-- If no outlier is drawn, the prefilter leaves at least three poses, and whatever is drawn for RANSAC and whichever correct linear algebra library is used, the
test passes or RANSAC goes on. -/
example (svd : Svd) (hsvd : ∀ T s V, svd T = .ok (s, V) → Spec.IsSVD T s V) (d : TestDraws)
    (h1 : Spec.Rotation4 d.rotation_H_E) (h2 : Spec.Rotation4 d.rotation_B_W)
    (n1 : ¬ Spec.HalfTurn4 d.rotation_H_E) (n2 : ¬ Spec.HalfTurn4 d.rotation_B_W)
    (hB : d.path_B_H = oneOutlier 1) (hW : d.path_W_E = oneOutlier 1) (fuel : ℕ) :
    ∃ n, 3 ≤ n ∧ ((∀ k, Spec.IsSample n 3 (d.samples k)) →
      testWithOutliers svd d (fuel + 1) = .ok (some ()) ∨ testWithOutliers svd d (fuel + 1) = .ok none) := by
  obtain ⟨v, hv, hv', lv, sv⟩ := no_outlier_drawn (o := outlierOptions_B_H) rfl (by norm_num [outlierOptions_B_H]) (oneOutlier 1)
  obtain ⟨u, hu, hu', lu, su⟩ := no_outlier_drawn (o := outlierOptions_W_E) rfl (by norm_num [outlierOptions_W_E]) (oneOutlier 1)
  have half : ∀ l : List DQuat, l.length = 20 → (∀ i (h : i < l.length), l[i] = helixPose (Spec.sampleTime 20 i)) → Spec.NoHalfTurns l := by
    intro l hl sl
    rw [noHalfTurns_iff]
    intro a ha b hb
    obtain ⟨i, hi, rfl⟩ := List.getElem_of_mem ha
    obtain ⟨j, hj, rfl⟩ := List.getElem_of_mem hb
    rw [sl i hi, sl j hj]
    exact helix_no_half (by omega) (by omega)
  have good : ∀ i, Spec.GoodSample outlierOptions_B_H outlierOptions_W_E (oneOutlier 1) (oneOutlier 1) i := by
    intro i
    unfold Spec.GoodSample Spec.IsOutlier
    norm_num [outlierOptions_B_H, outlierOptions_W_E, oneOutlier]
  obtain ⟨X, W, bs, ws, et, ep, hc⟩ := C82_outlier_outcome svd hsvd d h1 h2 n1 n2 (by rw [hB]; exact oneOutlier_uniform 1)
    (by rw [hW]; exact oneOutlier_uniform 1) v u (by rw [hB]; exact hv) (by rw [hW]; exact hu) (half v lv sv) (half u lu su)
    _ rfl (by rw [hB, hW]; exact ⟨0, 1, 2, by norm_num, by norm_num, by norm_num, good 0, good 1, good 2⟩)
    (by rw [hB, hW]; exact fun _ j _ _ _ _ _ _ => good j) (by rw [hB, hW]; exact fun i _ _ h => absurd (good i) h) fuel
  obtain ⟨X', W', et', uX, -, uW⟩ := testTransforms_ok d h1 h2 n1 n2
  rw [et] at et'
  cases et'
  obtain ⟨bs', ws', bf, wf, e1, e2, e3, e4⟩ := C80_prefilter 20 (by norm_num) (by norm_num) X W uX uW {} {} (oneOutlier 1) (oneOutlier 1) rfl rfl rfl rfl
    testConfig.prefilter_dot_product_threshold (by norm_num [testConfig])
  have ee : (bs', ws') = (bs, ws) := by
    rw [hB, hW] at ep
    unfold generateTestPaths at e1 ep
    rw [hv] at ep
    rw [hv'] at e1
    rw [hv'] at hu'
    cases hu'
    rw [hu] at ep
    rw [ep] at e1
    exact (Except.ok.inj e1).symm
  cases ee
  have hf : filteredPoses testConfig bs ws = .ok (bf, wf) := by
    unfold filteredPoses
    rw [if_pos (show testConfig.prefilter_poses_enabled = true from rfl), e2, Py.ok_bind, pyAssert_pos e4.symm]
    rfl
  refine ⟨wf.length, by omega, fun hr => ?_⟩
  rcases hc with ⟨h, -⟩ | ⟨bf', wf', h, -, h'⟩
  · rw [hf] at h; cases h
  · rw [hf] at h
    cases h
    exact (h' (by omega) hr).1

end HandEye
