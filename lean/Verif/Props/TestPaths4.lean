import Verif.Lemmas.HelixAxes
import Verif.Props.UnitTests3

/-! # Properties C80 and C82: on the paths that the tests generate, RANSAC succeeds and the first test passes -/

namespace HandEye

theorem vecDot_sign {p p' q q' : Quat} (hp : p' = p ∨ p' = -p) (hq : q' = q ∨ q' = -q) : vecDot p' q' ≤ |vecDot p q| := by
  rcases hp with rfl | rfl <;> rcases hq with rfl | rfl
  · exact le_abs_self _
  · have : vecDot p' (-q) = -vecDot p' q := by simp [vecDot]; ring
    rw [this]; exact neg_le_abs _
  · have : vecDot (-p) q' = -vecDot p q' := by simp [vecDot]; ring
    rw [this]; exact neg_le_abs _
  · have : vecDot (-p) (-q) = vecDot p q := by simp [vecDot]
    rw [this]; exact le_abs_self _

theorem sample_rot (t : ℝ) : (helixPose t).rot = helixQuat t ∨ (helixPose t).rot = -helixQuat t := by
  rw [helixPose_rot, normalizePositive_unit (helixQuat_dot t)]
  split_ifs
  · exact Or.inr rfl
  · exact Or.inl rfl

theorem sample_halfSine (t : ℝ) : halfSine (helixPose t).rot = halfSine (helixQuat t) := by
  rcases sample_rot t with h | h <;> rw [h]
  exact halfSine_neg _

/-- The facts about noise-free paths that the calibration needs. -/
theorem plain_mounted {n : ℕ} (hn : 4 ≤ n) {X W : DQuat} (hX : Spec.IsUnit X) (hW : Spec.IsUnit W)
    {oB oW : PathOptions} {dB dW : PathDraws} (hB : oB.include_outliers = false) (hB' : oB.include_noise = false)
    (hW1 : oW.include_outliers = false) (hW2 : oW.include_noise = false) :
    ∃ bs ws, generateTestPaths n X W true oB oW dB dW = .ok (bs, ws) ∧ bs.length = n ∧
      bs.head? = some DQuat.identity ∧ (∀ b ∈ bs, Spec.IsUnit b) ∧ Spec.Mounted X.conj X bs ws ∧
      Spec.TurnsAboutTwoAxes bs := by
  obtain ⟨bs, ws, e, lb, lw, hb, -, ub, -, hex⟩ := C80_exact n (by omega) X W hX hW oB oW dB dW hB hB' hW1 hW2
  obtain ⟨b₁, hb₁, b₂, hb₂, hne⟩ := (C80_two_axes n (by omega) X W hX hW oB oW dB dW hB hB' hW1 hW2 bs ws e).mpr hn
  have hid : DQuat.identity ∈ bs := List.mem_of_mem_head? (by rw [hb]; rfl)
  refine ⟨bs, ws, e, lb, hb, fun b h => (ub b h).1, ?_, ?_⟩
  · rw [mounted_iff]
    have hz := List.forall₂_iff_get.mp hex
    refine List.ext_getElem (by rw [List.length_map, lb, lw]) fun i h1 h2 => ?_
    have hp := hz.2 i (by omega) h1
    rw [handEyeEq_iff, List.get_eq_getElem, List.get_eq_getElem] at hp
    rw [List.getElem_map, mul_assoc, hp, ← mul_assoc, DQuat.conj_mul_unit hX, one_mul]
  · refine ⟨_, hid, b₁, hb₁, b₂, hb₂, ?_⟩
    have : DQuat.identity.conj = 1 := by
      rw [← DQuat.one_eq]; apply DQuat.ext' <;> ext <;> simp
    rwa [this, one_mul, one_mul]

/-- C80: the screw axis filter with a threshold of at least 0.95 leaves at least three poses of every noise-free path of
twenty to 10¹¹ samples.  (With more samples than that the first ones turn so little that the filter drops them.) -/
theorem C80_prefilter (n : ℕ) (hn : 20 ≤ n) (hn' : n ≤ 10 ^ 11) (X W : DQuat) (hX : Spec.IsUnit X) (hW : Spec.IsUnit W)
    (oB oW : PathOptions) (dB dW : PathDraws) (hB : oB.include_outliers = false) (hB' : oB.include_noise = false)
    (hW1 : oW.include_outliers = false) (hW2 : oW.include_noise = false) (thr : ℝ) (ht : 0.95 ≤ thr) :
    ∃ bs ws bf wf, generateTestPaths n X W true oB oW dB dW = .ok (bs, ws) ∧
      prefilterUsingScrewAxis bs ws thr = .ok (bf, wf) ∧ 3 ≤ bf.length ∧ bf.length = wf.length := by
  obtain ⟨bs, ws, e, lb, hb, ub, hm, -⟩ := plain_mounted (dB := dB) (dW := dW) (by omega : 4 ≤ n) hX hW hB hB' hW1 hW2
  have epl := plain_paths (by omega) hX hW hB hB' hW2 (fun h => absurd h (by rw [hW1]; exact Bool.false_ne_true)) e
  have hR : (20 : ℝ) ≤ n := by exact_mod_cast hn
  have hR' : (n : ℝ) ≤ 10 ^ 11 := by exact_mod_cast hn'
  have hN : (0 : ℝ) < (n : ℝ) - 1 := by linarith
  have hget : ∀ i < n, bs[i]? = some ((helixPose (Spec.sampleTime n 0)).conj * helixPose (Spec.sampleTime n i)) := by
    intro i hi
    rw [epl, List.getElem?_map, List.getElem?_range hi]
    rfl
  have hh : bs[0]? = some DQuat.identity := by rw [← List.head?_eq_getElem?, hb]
  have ht1 : ∀ i, i < n → 0 ≤ Spec.sampleTime n i ∧ Spec.sampleTime n i ≤ 1 := by
    intro i hi
    unfold Spec.sampleTime
    have : (i : ℝ) + 1 ≤ n := by exact_mod_cast hi
    constructor
    · positivity
    · rw [div_le_one hN]; linarith
  have hturn : ∀ (i : ℕ) b, 0 < i → bs[i]? = some b → 1e-12 < halfSine b.rot := by
    intro i b hi hb'
    have hin : i < n := by
      have := (List.getElem?_eq_some_iff.mp hb').1
      omega
    rw [hget i hin] at hb'
    cases hb'
    rw [plain_rot, sample_halfSine]
    obtain ⟨t0, t1⟩ := ht1 i hin
    refine lt_of_lt_of_le ?_ (helix_turned t0 t1)
    have : 1e-11 ≤ Spec.sampleTime n i := by
      unfold Spec.sampleTime
      rw [le_div_iff₀ hN]
      have : (1 : ℝ) ≤ i := by exact_mod_cast hi
      have hc : (10 : ℝ) ^ 11 = 100000000000 := by norm_num
      rw [hc] at hR'
      norm_num
      linarith
    norm_num at this ⊢
    linarith
  obtain ⟨m, hmdef⟩ : ∃ m, m = (3 * (n - 1) + 2) / 4 := ⟨_, rfl⟩
  have m1 : 4 * m ≤ 3 * (n - 1) + 2 := by omega
  have m2 : 3 * (n - 1) ≤ 4 * m + 1 := by omega
  have hnear : |Spec.sampleTime n m - 3 / 4| ≤ 1 / 38 := by
    have r1 : 4 * (m : ℝ) ≤ 3 * ((n : ℝ) - 1) + 2 := by
      have : (4 * m + 3 : ℕ) ≤ (3 * n + 2 : ℕ) := by omega
      have : (4 * m + 3 : ℝ) ≤ (3 * n + 2 : ℝ) := by exact_mod_cast this
      linarith
    have r2 : 3 * ((n : ℝ) - 1) ≤ 4 * (m : ℝ) + 1 := by
      have : (3 * n : ℕ) ≤ (4 * m + 4 : ℕ) := by omega
      have : (3 * n : ℝ) ≤ (4 * m + 4 : ℝ) := by exact_mod_cast this
      linarith
    unfold Spec.sampleTime
    rw [show (m : ℝ) / ((n : ℝ) - 1) - 3 / 4 = (4 * m - 3 * ((n : ℝ) - 1)) / (4 * ((n : ℝ) - 1)) by field_simp,
      abs_div, abs_of_pos (by linarith : 0 < 4 * ((n : ℝ) - 1)), div_le_iff₀ (by linarith), abs_le]
    constructor <;> linarith
  have hfirst : 0 < Spec.sampleTime n 1 ∧ Spec.sampleTime n 1 ≤ 1 / 19 := by
    unfold Spec.sampleTime
    rw [Nat.cast_one]
    exact ⟨by positivity, one_div_le_one_div_of_le (by norm_num) (by linarith)⟩
  have hlast : Spec.sampleTime n (n - 1) = 1 := by
    unfold Spec.sampleTime
    rw [Nat.cast_sub (by omega), Nat.cast_one, div_self hN.ne']
  have hs0 : ∀ q, 0 ≤ halfSine q := fun q => Real.sqrt_nonneg _
  obtain ⟨bf, wf, f1, f2, f3⟩ := prefilter_three hX ub hm (by linarith : (0.9 : ℝ) ≤ thr) hh hturn (j := m) (k := n - 1)
    (by omega) (by omega) (hget 1 (by omega)) (hget m (by omega)) (hget (n - 1) (by omega))
    (by
      rw [plain_rot, plain_rot, sample_halfSine, sample_halfSine]
      refine (vecDot_sign (sample_rot _) (sample_rot _)).trans ((first_near hfirst.1 hfirst.2 hnear).trans ?_)
      exact mul_le_mul_of_nonneg_right ht (mul_nonneg (hs0 _) (hs0 _)))
    (by
      rw [plain_rot, plain_rot, sample_halfSine, sample_halfSine, hlast]
      refine (vecDot_sign (sample_rot _) (sample_rot _)).trans ((first_last hfirst.1 hfirst.2).trans ?_)
      exact mul_le_mul_of_nonneg_right (by linarith) (mul_nonneg (hs0 _) (hs0 _)))
    (by
      rw [plain_rot, plain_rot, sample_halfSine, sample_halfSine, hlast]
      refine (vecDot_sign (sample_rot _) (sample_rot _)).trans ((near_last hnear).trans ?_)
      exact mul_le_mul_of_nonneg_right (by norm_num) (mul_nonneg (hs0 _) (hs0 _)))
  exact ⟨bs, ws, bf, wf, e, f1, f2, f3⟩

/-- C80: there are correct singular value decompositions with which RANSAC succeeds on all noise-free paths of twenty to
10¹¹ samples, whatever valid samples are drawn, and finds the given transform.  (With others it may fail, see C28.) -/
theorem C80_succeeds : ∃ svd : Svd, (∀ T s V, svd T = .ok (s, V) → Spec.IsSVD T s V) ∧
    ∀ (cfg : HandEyeConfig), cfg.ransac_inlier_classification = .scalarPartEquality →
      0 ≤ cfg.ransac_sample_rejection_scalar_part_equality_tolerance →
      0 ≤ cfg.hand_eye_calibration_scalar_part_equality_tolerance →
      0 < cfg.ransac_sample_size → cfg.ransac_sample_size ≤ 3 → 0 < cfg.ransac_max_number_iterations →
      0 < cfg.ransac_outlier_probability → cfg.ransac_outlier_probability < 1 →
      cfg.ransac_success_probability_threshold < 1 →
      (cfg.prefilter_poses_enabled = true → 0.95 ≤ cfg.prefilter_dot_product_threshold) →
      ∀ n : ℕ, 20 ≤ n → n ≤ 10 ^ 11 → cfg.min_num_inliers ≤ n → ∀ X W : DQuat, Spec.IsUnit X → 0 < X.rot.w →
      Spec.IsUnit W → ∀ (oB oW : PathOptions) (dB dW : PathDraws), oB.include_outliers = false →
      oB.include_noise = false → oW.include_outliers = false → oW.include_noise = false →
      ∃ bs ws bf wf, generateTestPaths n X W true oB oW dB dW = .ok (bs, ws) ∧ filteredPoses cfg bs ws = .ok (bf, wf) ∧
        3 ≤ wf.length ∧ ∀ rng : ℕ → List ℕ, (∀ k, Spec.IsSample wf.length cfg.ransac_sample_size (rng k)) →
        ∃ r, ransac svd rng cfg bs ws (if cfg.enable_exhaustive_search then wf.length.choose cfg.ransac_sample_size
            else cfg.ransac_max_number_iterations) = .ok (some r) ∧ r.success = true ∧ r.dq_H_E = some X ∧
          r.rmse = some (0, 0) ∧ r.num_inliers = n := by
  obtain ⟨svd, hv, hgood⟩ := exists_good_svd
  refine ⟨svd, hv, ?_⟩
  intro cfg hmode htol htol' hs0 hs3 hmax ho ho' hp hpre n hn hn' hmin X W hX hXw hW oB oW dB dW hB hB' hW1 hW2
  obtain ⟨bs, ws, e, lb, hb, ub, hm, h2⟩ := plain_mounted (dB := dB) (dW := dW) (by omega : 4 ≤ n) hX hW hB hB' hW1 hW2
  have hl : ws.length = bs.length := by rw [mounted_iff.mp hm, List.length_map]
  obtain ⟨bf, wf, hf, h3⟩ : ∃ bf wf, filteredPoses cfg bs ws = .ok (bf, wf) ∧ 3 ≤ wf.length := by
    by_cases hen : cfg.prefilter_poses_enabled = true
    · obtain ⟨bs', ws', bf, wf, e', f1, f2, f3⟩ := C80_prefilter n hn hn' X W hX hW oB oW dB dW hB hB' hW1 hW2 _ (hpre hen)
      rw [e] at e'
      cases e'
      refine ⟨bf, wf, ?_, by omega⟩
      unfold filteredPoses
      rw [if_pos hen, f1, Py.ok_bind, pyAssert_pos f3.symm, Py.ok_bind]
      rfl
    · refine ⟨bs, ws, ?_, by omega⟩
      unfold filteredPoses
      rw [if_neg hen]
  refine ⟨bs, ws, bf, wf, e, hf, h3, fun rng hrng => ?_⟩
  have hgX := DQuat.isUnit_conj hX
  obtain ⟨r, r1, r2⟩ := C61_succeeds svd hv rng cfg hmode htol hs0 hmax ho ho' hp X.conj X hgX hX hXw.ne' bs ws ub hm h2
    (by omega) (by omega)
    (by
      intro k hk B' W' hB' hW'
      obtain ⟨B'', W'', e1, e2, e3, -, e5, -, e7, -⟩ := mounted_align hgX hX ub hm hk
      rw [hB'] at e1
      rw [hW'] at e2
      cases e1
      cases e2
      refine hgood B' W' X hX hXw.ne' e5 ?_ e7 _ htol'
      obtain ⟨b₁, hb₁, b₂, hb₂, hne⟩ := twoAxes_any_base ub h2 (List.getElem_mem hk)
      rw [e3, List.map_rotate]
      exact ⟨b₁, List.mem_rotate.mpr hb₁, b₂, List.mem_rotate.mpr hb₂, hne⟩)
    bf wf hf (by omega) hrng
  exact ⟨r, r1, r2, C80_calibration svd hv rng cfg hmode htol n (by omega) X W hX hXw hW oB oW dB dW hB hB' hW1 hW2 bs ws e
    _ r r1 r2⟩

/-- C82: with such a singular value decomposition, `test_hand_eye_calibration` passes for all drawn transforms that are no
half turns and all drawn samples (its fifty iterations are enough). -/
theorem C82_hand_eye_passes : ∃ svd : Svd, (∀ T s V, svd T = .ok (s, V) → Spec.IsSVD T s V) ∧
    ∀ d : TestDraws, Spec.Rotation4 d.rotation_H_E → Spec.Rotation4 d.rotation_B_W → ¬ Spec.HalfTurn4 d.rotation_H_E →
      ¬ Spec.HalfTurn4 d.rotation_B_W →
      (∀ X W bs ws bf wf, testTransforms d = .ok (X, W) →
        generateTestPaths 20 X W true {} {} d.path_B_H d.path_W_E = .ok (bs, ws) →
        filteredPoses testConfig bs ws = .ok (bf, wf) → ∀ k, Spec.IsSample wf.length 3 (d.samples k)) →
      testHandEyeCalibration svd d 50 = .ok (some ()) := by
  obtain ⟨svd, hv, H⟩ := C80_succeeds
  refine ⟨svd, hv, fun d h1 h2 n1 n2 hs => ?_⟩
  obtain ⟨X, W, bs, ws, et, ep, hr, -⟩ := C82_hand_eye_test svd hv d h1 h2 n1 n2 50
  obtain ⟨X', W', et', uX, wX, uW⟩ := testTransforms_ok d h1 h2 n1 n2
  rw [et] at et'
  cases et'
  obtain ⟨bs', ws', bf, wf, e, f, -, hran⟩ := H testConfig rfl (by norm_num [testConfig]) (by norm_num [testConfig])
    (by norm_num [testConfig]) (by norm_num [testConfig]) (by norm_num [testConfig]) (by norm_num [testConfig])
    (by norm_num [testConfig]) (by norm_num [testConfig]) (fun _ => by norm_num [testConfig]) 20 (by norm_num) (by norm_num)
    (by norm_num [testConfig]) X W uX wX uW {} {} d.path_B_H d.path_W_E rfl rfl rfl rfl
  rw [ep] at e
  cases e
  obtain ⟨r, r1, r2, -⟩ := hran d.samples (hs X W bs ws bf wf et ep f)
  have h50 := hr r r1
  rw [if_pos r2] at h50
  exact h50

/-- Two quarter turns about the z axis, and always the first three of the poses that are left. -/
def quarterDraws (p q : PathDraws) : TestDraws where
  rotation_H_E := !![0, -1, 0, 0; 1, 0, 0, 0; 0, 0, 1, 0; 0, 0, 0, 1]
  rotation_B_W := !![0, -1, 0, 0; 1, 0, 0, 0; 0, 0, 1, 0; 0, 0, 0, 1]
  translation_H_E := ⟨1, 2, 3⟩
  translation_B_W := ⟨-4, 5, 0⟩
  path_B_H := p
  path_W_E := q
  samples := fun _ => [0, 1, 2]

theorem quarter_rotation4 : Spec.Rotation4 !![0, -1, 0, 0; 1, 0, 0, 0; 0, 0, 1, 0; 0, 0, 0, 1] :=
  ⟨by
    have : (Matrix.of fun i j : Fin 3 => (!![0, -1, 0, 0; 1, 0, 0, 0; 0, 0, 1, 0; 0, 0, 0, 1] : Matrix (Fin 4) (Fin 4) ℝ)
        i.castSucc j.castSucc) = !![0, -1, 0; 1, 0, 0; 0, 0, 1] := by
      ext i j; fin_cases i <;> fin_cases j <;> rfl
    rw [this, Matrix.mem_specialOrthogonalGroup_iff, Matrix.mem_orthogonalGroup_iff]
    constructor
    · ext i j
      fin_cases i <;> fin_cases j <;> simp [Matrix.mul_apply, Fin.sum_univ_three]
    · simp [Matrix.det_fin_three], by intro j; fin_cases j <;> rfl, by intro j; fin_cases j <;> rfl, rfl⟩

theorem quarter_not_halfTurn4 : ¬ Spec.HalfTurn4 !![0, -1, 0, 0; 1, 0, 0, 0; 0, 0, 1, 0; 0, 0, 0, 1] := by
  unfold Spec.HalfTurn4; simp; norm_num

example (p q : PathDraws) : ∃ svd : Svd, (∀ T s V, svd T = .ok (s, V) → Spec.IsSVD T s V) ∧
    testHandEyeCalibration svd (quarterDraws p q) 50 = .ok (some ()) := by
  obtain ⟨svd, hv, H⟩ := C82_hand_eye_passes
  refine ⟨svd, hv, H _ quarter_rotation4 quarter_rotation4 quarter_not_halfTurn4 quarter_not_halfTurn4 ?_⟩
  intro X W bs ws bf wf et ep hf k
  obtain ⟨X', W', et', uX, -, uW⟩ := testTransforms_ok (quarterDraws p q) quarter_rotation4 quarter_rotation4
    quarter_not_halfTurn4 quarter_not_halfTurn4
  rw [et] at et'
  cases et'
  obtain ⟨bs', ws', bf', wf', e, f1, f2, f3⟩ := C80_prefilter 20 (by norm_num) (by norm_num) X W uX uW {} {} p q rfl rfl rfl
    rfl 0.975 (by norm_num)
  change generateTestPaths 20 X W true {} {} p q = _ at ep
  rw [ep] at e
  cases e
  unfold filteredPoses at hf
  rw [if_pos (by rfl)] at hf
  change (prefilterUsingScrewAxis bs ws 0.975 >>= _) = _ at hf
  rw [f1, Py.ok_bind, pyAssert_pos f3.symm, Py.ok_bind] at hf
  cases hf
  refine ⟨rfl, by simp [quarterDraws], ?_⟩
  intro i hi
  simp [quarterDraws] at hi
  omega

/-- The exhaustive search on a hundred samples. -/
example (X W : DQuat) (hX : Spec.IsUnit X) (hXw : 0 < X.rot.w) (hW : Spec.IsUnit W) (p q : PathDraws) :
    ∃ bs ws bf wf, generateTestPaths 100 X W true {} {} p q = .ok (bs, ws) ∧
      filteredPoses { enable_exhaustive_search := true } bs ws = .ok (bf, wf) ∧ 3 ≤ wf.length := by
  obtain ⟨svd, -, H⟩ := C80_succeeds
  obtain ⟨bs, ws, bf, wf, h1, h2, h3, -⟩ := H { enable_exhaustive_search := true } rfl (by norm_num) (by norm_num) (by norm_num)
    (by norm_num) (by norm_num) (by norm_num) (by norm_num) (by norm_num) (fun _ => by norm_num) 100 (by norm_num)
    (by norm_num) (by norm_num) X W hX hXw hW {} {} p q rfl rfl rfl rfl
  exact ⟨bs, ws, bf, wf, h1, h2, h3⟩

end HandEye
