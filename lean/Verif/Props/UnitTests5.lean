import Verif.Props.UnitTests4

/-! # C82: an example for the test with outliers -/

namespace HandEye

/-- The first sample of the eye is an outlier, turned about the z axis by 177 degrees, if the given number is small; there are no
others. -/
noncomputable def oneOutlier (first : ℝ) : PathDraws where
  outlier i := if i = 0 then first else 1
  q _ := ⟨0, 0, Real.sin (Real.pi * 28 / 57), Real.cos (Real.pi * 28 / 57)⟩
  size _ := ⟨1 / 2, 1 / 2, 1 / 2⟩
  coin _ := ⟨0, 0, 0⟩
  noise_pos _ := ⟨0, 0, 0⟩
  noise_axis _ := ⟨0, 0, 0⟩
  noise_angle _ := 0

/-- The multiples of 2 pi / 19 that the samples are turned by are far from those that make the outlier look like a good sample. -/
theorem sin_far {k : ℤ} (hk : ¬ 57 ∣ k) : 2 / 57 ≤ |Real.sin (Real.pi * k / 57)| := by
  obtain ⟨r, j, h1, h2, h3, h4⟩ : ∃ r j : ℤ, k = 57 * r + j ∧ -28 ≤ j ∧ j ≤ 28 ∧ j ≠ 0 := by
    refine ⟨(k + 28) / 57, k - 57 * ((k + 28) / 57), by ring, ?_, ?_, ?_⟩ <;> omega
  have e : Real.sin (Real.pi * k / 57) = Real.sin (Real.pi * j / 57 + r * Real.pi) := by
    congr 1
    rw [h1]
    push_cast
    ring
  have e1 : |Real.sin (Real.pi * j / 57 + r * Real.pi)| = |Real.sin (Real.pi * j / 57)| := by
    rw [Real.sin_add_int_mul_pi, abs_mul, abs_zpow, abs_neg, abs_one, one_zpow, one_mul]
  have e2 : |Real.sin (Real.pi * j / 57)| = |Real.sin (Real.pi * |(j : ℝ)| / 57)| := by
    rcases abs_choice (j : ℝ) with h | h <;> rw [h]
    rw [show Real.pi * -(j : ℝ) / 57 = -(Real.pi * j / 57) by ring, Real.sin_neg, abs_neg]
  have hj1 : (1 : ℝ) ≤ |(j : ℝ)| := by
    have : (1 : ℤ) ≤ |j| := Int.one_le_abs h4
    exact_mod_cast this
  have hj2 : |(j : ℝ)| ≤ 28 := by
    have : |j| ≤ 28 := abs_le.mpr ⟨by omega, h3⟩
    exact_mod_cast this
  have hpi := Real.pi_pos
  have hs := Real.mul_le_sin (x := Real.pi * |(j : ℝ)| / 57) (by positivity) (by nlinarith)
  have e3 : 2 / Real.pi * (Real.pi * |(j : ℝ)| / 57) = |(j : ℝ)| * (2 / 57) := by
    field_simp
  rw [e3] at hs
  rw [e, e1, e2]
  refine le_trans ?_ (le_abs_self _)
  linarith

theorem sin_outlier : 56 / 57 ≤ Real.sin (Real.pi * 28 / 57) := by
  have hpi := Real.pi_pos
  have hs := Real.mul_le_sin (x := Real.pi * 28 / 57) (by positivity) (by linarith)
  have e3 : 2 / Real.pi * (Real.pi * 28 / 57) = 56 / 57 := by
    field_simp
    norm_num
  rwa [e3] at hs

theorem cos_outlier : 0 ≤ Real.cos (Real.pi * 28 / 57) := by
  have hpi := Real.pi_pos
  exact Real.cos_nonneg_of_mem_Icc ⟨by linarith, by linarith⟩

theorem oneOutlier_uniform (a : ℝ) : Spec.UniformDraws (oneOutlier a) := by
  intro i
  have h1 := sin_outlier
  have h2 := cos_outlier
  have h3 := Real.sin_sq_add_cos_sq (Real.pi * 28 / 57)
  unfold oneOutlier
  refine ⟨by norm_num, by norm_num, by norm_num, by norm_num, by norm_num, by norm_num, le_refl _, le_refl _, by dsimp only; linarith, h2, ?_⟩
  dsimp only
  norm_num

/-- The outlier is seen from every sample. -/
theorem outlier_visible {m : ℕ} (hm : m < 20) :
    1.1e-2 < abs (|Real.cos (Real.pi * Spec.sampleTime 20 m / 5) * Real.cos (2 * Real.pi * Spec.sampleTime 20 m + Real.pi * 28 / 57)| -
      |Real.cos (Real.pi * Spec.sampleTime 20 m / 5) * Real.cos (2 * Real.pi * Spec.sampleTime 20 m)|) := by
  have et : Spec.sampleTime 20 m = m / 19 := by
    unfold Spec.sampleTime
    norm_num
  rw [et]
  have hc := sin_far (k := 12 * (m : ℤ) + 28) (by omega)
  have hp := sin_outlier
  have e2 : Real.pi * ((12 * (m : ℤ) + 28 : ℤ) : ℝ) / 57 = 2 * (2 * Real.pi * ((m : ℝ) / 19)) + Real.pi * 28 / 57 := by
    push_cast
    ring
  rw [e2] at hc
  have hcc : Real.cos (2 * Real.pi * ((m : ℝ) / 19)) ^ 2 - Real.cos (2 * Real.pi * ((m : ℝ) / 19) + Real.pi * 28 / 57) ^ 2 =
      Real.sin (2 * (2 * Real.pi * ((m : ℝ) / 19)) + Real.pi * 28 / 57) * Real.sin (Real.pi * 28 / 57) := by
    have k1 := Real.sin_sq_add_cos_sq (2 * Real.pi * ((m : ℝ) / 19))
    have k2 := Real.sin_sq_add_cos_sq (Real.pi * 28 / 57)
    rw [Real.sin_add, Real.cos_add, Real.sin_two_mul, Real.cos_two_mul']
    linear_combination Real.cos (2 * Real.pi * (↑m / 19)) ^ 2 * (-k2) + 0 * k1
  have h0 : (0 : ℝ) ≤ m := Nat.cast_nonneg m
  have h19 : (m : ℝ) ≤ 19 := by exact_mod_cast (by omega : m ≤ 19)
  have hcos : 0.68 ≤ Real.cos (Real.pi * (m / 19) / 5) := by
    refine le_trans ?_ (Real.one_sub_sq_div_two_le_cos)
    have h1 : 0 ≤ Real.pi * ((m : ℝ) / 19) / 5 := by positivity
    have h2 : Real.pi * ((m : ℝ) / 19) / 5 ≤ 0.8 := by
      have := Real.pi_le_four
      have : (m : ℝ) / 19 ≤ 1 := by linarith
      nlinarith [Real.pi_pos]
    nlinarith
  have s1 := Real.abs_cos_le_one (2 * Real.pi * ((m : ℝ) / 19) + Real.pi * 28 / 57)
  have c1 := Real.abs_cos_le_one (2 * Real.pi * ((m : ℝ) / 19))
  generalize Real.cos (Real.pi * ((m : ℝ) / 19) / 5) = a at *
  generalize Real.cos (2 * Real.pi * ((m : ℝ) / 19) + Real.pi * 28 / 57) = s at *
  generalize Real.cos (2 * Real.pi * ((m : ℝ) / 19)) = c at *
  generalize Real.sin (2 * (2 * Real.pi * ((m : ℝ) / 19)) + Real.pi * 28 / 57) = x at *
  generalize Real.sin (Real.pi * 28 / 57) = y at *
  rw [abs_mul, abs_mul, ← mul_sub, abs_mul, abs_abs, abs_of_nonneg (by linarith : (0 : ℝ) ≤ a)]
  have e3 : |c ^ 2 - s ^ 2| = (|s| + |c|) * abs (|s| - |c|) := by
    rw [← sq_abs c, ← sq_abs s, abs_sub_comm, sq_sub_sq, abs_mul, abs_of_nonneg (by positivity)]
  rw [hcc, abs_mul, abs_of_nonneg (by linarith : 0 ≤ y)] at e3
  have h5 : (|s| + |c|) * abs (|s| - |c|) ≤ 2 * abs (|s| - |c|) := mul_le_mul_of_nonneg_right (by linarith) (abs_nonneg _)
  have h6 : 2 / 57 * (56 / 57) ≤ |x| * y := mul_le_mul hc hp (by norm_num) (abs_nonneg x)
  have h7 : 2 / 57 * (56 / 57) / 2 ≤ abs (|s| - |c|) := by linarith
  nlinarith

/-! ## The paths of the example -/

theorem good_iff {i : ℕ} : Spec.GoodSample outlierOptions_B_H outlierOptions_W_E (oneOutlier 1) (oneOutlier 0) i ↔ i ≠ 0 := by
  unfold Spec.GoodSample Spec.IsOutlier
  rcases eq_or_ne i 0 with rfl | h
  · norm_num [outlierOptions_B_H, outlierOptions_W_E, oneOutlier]
  · norm_num [outlierOptions_B_H, outlierOptions_W_E, oneOutlier, h]

/-- The two paths: those of the curve, but for the first pose of the eye. -/
theorem example_paths : ∃ v u o, generateTestPath 20 outlierOptions_B_H (oneOutlier 1) = .ok v ∧
    generateTestPath 20 outlierOptions_W_E (oneOutlier 0) = .ok u ∧ v.length = 20 ∧ u.length = 20 ∧
    (∀ i (h : i < v.length), v[i] = helixPose (Spec.sampleTime 20 i)) ∧
    (∀ i (h : i < u.length), i ≠ 0 → u[i] = helixPose (Spec.sampleTime 20 i)) ∧
    u[0]? = some o ∧ o.rot = ⟨0, 0, Real.sin (Real.pi * 28 / 57), Real.cos (Real.pi * 28 / 57)⟩ := by
  obtain ⟨v, hv⟩ := generateTestPath_total 20 (o := outlierOptions_B_H) (oneOutlier 1) rfl
  obtain ⟨u, hu⟩ := generateTestPath_total 20 (o := outlierOptions_W_E) (oneOutlier 0) rfl
  obtain ⟨lv, sv⟩ := generateTestPath_sound hv
  obtain ⟨lu, su⟩ := generateTestPath_sound hu
  have h0 : 0 < u.length := by omega
  refine ⟨v, u, u[0], hv, hu, lv, lu, fun i h => ?_, fun i h hi => ?_, List.getElem?_eq_getElem h0, ?_⟩
  · refine sample_inlier rfl (sv i h) ?_
    unfold Spec.IsOutlier
    norm_num [outlierOptions_B_H, oneOutlier]
  · exact sample_inlier rfl (su i h) (good_iff.mpr hi).2
  · obtain ⟨pos, q, pos', q', h1, h2, e⟩ := su 0 h0
    obtain ⟨rfl, rfl⟩ := noised_none rfl h2
    obtain ⟨rfl, -⟩ := h1.outlier (by unfold Spec.IsOutlier; norm_num [outlierOptions_W_E, oneOutlier])
    have hq : ((oneOutlier 0).q 0).dot ((oneOutlier 0).q 0) = 1 := by
      have := Real.sin_sq_add_cos_sq (Real.pi * 28 / 57)
      norm_num [oneOutlier, Quat.dot]
      linarith
    rw [e, fromPose_rot (normalizePositive_dot (unit_norm_gt hq)), normalizePositive_unit hq, if_neg (show ¬ ((oneOutlier 0).q 0).w < 0 from not_lt.mpr cos_outlier)]
    rfl

theorem scalarParts_fst (m : DQuat) : (Spec.scalarParts m).1 = |m.rot.w| := by
  unfold Spec.scalarParts
  split_ifs with h
  · exact (abs_of_neg h).symm
  · exact (abs_of_nonneg (not_lt.mp h)).symm

theorem helix_w_between (s t : ℝ) : |((helixPose s).conj * helixPose t).rot.w| =
    |Real.cos (Real.pi * (t - s) / 5) * Real.cos (2 * Real.pi * (t - s))| := by
  rcases helixPose_between s t with h | h <;> rw [h, helixQuat_between]
  rw [Quat.neg_w, abs_neg]

theorem outlier_w {o : DQuat} (ho : o.rot = ⟨0, 0, Real.sin (Real.pi * 28 / 57), Real.cos (Real.pi * 28 / 57)⟩) (t : ℝ) :
    |(o.conj * helixPose t).rot.w| = |Real.cos (Real.pi * t / 5) * Real.cos (2 * Real.pi * t + Real.pi * 28 / 57)| ∧
    |((helixPose t).conj * o).rot.w| = |Real.cos (Real.pi * t / 5) * Real.cos (2 * Real.pi * t + Real.pi * 28 / 57)| := by
  rw [DQuat.mul_rot, DQuat.conj_rot, DQuat.mul_rot, DQuat.conj_rot, ho, Real.cos_add]
  have h := helixQuat_eq t
  have key : ∀ q : Quat, q = helixQuat t → ((⟨0, 0, Real.sin (Real.pi * 28 / 57), Real.cos (Real.pi * 28 / 57)⟩ : Quat).conj * q).w =
      Real.cos (Real.pi * t / 5) * (Real.cos (2 * Real.pi * t) * Real.cos (Real.pi * 28 / 57) -
        Real.sin (2 * Real.pi * t) * Real.sin (Real.pi * 28 / 57)) ∧
      (q.conj * ⟨0, 0, Real.sin (Real.pi * 28 / 57), Real.cos (Real.pi * 28 / 57)⟩).w =
      Real.cos (Real.pi * t / 5) * (Real.cos (2 * Real.pi * t) * Real.cos (Real.pi * 28 / 57) -
        Real.sin (2 * Real.pi * t) * Real.sin (Real.pi * 28 / 57)) := by
    rintro q rfl
    rw [h]
    constructor <;> simp [Quat.mul_w, Quat.conj] <;> ring
  rcases helixPose_rot_or t with h' | h' <;> rw [h']
  · rw [(key _ rfl).1, (key _ rfl).2]
    exact ⟨rfl, rfl⟩
  · have hc : (-helixQuat t).conj = -(helixQuat t).conj := by ext <;> simp [Quat.conj]
    rw [hc, mul_neg, neg_mul, Quat.neg_w, Quat.neg_w, abs_neg, abs_neg, (key _ rfl).1, (key _ rfl).2]
    exact ⟨rfl, rfl⟩

theorem tilt_ne {x : ℝ} (h1 : -1 ≤ x) (h2 : x ≤ 1) : Real.cos (Real.pi * x / 5) ≠ 0 := by
  have := Real.pi_pos
  apply ne_of_gt
  apply Real.cos_pos_of_mem_Ioo
  constructor <;> nlinarith

theorem sampleTime_twenty (i : ℕ) : Spec.sampleTime 20 i = i / 19 := by
  unfold Spec.sampleTime
  norm_num

theorem helix_no_half {i j : ℕ} (hi : i < 20) (hj : j < 20) :
    ((helixPose (Spec.sampleTime 20 i)).conj * helixPose (Spec.sampleTime 20 j)).rot.w ≠ 0 := by
  rw [← abs_ne_zero, helix_w_between, abs_ne_zero, sampleTime_twenty, sampleTime_twenty]
  have hi' : (i : ℝ) ≤ 19 := by exact_mod_cast (by omega : i ≤ 19)
  have hj' : (j : ℝ) ≤ 19 := by exact_mod_cast (by omega : j ≤ 19)
  have hi0 : (0 : ℝ) ≤ i := Nat.cast_nonneg i
  have hj0 : (0 : ℝ) ≤ j := Nat.cast_nonneg j
  refine mul_ne_zero (tilt_ne (by linarith) (by linarith)) ?_
  intro h0
  obtain ⟨k, hk⟩ := Real.cos_eq_zero_iff.mp h0
  have e : (4 * ((j : ℝ) - i)) * Real.pi = (19 * (2 * k + 1)) * Real.pi := by linear_combination 38 * hk
  have e' := mul_right_cancel₀ Real.pi_ne_zero e
  have e2 : 4 * ((j : ℤ) - i) = 19 * (2 * k + 1) := by exact_mod_cast e'
  omega

theorem outlier_no_half {i : ℕ} (hi : i < 20) :
    Real.cos (Real.pi * Spec.sampleTime 20 i / 5) * Real.cos (2 * Real.pi * Spec.sampleTime 20 i + Real.pi * 28 / 57) ≠ 0 := by
  rw [sampleTime_twenty]
  have hi' : (i : ℝ) ≤ 19 := by exact_mod_cast (by omega : i ≤ 19)
  have hi0 : (0 : ℝ) ≤ i := Nat.cast_nonneg i
  refine mul_ne_zero (tilt_ne (by linarith) (by linarith)) ?_
  intro h
  obtain ⟨n, hn⟩ := Real.cos_eq_zero_iff.mp h
  have e : (2 * (6 * (i : ℝ) + 28)) * Real.pi = (57 * (2 * n + 1)) * Real.pi := by linear_combination 114 * hn
  have e' := mul_right_cancel₀ Real.pi_ne_zero e
  have e2 : 2 * (6 * (i : ℤ) + 28) = 57 * (2 * n + 1) := by exact_mod_cast e'
  omega

theorem far_apart {e h : ℝ} (hfar : 1.1e-2 < |e - h|) (hh : |h| ≤ 1) : ¬ |e - h| ≤ 1e-2 + 1e-5 * |h| := by
  intro hc
  norm_num at hfar hc
  linarith

/-- The good samples and the outlier do not correspond. -/
theorem outlier_apart {o v₀ : DQuat} (ho : o.rot = ⟨0, 0, Real.sin (Real.pi * 28 / 57), Real.cos (Real.pi * 28 / 57)⟩)
    (h₀ : v₀ = helixPose (Spec.sampleTime 20 0)) {i : ℕ} (hi : i < 20) {a : DQuat} (ha : a = helixPose (Spec.sampleTime 20 i)) :
    ¬ Spec.Corresponds 1e-2 (a, a) (v₀, o) ∧ ¬ Spec.Corresponds 1e-2 (v₀, o) (a, a) := by
  have e0 : Spec.sampleTime 20 0 = 0 := by simp [Spec.sampleTime]
  have hv := outlier_visible hi
  have hle : ∀ x y : ℝ, abs |Real.cos x * Real.cos y| ≤ 1 := by
    intro x y
    rw [abs_abs, abs_mul]
    exact mul_le_one₀ (Real.abs_cos_le_one _) (abs_nonneg _) (Real.abs_cos_le_one _)
  subst h₀ ha
  constructor
  · rintro ⟨h, -⟩
    dsimp only at h
    rw [scalarParts_fst, scalarParts_fst, (outlier_w ho _).2, helix_w_between, e0, zero_sub, mul_neg, mul_neg, neg_div, Real.cos_neg,
      Real.cos_neg] at h
    exact far_apart hv (hle _ _) h
  · rintro ⟨h, -⟩
    dsimp only at h
    rw [scalarParts_fst, scalarParts_fst, (outlier_w ho _).1, helix_w_between, e0, sub_zero] at h
    exact far_apart hv (hle _ _) h

/-- An example for `C82_outlier_test`: any transforms, and one outlier, the first pose of the eye (which displaces all others, because
the path is moved so that it begins at the origin). -/
example (svd : Svd) (hsvd : ∀ T s V, svd T = .ok (s, V) → Spec.IsSVD T s V) (d : TestDraws)
    (h1 : Spec.Rotation4 d.rotation_H_E) (h2 : Spec.Rotation4 d.rotation_B_W)
    (n1 : ¬ Spec.HalfTurn4 d.rotation_H_E) (n2 : ¬ Spec.HalfTurn4 d.rotation_B_W)
    (hB : d.path_B_H = oneOutlier 1) (hW : d.path_W_E = oneOutlier 0) (fuel : ℕ) :
    ∃ X W bs ws, testTransforms d = .ok (X, W) ∧
      generateTestPaths 20 X W true outlierOptions_B_H outlierOptions_W_E (oneOutlier 1) (oneOutlier 0) = .ok (bs, ws) ∧
      ∀ r, ransac svd d.samples testConfig bs ws fuel = .ok (some r) → testWithOutliers svd d fuel =
        if r.success = true then .ok (some ()) else .error .assertion := by
  classical
  obtain ⟨v, u, o, hv, hu, lv, lu, sv, su, ho, hor⟩ := example_paths
  have hz : (v.zip u).length = 20 := by rw [List.length_zip, lv, lu]; rfl
  have uu : ∀ b ∈ u, b = o ∨ ∃ i < 20, b = helixPose (Spec.sampleTime 20 i) := by
    intro b hb
    obtain ⟨i, hi, rfl⟩ := List.getElem_of_mem hb
    rcases eq_or_ne i 0 with rfl | h
    · left
      rw [List.getElem?_eq_getElem hi] at ho
      exact Option.some.inj ho
    · exact Or.inr ⟨i, by omega, su i hi h⟩
  have zero : ∀ (p : DQuat × DQuat), (v.zip u)[0]? = some p → p = (helixPose (Spec.sampleTime 20 0), o) := by
    intro p hp
    obtain ⟨ha, hb⟩ := List.getElem?_zip_eq_some.mp hp
    obtain ⟨hi, ha⟩ := List.getElem?_eq_some_iff.mp ha
    rw [sv 0 hi] at ha
    rw [ho] at hb
    exact Prod.ext ha.symm (Option.some.inj hb).symm
  have other : ∀ (i : ℕ) (p : DQuat × DQuat), i ≠ 0 → (v.zip u)[i]? = some p → i < 20 ∧
      p = (helixPose (Spec.sampleTime 20 i), helixPose (Spec.sampleTime 20 i)) := by
    intro i p hi hp
    obtain ⟨ha, hb⟩ := List.getElem?_zip_eq_some.mp hp
    obtain ⟨hi1, ha⟩ := List.getElem?_eq_some_iff.mp ha
    obtain ⟨hi2, hb⟩ := List.getElem?_eq_some_iff.mp hb
    rw [sv i hi1] at ha
    rw [su i hi2 hi] at hb
    exact ⟨by omega, Prod.ext ha.symm hb.symm⟩
  obtain ⟨X, W, bs, ws, a1, a2, a3, -⟩ := C82_outlier_test svd hsvd d h1 h2 n1 n2 (by rw [hB]; exact oneOutlier_uniform 1)
    (by rw [hW]; exact oneOutlier_uniform 0) v u (by rw [hB]; exact hv) (by rw [hW]; exact hu)
    (by
      rw [noHalfTurns_iff]
      intro a ha b hb
      obtain ⟨i, hi, rfl⟩ := List.getElem_of_mem ha
      obtain ⟨j, hj, rfl⟩ := List.getElem_of_mem hb
      rw [sv i hi, sv j hj]
      exact helix_no_half (by omega) (by omega))
    (by
      rw [noHalfTurns_iff]
      intro a ha b hb
      rcases uu a ha with rfl | ⟨i, hi, rfl⟩ <;> rcases uu b hb with rfl | ⟨j, hj, rfl⟩
      · have k := Real.sin_sq_add_cos_sq (Real.pi * 28 / 57)
        rw [DQuat.mul_rot, DQuat.conj_rot, hor]
        simp only [Quat.mul_w, Quat.conj]
        nlinarith
      · rw [← abs_ne_zero, (outlier_w hor _).1, abs_ne_zero]
        exact outlier_no_half hj
      · rw [← abs_ne_zero, (outlier_w hor _).2, abs_ne_zero]
        exact outlier_no_half hi
      · exact helix_no_half hi hj)
    (fun i => i ≠ 0)
    (by
      funext i
      rw [hB, hW]
      exact propext good_iff.symm)
    ⟨1, 2, 3, by norm_num, by norm_num, by norm_num, by norm_num, by norm_num, by norm_num⟩
    (by
      rintro i j p q hp hq hi hc rfl
      obtain ⟨hi20, rfl⟩ := other i p hi hp
      rw [zero q hq] at hc
      exact (outlier_apart hor rfl hi20 rfl).1 hc)
    (by
      intro i p hp hi
      obtain rfl : i = 0 := not_not.mp hi
      obtain rfl := zero p hp
      obtain ⟨x, l, hl⟩ : ∃ x l, v.zip u = x :: l := List.exists_cons_of_ne_nil (by intro h; rw [h] at hz; simp at hz)
      have hrest : List.countP (fun m => decide (Spec.Corresponds 1e-2 (helixPose (Spec.sampleTime 20 0), o) m)) l = 0 := by
        rw [List.countP_eq_zero]
        intro m hm
        obtain ⟨k, hk⟩ := List.getElem?_of_mem hm
        obtain ⟨h20, rfl⟩ := other (k + 1) m (by omega) (by rw [hl, List.getElem?_cons_succ, hk])
        rw [decide_eq_true_eq]
        exact (outlier_apart hor rfl h20 rfl).2
      unfold Spec.number
      rw [hl, List.countP_cons]
      rw [hrest]
      split_ifs <;> norm_num)
    fuel
  rw [hB, hW] at a2
  exact ⟨X, W, bs, ws, a1, a2, a3⟩

/-- A quarter turn about the z axis. -/
def quarterTurn4 : Matrix (Fin 4) (Fin 4) ℝ := !![0, -1, 0, 0; 1, 0, 0, 0; 0, 0, 1, 0; 0, 0, 0, 1]

/-- The plot is drawn, and the test with noise is decided by what RANSAC reports, for draws that turn every pose of the paths by
noise about the x axis, if the two transformations are quarter turns. -/
example (svd : Svd) (d : TestDraws) (hB : d.path_B_H = sampleDraws) (hW : d.path_W_E = sampleDraws) (hH : d.rotation_H_E = quarterTurn4)
    (hBW : d.rotation_B_W = quarterTurn4) (fuel : ℕ) : (∃ figure, testPlotPoses d = .ok figure) ∧ ∃ X W bs ws, testTransforms d = .ok (X, W) ∧
      generateTestPaths 20 X W true noiseOptions noiseOptions sampleDraws sampleDraws = .ok (bs, ws) ∧
      (ransac svd d.samples testConfig bs ws fuel = .ok none → testWithNoise svd d fuel = .ok none) := by
  have h1 : Spec.Rotation4 quarterTurn4 := by
    refine ⟨?_, by intro j; fin_cases j <;> rfl, by intro j; fin_cases j <;> rfl, rfl⟩
    have : (Matrix.of fun i j : Fin 3 => quarterTurn4 i.castSucc j.castSucc) = !![0, -1, 0; 1, 0, 0; 0, 0, 1] := by
      ext i j; fin_cases i <;> fin_cases j <;> rfl
    rw [this, Matrix.mem_specialOrthogonalGroup_iff, Matrix.mem_orthogonalGroup_iff]
    constructor
    · ext i j
      fin_cases i <;> fin_cases j <;> simp [Matrix.mul_apply, Fin.sum_univ_three]
    · simp [Matrix.det_fin_three]
  have h2 : ¬ Spec.HalfTurn4 quarterTurn4 := by unfold Spec.HalfTurn4 quarterTurn4; simp; norm_num
  have ha : ∀ i, 1e-13 < (sampleDraws.noise_axis i).norm := by
    intro i
    have : (⟨1, 0, 0⟩ : Vec3).norm = 1 := by norm_num [Vec3.norm, Vec3.dot]
    change 1e-13 < (⟨1, 0, 0⟩ : Vec3).norm
    rw [this]
    norm_num
  refine ⟨C82_plot_test d (by rw [hH]; exact h1) (by rw [hBW]; exact h1) (by rw [hH]; exact h2) (by rw [hBW]; exact h2), ?_⟩
  obtain ⟨X, W, bs, ws, a1, a2, -, a3, -⟩ := C82_noise_test svd d (by rw [hH]; exact h1) (by rw [hBW]; exact h1) (by rw [hH]; exact h2)
    (by rw [hBW]; exact h2) (by rw [hB]; exact ha) (by rw [hW]; exact ha) fuel
  rw [hB, hW] at a2
  exact ⟨X, W, bs, ws, a1, a2, a3⟩

end HandEye
