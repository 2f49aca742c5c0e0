import Verif.Props.TestPaths

/-! # Property C80 of `hand_eye_test_helpers.py`: what the tests can find out with these trajectories -/

namespace HandEye

/-! ## The rotation axes -/

theorem helixQuat_eq (t : ℝ) : helixQuat t = ⟨Real.sin (Real.pi * t / 5) * Real.sin (2 * Real.pi * t),
    -(Real.sin (Real.pi * t / 5) * Real.cos (2 * Real.pi * t)), -(Real.cos (Real.pi * t / 5) * Real.sin (2 * Real.pi * t)),
    Real.cos (Real.pi * t / 5) * Real.cos (2 * Real.pi * t)⟩ := by
  unfold helixQuat
  rw [euler_eq]
  have h1 : -(4 * Real.pi * t) * 0.1 / 2 = -(Real.pi * t / 5) := by ring
  have h2 : -(4 * Real.pi * t) / 2 = -(2 * Real.pi * t) := by ring
  rw [h1, h2, Real.sin_neg, Real.cos_neg, Real.sin_neg, Real.cos_neg]
  ext <;> ring

theorem helixPose_vec (t : ℝ) : (helixPose t).rot.vec = (helixQuat t).vec ∨
    (helixPose t).rot.vec = ⟨-(helixQuat t).x, -(helixQuat t).y, -(helixQuat t).z⟩ := by
  rw [helixPose_rot, normalizePositive_unit (helixQuat_dot t)]
  split_ifs
  · right; rfl
  · left; rfl

theorem cross_neg_zero {u v : Vec3} {a b : ℝ} (ha : a ≠ 0) (hb : b ≠ 0) {u' v' : Vec3}
    (hu : u' = ⟨a * u.x, a * u.y, a * u.z⟩) (hv : v' = ⟨b * v.x, b * v.y, b * v.z⟩) :
    Spec.cross u' v' = ⟨0, 0, 0⟩ ↔ Spec.cross u v = ⟨0, 0, 0⟩ := by
  subst hu hv
  have hab := mul_ne_zero ha hb
  rw [cross_eq_zero, cross_eq_zero]
  dsimp only
  have e : ∀ p q r s : ℝ, a * p * (b * q) - a * r * (b * s) = 0 ↔ p * q - r * s = 0 := by
    intro p q r s
    rw [show a * p * (b * q) - a * r * (b * s) = a * b * (p * q - r * s) by ring, mul_eq_zero, or_iff_right hab]
  rw [e, e, e]

theorem helixPose_vec' (t : ℝ) : ∃ a : ℝ, a ≠ 0 ∧
    (helixPose t).rot.vec = ⟨a * (helixQuat t).x, a * (helixQuat t).y, a * (helixQuat t).z⟩ := by
  rcases helixPose_vec t with h | h
  · exact ⟨1, one_ne_zero, by rw [h]; simp [Quat.vec]⟩
  · exact ⟨-1, by norm_num, by rw [h]; simp⟩

theorem helixPose_cross (s t : ℝ) : Spec.cross (helixPose s).rot.vec (helixPose t).rot.vec = ⟨0, 0, 0⟩ ↔
    Spec.cross (helixQuat s).vec (helixQuat t).vec = ⟨0, 0, 0⟩ := by
  obtain ⟨a, ha, h1⟩ := helixPose_vec' s
  obtain ⟨b, hb, h2⟩ := helixPose_vec' t
  exact cross_neg_zero ha hb h1 h2

theorem helixPose_zero_rot : (helixPose 0).rot = 1 := by
  rw [helixPose_rot, normalizePositive_unit (helixQuat_dot 0)]
  have e : helixQuat 0 = 1 := by
    rw [helixQuat_eq]
    ext <;> simp
  rw [e, if_neg (by simp)]

/-- The paths as they are without outliers and noise. -/
theorem plain_paths {n : ℕ} (hpos : 0 < n) {X W : DQuat} (hX : Spec.IsUnit X) (hW : Spec.IsUnit W)
    {oB oW : PathOptions} {dB dW : PathDraws} (hB : oB.include_outliers = false) (hB' : oB.include_noise = false)
    (hW2 : oW.include_noise = false) (hdW : oW.include_outliers = true → Spec.UniformDraws dW)
    {bs ws : List DQuat} (h : generateTestPaths n X W true oB oW dB dW = .ok (bs, ws)) :
    bs = (List.range n).map fun i => (helixPose (Spec.sampleTime n 0)).conj * helixPose (Spec.sampleTime n i) := by
  obtain ⟨v, u, b, w, lv, lu, -, -, sb, sw, sv, su, uv, uu, e⟩ := generateTestPaths_ok hpos hX hW (dB := dB) (dW := dW) hB' hW2
    (fun h => absurd h (by rw [hB]; exact Bool.false_ne_true)) hdW
  rw [h] at e
  have e1 := congrArg Prod.fst (Except.ok.inj e)
  dsimp only at e1
  have hv : ∀ i (h : i < v.length), v[i] = helixPose (Spec.sampleTime n i) := fun i hi =>
    sample_inlier hB' (sv i hi) (not_outlier hB i)
  rw [e1]
  refine List.ext_getElem (by simp [lv]) fun i h1 h2 => ?_
  have hb : b = helixPose (Spec.sampleTime n 0) := sample_inlier hB' sb (not_outlier hB 0)
  subst hb
  rw [List.getElem_map, List.getElem_map, List.getElem_range, hv]
  apply posW_of_nonneg
  have e0 : Spec.sampleTime n 0 = 0 := by simp [Spec.sampleTime]
  rw [e0, DQuat.mul_rot, DQuat.conj_rot, helixPose_zero_rot, Quat.conj_one, one_mul]
  exact helixPose_w _

theorem plain_rot (n i : ℕ) :
    ((helixPose (Spec.sampleTime n 0)).conj * helixPose (Spec.sampleTime n i)).rot = (helixPose (Spec.sampleTime n i)).rot := by
  have e0 : Spec.sampleTime n 0 = 0 := by simp [Spec.sampleTime]
  rw [e0, DQuat.mul_rot, DQuat.conj_rot, helixPose_zero_rot, Quat.conj_one, one_mul]

/-- C80: the noise-free paths have two rotation axes, which the calibration needs, exactly if there are at least four
samples: three samples are only full turns about the z axis apart. -/
theorem C80_two_axes (n : ℕ) (hpos : 0 < n) (X W : DQuat) (hX : Spec.IsUnit X) (hW : Spec.IsUnit W)
    (oB oW : PathOptions) (dB dW : PathDraws) (hB : oB.include_outliers = false) (hB' : oB.include_noise = false)
    (hW1 : oW.include_outliers = false) (hW2 : oW.include_noise = false) (bs ws : List DQuat)
    (h : generateTestPaths n X W true oB oW dB dW = .ok (bs, ws)) : Spec.TwoAxes bs ↔ 4 ≤ n := by
  have e := plain_paths hpos hX hW hB hB' hW2 (fun h => absurd h (by rw [hW1]; exact Bool.false_ne_true)) h
  have key : Spec.TwoAxes bs ↔ ∃ i < n, ∃ j < n,
      Spec.cross (helixQuat (Spec.sampleTime n i)).vec (helixQuat (Spec.sampleTime n j)).vec ≠ ⟨0, 0, 0⟩ := by
    subst e
    unfold Spec.TwoAxes
    simp only [List.mem_map, List.mem_range]
    constructor
    · rintro ⟨_, ⟨i, hi, rfl⟩, _, ⟨j, hj, rfl⟩, hne⟩
      refine ⟨i, hi, j, hj, ?_⟩
      rwa [plain_rot, plain_rot, Ne, helixPose_cross] at hne
    · rintro ⟨i, hi, j, hj, hne⟩
      refine ⟨_, ⟨i, hi, rfl⟩, _, ⟨j, hj, rfl⟩, ?_⟩
      rwa [plain_rot, plain_rot, Ne, helixPose_cross]
  rw [key]
  clear key e h
  constructor
  · rintro ⟨i, hi, j, hj, hne⟩
    by_contra hn
    apply hne
    have hz : ∀ k < n, Real.sin (2 * Real.pi * Spec.sampleTime n k) = 0 := by
      intro k hk
      unfold Spec.sampleTime
      have hc : n = 1 ∧ k = 0 ∨ n = 2 ∧ k = 0 ∨ n = 2 ∧ k = 1 ∨ n = 3 ∧ k = 0 ∨ n = 3 ∧ k = 1 ∨ n = 3 ∧ k = 2 := by omega
      rcases hc with ⟨rfl, rfl⟩ | ⟨rfl, rfl⟩ | ⟨rfl, rfl⟩ | ⟨rfl, rfl⟩ | ⟨rfl, rfl⟩ | ⟨rfl, rfl⟩ <;> norm_num
      rw [show 2 * Real.pi * (1 / 2) = Real.pi by ring, Real.sin_pi]
    rw [cross_eq_zero, helixQuat_eq, helixQuat_eq]
    simp [Quat.vec, hz i hi, hz j hj]
  · intro hn
    refine ⟨1, by omega, n - 1, by omega, ?_⟩
    have hn' : (4 : ℝ) ≤ n := by exact_mod_cast hn
    have t2 : Spec.sampleTime n (n - 1) = 1 := by
      unfold Spec.sampleTime
      rw [Nat.cast_sub (by omega), Nat.cast_one, div_self (by linarith)]
    have ht1 : 0 < Spec.sampleTime n 1 := by
      unfold Spec.sampleTime
      have : (0 : ℝ) < (n : ℝ) - 1 := by linarith
      simp only [Nat.cast_one]
      positivity
    have ht1' : Spec.sampleTime n 1 ≤ 1 / 3 := by
      unfold Spec.sampleTime
      rw [Nat.cast_one]
      exact one_div_le_one_div_of_le (by norm_num) (by linarith)
    generalize Spec.sampleTime n 1 = t at *
    have hpi := Real.pi_pos
    have s1 : 0 < Real.sin (2 * Real.pi * t) := Real.sin_pos_of_pos_of_lt_pi (by positivity) (by nlinarith)
    have c1 : 0 < Real.cos (Real.pi * t / 5) := by
      apply Real.cos_pos_of_mem_Ioo
      constructor
      · have : 0 < Real.pi * t / 5 := by positivity
        linarith
      · nlinarith
    have s2 : 0 < Real.sin (Real.pi * 1 / 5) := Real.sin_pos_of_pos_of_lt_pi (by positivity) (by linarith)
    rw [t2, Ne, cross_eq_zero, helixQuat_eq, helixQuat_eq]
    simp only [Quat.vec, mul_one, Real.sin_two_pi, Real.cos_two_pi, mul_zero, neg_zero]
    rintro ⟨h1, -, -⟩
    rw [mul_one] at s2
    have : 0 < Real.cos (Real.pi * t / 5) * Real.sin (2 * Real.pi * t) * Real.sin (Real.pi / 5) := by positivity
    nlinarith

/-- C80, the first test of `test_hand_eye_calibration.py`: on the noise-free paths of at least four samples, every
calibration that RANSAC reports is the given transform, with both errors zero and all samples inliers; whatever is
drawn and whatever correct singular value decomposition is used. -/
theorem C80_calibration (svd : Svd) (hsvd : ∀ T s V, svd T = .ok (s, V) → Spec.IsSVD T s V) (rng : ℕ → List ℕ)
    (cfg : HandEyeConfig) (hmode : cfg.ransac_inlier_classification = .scalarPartEquality)
    (htol : 0 ≤ cfg.ransac_sample_rejection_scalar_part_equality_tolerance)
    (n : ℕ) (hn : 4 ≤ n) (X W : DQuat) (hX : Spec.IsUnit X) (hXw : 0 < X.rot.w) (hW : Spec.IsUnit W)
    (oB oW : PathOptions) (dB dW : PathDraws) (hB : oB.include_outliers = false) (hB' : oB.include_noise = false)
    (hW1 : oW.include_outliers = false) (hW2 : oW.include_noise = false) (bs ws : List DQuat)
    (h : generateTestPaths n X W true oB oW dB dW = .ok (bs, ws)) (fuel : ℕ) (r : CalibrationResult)
    (hr : ransac svd rng cfg bs ws fuel = .ok (some r)) (hs : r.success = true) :
    r.dq_H_E = some X ∧ r.rmse = some (0, 0) ∧ r.num_inliers = n := by
  obtain ⟨bs', ws', e, lb, lw, hb, -, ub, -, hex⟩ := C80_exact n (by omega) X W hX hW oB oW dB dW hB hB' hW1 hW2
  rw [h] at e
  cases e
  obtain ⟨b₁, hb₁, b₂, hb₂, hne⟩ := (C80_two_axes n (by omega) X W hX hW oB oW dB dW hB hB' hW1 hW2 bs ws h).mpr hn
  have hid : DQuat.identity ∈ bs := List.mem_of_mem_head? (by rw [hb]; rfl)
  have h2 : Spec.TurnsAboutTwoAxes bs := by
    refine ⟨_, hid, b₁, hb₁, b₂, hb₂, ?_⟩
    have : DQuat.identity.conj = 1 := by
      rw [← DQuat.one_eq]; apply DQuat.ext' <;> ext <;> simp
    rwa [this, one_mul, one_mul]
  have hm : Spec.Mounted X.conj X bs ws := by
    rw [mounted_iff]
    have hz := List.forall₂_iff_get.mp hex
    refine List.ext_getElem (by rw [List.length_map, lb, lw]) fun i h1 h2 => ?_
    have hp := hz.2 i (by omega) h1
    rw [handEyeEq_iff, List.get_eq_getElem, List.get_eq_getElem] at hp
    rw [List.getElem_map, mul_assoc, hp, ← mul_assoc, DQuat.conj_mul_unit hX, one_mul]
  obtain ⟨dq, d1, d2, d3, d4, d5⟩ := C61_noise_free svd hsvd rng cfg hmode htol X.conj X (DQuat.isUnit_conj hX) hX
    hXw.ne' bs ws (fun a ha => (ub a ha).1) hm h2 fuel r hr hs
  refine ⟨?_, d4, by rw [d5, lb]⟩
  rcases sameUpToSign_iff.mp d2 with h | h
  · rw [d1, h]
  · exfalso
    rw [h, DQuat.neg_rot, Quat.neg_w] at d3
    linarith

/-! ## Outliers -/

/-- C80: every outlier is at least nine away from every point of the curve, so no outlier is accidentally a good pose;
its rotation is one of those with four non-negative components only. -/
theorem C80_outliers (n : ℕ) (o : PathOptions) (d : PathDraws) (hn : o.include_noise = false)
    (hd : Spec.UniformDraws d) : ∃ l, generateTestPath n o d = .ok l ∧ l.length = n ∧ ∀ i (h : i < l.length),
      (Spec.IsOutlier o d i → Spec.IsUnit l[i] ∧
        (∀ t, 9 ≤ (Spec.helixPosition t).x - (Spec.motion l[i] ⟨0, 0, 0⟩).x) ∧
        0 ≤ l[i].rot.x ∧ 0 ≤ l[i].rot.y ∧ 0 ≤ l[i].rot.z ∧ 0 ≤ l[i].rot.w) ∧
      (¬ Spec.IsOutlier o d i → Spec.IsUnit l[i] ∧ 0 ≤ l[i].rot.w ∧
        ∀ x, Spec.motion l[i] x = Spec.helix (Spec.sampleTime n i) x) := by
  obtain ⟨l, hl⟩ := generateTestPath_total n d hn
  obtain ⟨h1, h2⟩ := generateTestPath_sound hl
  refine ⟨l, hl, h1, fun i hi => ⟨fun ho => ?_, fun ho => ?_⟩⟩
  · obtain ⟨a1, a2, -, a3⟩ := sample_outlier hn hd (h2 i hi) ho
    refine ⟨a1, fun t => ?_, a3⟩
    simp only [Spec.helixPosition]
    linarith [Real.neg_one_le_cos (4 * Real.pi * t)]
  · rw [sample_inlier hn (h2 i hi) ho]
    exact ⟨helixPose_unit _, helixPose_w _, helixPose_motion _⟩

/-- C80: if the first sample is no outlier in either path, the hand-eye equation holds for all samples that are no
outliers in either path. -/
theorem C80_inliers (n : ℕ) (hpos : 0 < n) (X W : DQuat) (hX : Spec.IsUnit X) (hW : Spec.IsUnit W)
    (oB oW : PathOptions) (dB dW : PathDraws) (hB : oB.include_noise = false) (hW2 : oW.include_noise = false)
    (hdB : Spec.UniformDraws dB) (hdW : Spec.UniformDraws dW)
    (h0 : ¬ Spec.IsOutlier oB dB 0) (h0' : ¬ Spec.IsOutlier oW dW 0) :
    ∃ bs ws, generateTestPaths n X W true oB oW dB dW = .ok (bs, ws) ∧ bs.length = n ∧ ws.length = n ∧
      ∀ i (hb : i < bs.length) (hw : i < ws.length), ¬ Spec.IsOutlier oB dB i → ¬ Spec.IsOutlier oW dW i →
        Spec.HandEyeEq bs[i] X ws[i] := by
  obtain ⟨v, u, b, w, lv, lu, -, -, sb, sw, sv, su, uv, uu, e⟩ := generateTestPaths_ok hpos hX hW (dB := dB) (dW := dW) hB hW2
    (fun _ => hdB) (fun _ => hdW)
  have e0 : b = helixPose (Spec.sampleTime n 0) := sample_inlier hB sb h0
  have e0' : w = helixPose (Spec.sampleTime n 0) := sample_inlier hW2 sw h0'
  subst e0 e0'
  refine ⟨_, _, e, by rw [List.length_map, lv], by rw [List.length_map, lu], ?_⟩
  intro i hb hw hi hi'
  rw [List.length_map] at hb hw
  rw [handEyeEq_iff, List.getElem_map, List.getElem_map, sample_inlier hB (sv i hb) hi,
    sample_inlier hW2 (su i hw) hi']
  exact conj_sandwich_posW hX

/-- C80 is refuted if the first sample of just one path is an outlier: both paths are moved so that this sample becomes the
identity, and then the equation holds for no later sample at all, not even up to sign.  The tests with outliers draw
such paths in about a quarter of all cases. -/
theorem C80_first_outlier_refuted (n : ℕ) (hpos : 0 < n) (X W : DQuat) (hX : Spec.IsUnit X) (hW : Spec.IsUnit W)
    (oB oW : PathOptions) (dB dW : PathDraws) (hB : oB.include_noise = false) (hW2 : oW.include_noise = false)
    (hdB : Spec.UniformDraws dB) (hdW : Spec.UniformDraws dW)
    (h0 : Spec.IsOutlier oB dB 0) (h0' : ¬ Spec.IsOutlier oW dW 0) :
    ∃ bs ws, generateTestPaths n X W true oB oW dB dW = .ok (bs, ws) ∧ bs.length = n ∧ ws.length = n ∧
      ∀ i (hb : i < bs.length) (hw : i < ws.length), ¬ Spec.IsOutlier oB dB i → ¬ Spec.IsOutlier oW dW i →
        ¬ Spec.HandEyeEq bs[i] X ws[i] ∧ ¬ Spec.HandEyeEq (-bs[i]) X ws[i] := by
  obtain ⟨v, u, b, w, lv, lu, -, -, sb, sw, sv, su, uv, uu, e⟩ := generateTestPaths_ok hpos hX hW (dB := dB) (dW := dW) hB hW2
    (fun _ => hdB) (fun _ => hdW)
  have e0' : w = helixPose (Spec.sampleTime n 0) := sample_inlier hW2 sw h0'
  subst e0'
  refine ⟨_, _, e, by rw [List.length_map, lv], by rw [List.length_map, lu], ?_⟩
  intro i hb hw hi hi'
  rw [List.length_map] at hb hw
  obtain ⟨f1, f2, -⟩ := sample_outlier hB hdB sb h0
  rw [handEyeEq_iff, handEyeEq_iff, List.getElem_map, List.getElem_map,
    sample_inlier hB (sv i hb) hi, sample_inlier hW2 (su i hw) hi']
  change ¬ posW (b.conj * helixPose _) * X = X * posW (X.conj * ((helixPose (Spec.sampleTime n 0)).conj *
    helixPose (Spec.sampleTime n i)) * X) ∧ ¬ -posW (b.conj * helixPose _) * X = X * posW (X.conj *
    ((helixPose (Spec.sampleTime n 0)).conj * helixPose (Spec.sampleTime n i)) * X)
  rw [← conj_sandwich_posW hX]
  generalize hp : helixPose (Spec.sampleTime n i) = p
  have up : Spec.IsUnit p := by rw [← hp]; exact helixPose_unit _
  generalize ha : helixPose (Spec.sampleTime n 0) = a
  have ua : Spec.IsUnit a := by rw [← ha]; exact helixPose_unit _
  have ma : (Spec.motion a ⟨0, 0, 0⟩).x = 11 := by
    rw [← ha, helixPose_motion]
    have e0 : Spec.sampleTime n 0 = 0 := by simp [Spec.sampleTime]
    rw [e0]
    simp [Spec.helix, Spec.helixPosition, Spec.rodrigues, Spec.cross, Vec3.dot]
    norm_num
  clear uu uv su sv e
  have key : ∀ s : DQuat, (s = posW (b.conj * p) ∨ s = -posW (b.conj * p)) → s * X ≠ posW (a.conj * p) * X := by
    intro s hs hc
    have h1 : s = posW (a.conj * p) := by
      have := congrArg (· * X.conj) hc
      simpa only [mul_assoc, DQuat.mul_conj_unit hX, mul_one] using this
    have h2 : b.conj * p = a.conj * p ∨ b.conj * p = -(a.conj * p) := by
      rcases posW_eq_or (b.conj * p) with hc | hc <;> rcases posW_eq_or (a.conj * p) with hq | hq <;>
        rcases hs with hs | hs <;> rw [hs, hc, hq] at h1
      · exact Or.inl h1
      · right; rw [← h1, neg_neg]
      · exact Or.inr h1
      · exact Or.inl (neg_inj.mp h1)
      · right; rw [← h1, neg_neg]
      · left; rwa [neg_neg] at h1
      · exact Or.inl (neg_inj.mp h1)
      · right; rwa [neg_neg] at h1
    have h3 : b = a ∨ b = -a := by
      rcases h2 with h2 | h2
      · left
        have := congrArg (fun z => (z * p.conj).conj) h2
        simpa only [mul_assoc, DQuat.mul_conj_unit up, mul_one, DQuat.conj_conj] using this
      · right
        have := congrArg (fun z => (z * p.conj).conj) h2
        simp only [neg_mul, mul_assoc, DQuat.mul_conj_unit up, mul_one, DQuat.conj_conj] at this
        rw [this]
        apply DQuat.ext' <;> ext <;> simp
    have h4 : Spec.motion b ⟨0, 0, 0⟩ = Spec.motion a ⟨0, 0, 0⟩ := by
      rcases h3 with rfl | rfl
      · rfl
      · rw [motion_neg]
    rw [h4, ma] at f2
    linarith
  exact ⟨key _ (Or.inl rfl), key _ (Or.inr rfl)⟩

end HandEye
