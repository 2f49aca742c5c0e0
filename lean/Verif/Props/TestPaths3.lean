import Verif.Props.TestPaths2

/-! # Property C80 of `hand_eye_test_helpers.py`: outliers at the start, and the noise -/

namespace HandEye

/-! ## Outliers at the start -/

theorem rebased_relative {b p q : DQuat} (hb : Spec.IsUnit b) :
    (posW (b.conj * p)).conj * posW (b.conj * q) = p.conj * q ∨
    (posW (b.conj * p)).conj * posW (b.conj * q) = -(p.conj * q) := by
  have h : (b.conj * p).conj * (b.conj * q) = p.conj * q := by
    rw [DQuat.conj_mul_rev, DQuat.conj_conj, mul_assoc, ← mul_assoc b, DQuat.mul_conj_unit hb, one_mul]
  have hn : ∀ a : DQuat, (-a).conj = -a.conj := fun a => by apply DQuat.ext' <;> ext <;> simp
  rcases posW_eq_or (b.conj * p) with h1 | h1 <;> rcases posW_eq_or (b.conj * q) with h2 | h2 <;> rw [h1, h2]
  · exact Or.inl h
  · right; rw [mul_neg, h]
  · right; rw [hn, neg_mul, h]
  · left; rw [hn, neg_mul, mul_neg, neg_neg, h]

theorem posW_pair {m s t X : DQuat} (hX : Spec.IsUnit X) (hs : s = m ∨ s = -m)
    (ht : t = X.conj * m * X ∨ t = -(X.conj * m * X)) :
    posW s * X = X * posW t ∨ ((posW s).rot.w = 0 ∧ -posW s * X = X * posW t) := by
  have hw : (X.conj * m * X).rot.w = m.rot.w := by
    have := (conj_scalar_parts (a := m) (DQuat.isUnit_conj hX)).1
    rwa [DQuat.conj_conj] at this
  have he : X * (X.conj * m * X) = m * X := by
    rw [← mul_assoc, ← mul_assoc, DQuat.mul_conj_unit hX, one_mul]
  by_cases h0 : m.rot.w = 0
  · have hs0 : s.rot.w = 0 := by
      rcases hs with rfl | rfl
      · exact h0
      · rw [DQuat.neg_rot, Quat.neg_w, h0, neg_zero]
    have ht0 : t.rot.w = 0 := by
      rcases ht with rfl | rfl
      · rw [hw, h0]
      · rw [DQuat.neg_rot, Quat.neg_w, hw, h0, neg_zero]
    rw [posW_of_nonneg hs0.ge, posW_of_nonneg ht0.ge]
    rcases hs with rfl | rfl <;> rcases ht with rfl | rfl
    · left; rw [he]
    · right; exact ⟨hs0, by rw [mul_neg, he, neg_mul]⟩
    · right; exact ⟨hs0, by rw [he, neg_neg]⟩
    · left; rw [mul_neg, he, neg_mul]
  · have e1 : posW s = posW m := by
      rcases hs with rfl | rfl
      · rfl
      · exact posW_neg h0
    have e2 : posW t = posW (X.conj * m * X) := by
      rcases ht with rfl | rfl
      · rfl
      · exact posW_neg (by rw [hw]; exact h0)
    left
    rw [e1, e2]
    exact conj_sandwich_posW hX

theorem posW_unit {a : DQuat} (h : Spec.IsUnit a) : Spec.IsUnit (posW a) := by
  rcases posW_eq_or a with e | e <;> rw [e]
  · exact h
  · exact DQuat.isUnit_neg h

/-- C80: aligning the paths again at a sample that is no outlier, as RANSAC does with its samples, makes the hand-eye
equation hold for all samples that are no outliers, wherever the outliers are (up to the sign, for the samples that
are a half turn away). -/
theorem C80_realigned (n : ℕ) (X W : DQuat) (hX : Spec.IsUnit X) (hW : Spec.IsUnit W)
    (oB oW : PathOptions) (dB dW : PathDraws) (hB : oB.include_noise = false) (hW2 : oW.include_noise = false)
    (hdB : Spec.UniformDraws dB) (hdW : Spec.UniformDraws dW) (k : ℕ) (hk : k < n)
    (h0 : ¬ Spec.IsOutlier oB dB k) (h0' : ¬ Spec.IsOutlier oW dW k) :
    ∃ bs ws bk wk, generateTestPaths n X W true oB oW dB dW = .ok (bs, ws) ∧ alignPathsAtIndex bs k = .ok bk ∧
      alignPathsAtIndex ws k = .ok wk ∧ bk.length = n ∧ wk.length = n ∧
      ∀ j (hb : j < bk.length) (hw : j < wk.length), ¬ Spec.IsOutlier oB dB ((j + k) % n) →
        ¬ Spec.IsOutlier oW dW ((j + k) % n) →
        Spec.HandEyeEq bk[j] X wk[j] ∨ (bk[j].rot.w = 0 ∧ Spec.HandEyeEq (-bk[j]) X wk[j]) := by
  obtain ⟨v, u, b, w, lv, lu, hb, hw, sb, sw, sv, su, uv, uu, e⟩ := generateTestPaths_ok (by omega : 0 < n) hX hW
    (dB := dB) (dW := dW) hB hW2 (fun _ => hdB) (fun _ => hdW)
  have ub : Spec.IsUnit b := uv _ (List.mem_of_mem_head? (by rw [hb]; rfl))
  have uw : Spec.IsUnit w := uu _ (List.mem_of_mem_head? (by rw [hw]; rfl))
  have ubs : ∀ a ∈ v.map fun a => posW (b.conj * a), Spec.IsUnit a := by
    intro c hc
    obtain ⟨a, ha, rfl⟩ := List.mem_map.mp hc
    exact posW_unit (DQuat.isUnit_mul (DQuat.isUnit_conj ub) (uv a ha))
  have uws : ∀ a ∈ u.map fun a => posW (X.conj * (w.conj * a) * X), Spec.IsUnit a := by
    intro c hc
    obtain ⟨a, ha, rfl⟩ := List.mem_map.mp hc
    exact posW_unit (DQuat.isUnit_mul (DQuat.isUnit_mul (DQuat.isUnit_conj hX)
      (DQuat.isUnit_mul (DQuat.isUnit_conj uw) (uu a ha))) hX)
  have p1 : pyPos (v.map fun a => posW (b.conj * a)).length (k : ℤ) = some k :=
    pyPos_natCast (by rw [List.length_map]; omega)
  have p2 : pyPos (u.map fun a => posW (X.conj * (w.conj * a) * X)).length (k : ℤ) = some k :=
    pyPos_natCast (by rw [List.length_map]; omega)
  refine ⟨_, _, _, _, e, align_unit p1 ubs true, align_unit p2 uws true, by simp [lv], by simp [lu], ?_⟩
  intro j h1 h2 hi hi'
  simp only [List.length_map, List.length_rotate] at h1 h2
  have hlt : (j + k) % n < n := Nat.mod_lt _ (by omega)
  have ev : ∀ (i : ℕ) (h : i < v.length), ¬ Spec.IsOutlier oB dB i → v[i] = helixPose (Spec.sampleTime n i) :=
    fun i h => sample_inlier hB (sv i h)
  have eu : ∀ (i : ℕ) (h : i < u.length), ¬ Spec.IsOutlier oW dW i → u[i] = helixPose (Spec.sampleTime n i) :=
    fun i h => sample_inlier hW2 (su i h)
  simp only [handEyeEq_iff, List.getElem_map, List.getElem_rotate, rebase_true, List.length_map, lv, lu,
    ev k (by omega) h0, eu k (by omega) h0', ev _ (by omega) hi, eu _ (by omega) hi']
  generalize helixPose (Spec.sampleTime n k) = p
  generalize helixPose (Spec.sampleTime n ((j + k) % n)) = q
  refine posW_pair hX (rebased_relative ub) ?_
  have hy : ∀ a : DQuat, X.conj * (w.conj * a) * X = (w * X).conj * (a * X) := by
    intro a
    rw [DQuat.conj_mul_rev]
    simp only [mul_assoc]
  rw [hy, hy]
  have := rebased_relative (p := p * X) (q := q * X) (DQuat.isUnit_mul uw hX)
  have he : (p * X).conj * (q * X) = X.conj * (p.conj * q) * X := by
    rw [DQuat.conj_mul_rev]
    simp only [mul_assoc]
  rwa [he] at this

/-! ## Noise -/

theorem noised_w {r r' q : Quat} (h : r.inverse = .ok r') :
    (r * q * r').w = q.w ∧ (r * q * r').dot (r * q * r') = q.dot q := by
  have hr : r.dot r ≠ 0 := by
    intro h0
    rw [Quat.inverse_error h0] at h
    cases h
  rw [Quat.inverse_ok hr] at h
  cases h
  have hd : r.inv'.dot r.inv' * r.dot r = 1 := by
    have := Quat.dot_mul_mul r.inv' r
    rw [Quat.inv'_mul hr] at this
    rw [← this]
    simp [Quat.dot]
  constructor
  · unfold Quat.inv'
    simp only [Quat.mul_smul', Quat.smul_w, Quat.mul_w, Quat.mul_x, Quat.mul_y, Quat.mul_z, Quat.conj_x, Quat.conj_y,
      Quat.conj_z, Quat.conj_w]
    unfold Quat.dot at hr ⊢
    rw [one_div_mul_eq_div, div_eq_iff hr]
    ring
  · rw [Quat.dot_mul_mul, Quat.dot_mul_mul]
    linear_combination q.dot q * hd

/-- C80: the noise moves the position by independent multiples of the given deviation. -/
theorem C80_noise_position (n : ℕ) (o : PathOptions) (d : PathDraws) (ho : o.include_outliers = false)
    (hn : o.include_noise = true) (l : List DQuat) (h : generateTestPath n o d = .ok l) :
    l.length = n ∧ ∀ i (h : i < l.length), Spec.IsUnit l[i] ∧ 0 ≤ l[i].rot.w ∧
      Spec.motion l[i] ⟨0, 0, 0⟩ = Spec.helixPosition (Spec.sampleTime n i) + o.noise_sigma_trans • d.noise_pos i := by
  obtain ⟨h1, h2⟩ := generateTestPath_sound h
  refine ⟨h1, fun i hi => ?_⟩
  obtain ⟨pos, q, pos', q', h3, h4, e⟩ := h2 i hi
  obtain ⟨rfl, rfl⟩ := h3.inlier (not_outlier ho i)
  unfold Noised at h4
  rw [if_pos hn] at h4
  obtain ⟨rfl, r, r', hr, rfl⟩ := h4
  have hu := (noised_w (q := helixQuat (Spec.sampleTime n i)) hr).2
  rw [helixQuat_dot] at hu
  have hp := normalizePositive_dot (unit_norm_gt hu)
  rw [e]
  refine ⟨fromPose_unit _ (unit_norm_gt hp), ?_, ?_⟩
  · change 0 ≤ (DQuat.fromPose ⟨_, normalizePositive (r * helixQuat (Spec.sampleTime n i) * r')⟩).rot.w
    rw [fromPose_rot hp]
    exact normalizePositive_w _
  · refine (fromPose_motion _ hp _).trans ?_
    ext <;> simp [Quat.rotateVector]

/-- C80 is refuted for the noise of the orientation: it turns the axis of rotation of the pose and never its angle.  The
scalar part of each sample is that of the noise-free path, whatever the deviations and whatever is drawn, and the
orientation of the first sample is exact. -/
theorem C80_noise_refuted (n : ℕ) (o o' : PathOptions) (d d' : PathDraws) (ho : o.include_outliers = false)
    (ho1 : o'.include_outliers = false) (hn1 : o'.include_noise = false) (l l' : List DQuat)
    (h : generateTestPath n o d = .ok l) (h' : generateTestPath n o' d' = .ok l') :
    (∀ i (hi : i < l.length) (hi' : i < l'.length), l[i].rot.w = l'[i].rot.w) ∧
    ∀ a, l.head? = some a → a.rot = DQuat.identity.rot := by
  obtain ⟨h1, h2⟩ := generateTestPath_sound h
  obtain ⟨h1', h2'⟩ := generateTestPath_sound h'
  have key : ∀ i (hi : i < l.length), ∃ pos q, l[i] = DQuat.fromPose ⟨pos, normalizePositive q⟩ ∧
      q.w = (helixQuat (Spec.sampleTime n i)).w ∧ q.dot q = 1 := by
    intro i hi
    obtain ⟨pos, q, pos', q', h3, h4, e⟩ := h2 i hi
    obtain ⟨rfl, rfl⟩ := h3.inlier (not_outlier ho i)
    refine ⟨_, _, e, ?_⟩
    unfold Noised at h4
    split_ifs at h4
    · obtain ⟨-, r, r', hr, rfl⟩ := h4
      obtain ⟨a1, a2⟩ := noised_w (q := helixQuat (Spec.sampleTime n i)) hr
      exact ⟨a1, a2.trans (helixQuat_dot _)⟩
    · obtain ⟨-, rfl⟩ := h4
      exact ⟨rfl, helixQuat_dot _⟩
  have hw : ∀ q : Quat, q.dot q = 1 → (normalizePositive q).w = |q.w| := by
    intro q hq
    rw [normalizePositive_unit hq]
    split_ifs with hc
    · rw [Quat.neg_w, abs_of_neg hc]
    · rw [abs_of_nonneg (not_lt.mp hc)]
  constructor
  · intro i hi hi'
    obtain ⟨pos, q, e, e1, e2⟩ := key i hi
    have e' : l'[i] = helixPose (Spec.sampleTime n i) := sample_inlier hn1 (h2' i hi') (not_outlier ho1 i)
    rw [e, e', helixPose_rot, fromPose_rot (normalizePositive_dot (unit_norm_gt e2)), hw q e2, hw _ (helixQuat_dot _), e1]
  · intro a ha
    rw [List.head?_eq_getElem?] at ha
    obtain ⟨hi, rfl⟩ := List.getElem?_eq_some_iff.mp ha
    obtain ⟨pos, q, e, e1, e2⟩ := key 0 hi
    rw [e, fromPose_rot (normalizePositive_dot (unit_norm_gt e2)), normalizePositive_unit e2]
    have e3 : q.w = 1 := by
      rw [e1, helixQuat_eq]
      simp [Spec.sampleTime]
    have e4 : q = ⟨0, 0, 0, 1⟩ := by
      unfold Quat.dot at e2
      have hx : q.x = 0 := by nlinarith [sq_nonneg q.x, sq_nonneg q.y, sq_nonneg q.z]
      have hy : q.y = 0 := by nlinarith [sq_nonneg q.x, sq_nonneg q.y, sq_nonneg q.z]
      have hz : q.z = 0 := by nlinarith [sq_nonneg q.x, sq_nonneg q.y, sq_nonneg q.z]
      ext <;> assumption
    rw [if_neg (by rw [e3]; norm_num), e4]
    rfl

/-- Noise with a negative deviation is refused. -/
theorem C80_negative_deviation (n : ℕ) (hn : 0 < n) (o : PathOptions) (d : PathDraws) (ho : o.include_noise = true)
    (hs : o.noise_sigma_trans < 0) : generateTestPath n o d = .error .value := by
  obtain ⟨m, rfl⟩ : ∃ m, n = m + 1 := ⟨n - 1, by omega⟩
  unfold generateTestPath
  rw [List.range_eq_range', List.range'_succ]
  unfold pathLoop pathStep
  rw [pyAt_eq_ok.mpr (unitLinspace_get hn), Py.ok_bind]
  obtain ⟨s', q, pos, e2, hp, hd⟩ := drawPose_ok o d hn (remaining_initial (m + 1))
  rw [e2, Py.ok_bind]
  dsimp only
  unfold addNoise
  rw [if_pos ho, pyAt_eq_ok.mpr hp.x, Py.ok_bind]
  have : npNormal o.noise_sigma_trans (d.noise_pos 0).x = .error .value := by
    unfold npNormal
    unfold pyRequire
    rw [if_neg (not_le.mpr hs)]
    rfl
  rw [this]
  rfl

/-- Draws with which every second sample becomes an outlier, and noise that turns by 2 pi / 3 about the x axis. -/
noncomputable def sampleDraws : PathDraws where
  outlier i := if i % 2 = 1 then 0 else 1 / 2
  q _ := ⟨1 / 2, 1 / 2, 1 / 2, 1 / 2⟩
  size _ := ⟨1 / 2, 1 / 2, 1 / 2⟩
  coin _ := ⟨0, 0, 1⟩
  noise_pos _ := ⟨1, -1, 2⟩
  noise_axis _ := ⟨1, 0, 0⟩
  noise_angle _ := 2 / 3

/-- The conditions of the theorems can be met: outliers that are not at the start, and a path with noise. -/
example : Spec.UniformDraws sampleDraws ∧ Spec.IsOutlier { include_outliers := true } sampleDraws 3 ∧
    ¬ Spec.IsOutlier { include_outliers := true } sampleDraws 0 ∧
    ∃ l, generateTestPath 1 { include_noise := true, noise_sigma_rot := 1 } sampleDraws = .ok l := by
  refine ⟨fun i => by norm_num [sampleDraws], by norm_num [Spec.IsOutlier, sampleDraws],
    by norm_num [Spec.IsOutlier, sampleDraws], ?_⟩
  have hq : Quat.fromAngleAxis (Real.pi * (1 * (2 / 3))) ⟨1 * 1, 1 * 0, 1 * 0⟩ =
      ⟨Real.sin (Real.pi / 3), 0, 0, Real.cos (Real.pi / 3)⟩ := by
    have hn : (⟨1, 0, 0, 0⟩ : Quat).norm = 1 := Quat.norm_eq_one.mpr (by norm_num [Quat.dot])
    unfold Quat.fromAngleAxis
    simp only [mul_one, mul_zero, one_mul, hn]
    rw [if_pos (by norm_num), show Real.pi * (2 / 3) / 2 = Real.pi / 3 by ring]
    ext <;> simp
  have hu : (⟨Real.sin (Real.pi / 3), 0, 0, Real.cos (Real.pi / 3)⟩ : Quat).dot
      ⟨Real.sin (Real.pi / 3), 0, 0, Real.cos (Real.pi / 3)⟩ = 1 := by
    simp only [Quat.dot]
    linear_combination Real.sin_sq_add_cos_sq (Real.pi / 3)
  unfold generateTestPath
  rw [List.range_one]
  unfold pathLoop pathStep
  rw [pyAt_eq_ok.mpr (unitLinspace_get (by norm_num : 0 < 1)), Py.ok_bind]
  obtain ⟨s', q, pos, e2, hp, hd⟩ := drawPose_ok { include_noise := true, noise_sigma_rot := 1 } sampleDraws
    (by norm_num : 0 < 1) (remaining_initial 1)
  rw [e2, Py.ok_bind]
  dsimp only
  have en : ∀ s u : ℝ, 0 ≤ s → npNormal s u = .ok (s * u) := fun s u hs => by
    unfold npNormal
    unfold pyRequire
    rw [if_pos hs]
    rfl
  unfold addNoise
  rw [if_pos rfl, pyAt_eq_ok.mpr hp.x, Py.ok_bind, pyAt_eq_ok.mpr hp.y]
  simp only [Py.ok_bind, pyAt_eq_ok.mpr hp.z, en _ _ (by norm_num : (0 : ℝ) ≤ 0.01), en 1 _ zero_le_one]
  simp only [sampleDraws]
  rw [hq, Quat.normalize_unit hu, Quat.inverse_unit hu, Py.ok_bind, Py.pure_eq, Py.ok_bind]
  dsimp only
  rw [pyAt_eq_ok.mpr (getElem?_set_self' hp.x), Py.ok_bind, pyAt_eq_ok.mpr (getElem?_set_self' hp.y), Py.ok_bind,
    pyAt_eq_ok.mpr (getElem?_set_self' hp.z), Py.ok_bind]
  exact ⟨_, rfl⟩

end HandEye
