import Verif.Lemmas.TestPaths
import Verif.Props.Ransac3

/-! # Property C80 of `hand_eye_test_helpers.py`: what the trajectories of the tests are -/

namespace HandEye

/-! ## One path -/

theorem noised_none {o : PathOptions} {d : PathDraws} {i : ℕ} {pos pos' : Vec3} {q q' : Quat}
    (ho : o.include_noise = false) (h : Noised o d i pos q pos' q') : pos' = pos ∧ q' = q := by
  unfold Noised at h
  rwa [if_neg (by rw [ho]; exact Bool.false_ne_true)] at h

theorem unit_norm_gt {q : Quat} (h : q.dot q = 1) : q.norm > 1e-8 := by
  rw [Quat.norm_eq_one.mpr h]; norm_num

theorem normalizePositive_rotate {q : Quat} (h : q.dot q = 1) (x : Vec3) :
    (normalizePositive q).rotateVector x = q.rotateVector x := by
  rw [normalizePositive_unit h]
  split_ifs
  · rw [rotateVector_neg]
  · rfl

theorem fromPose_rot {pos : Vec3} {q : Quat} (h : q.dot q = 1) : (DQuat.fromPose ⟨pos, q⟩).rot = q := by
  unfold DQuat.fromPose
  dsimp only
  rw [Quat.normalize_unit h]

/-- The orientation of the noise-free path. -/
noncomputable def helixQuat (t : ℝ) : Quat := quaternionFromEulerRxyz 0 (-(4 * Real.pi * t) * 0.1) (-(4 * Real.pi * t))

theorem sample_inlier {o : PathOptions} {d : PathDraws} {n i : ℕ} {a : DQuat} (ho : o.include_noise = false)
    (h : Sample o d n i a) (hi : ¬ Spec.IsOutlier o d i) :
    a = DQuat.fromPose ⟨Spec.helixPosition (Spec.sampleTime n i), normalizePositive (helixQuat (Spec.sampleTime n i))⟩ := by
  obtain ⟨pos, q, pos', q', h1, h2, rfl⟩ := h
  obtain ⟨rfl, rfl⟩ := noised_none ho h2
  obtain ⟨rfl, rfl⟩ := h1.inlier hi
  rfl

theorem helixQuat_dot (t : ℝ) : (helixQuat t).dot (helixQuat t) = 1 := euler_dot _ _

/-- The pose of the noise-free path. -/
noncomputable def helixPose (t : ℝ) : DQuat := DQuat.fromPose ⟨Spec.helixPosition t, normalizePositive (helixQuat t)⟩

theorem helixPose_rot (t : ℝ) : (helixPose t).rot = normalizePositive (helixQuat t) :=
  fromPose_rot (normalizePositive_dot (unit_norm_gt (helixQuat_dot t)))

theorem helixPose_unit (t : ℝ) : Spec.IsUnit (helixPose t) :=
  fromPose_unit _ (unit_norm_gt (normalizePositive_dot (unit_norm_gt (helixQuat_dot t))))

theorem helixPose_motion (t : ℝ) (x : Vec3) : Spec.motion (helixPose t) x = Spec.helix t x := by
  unfold helixPose Spec.helix
  rw [fromPose_motion _ (normalizePositive_dot (unit_norm_gt (helixQuat_dot t))),
    normalizePositive_rotate (helixQuat_dot t), helixQuat, euler_rotate]
  congr 3
  ring

theorem helixPose_w (t : ℝ) : 0 ≤ (helixPose t).rot.w := by
  rw [helixPose_rot]
  exact normalizePositive_w _

theorem sample_outlier {o : PathOptions} {d : PathDraws} {n i : ℕ} {a : DQuat} (ho : o.include_noise = false)
    (hd : Spec.UniformDraws d) (h : Sample o d n i a) (hi : Spec.IsOutlier o d i) :
    Spec.IsUnit a ∧ (Spec.motion a ⟨0, 0, 0⟩).x ≤ 0 ∧ (Spec.motion a ⟨0, 0, 0⟩).z ≤ 0 ∧
      0 ≤ a.rot.x ∧ 0 ≤ a.rot.y ∧ 0 ≤ a.rot.z ∧ 0 ≤ a.rot.w := by
  obtain ⟨pos, q, pos', q', h1, h2, rfl⟩ := h
  obtain ⟨rfl, rfl⟩ := noised_none ho h2
  obtain ⟨rfl, hpos⟩ := h1.outlier hi
  obtain ⟨hx, hz⟩ := hpos hd
  obtain ⟨-, -, -, -, -, -, q1, q2, q3, q4, q5⟩ := hd i
  have hn : (d.q i).norm > 1e-8 := by
    unfold Quat.norm Quat.dot
    apply Real.lt_sqrt_of_sq_lt
    nlinarith
  have hu := normalizePositive_dot hn
  have hnn : 0 ≤ 1 / (d.q i).norm := by
    have : (0 : ℝ) < (d.q i).norm := lt_trans (by norm_num) hn
    positivity
  have he : normalizePositive (d.q i) = (1 / (d.q i).norm) • d.q i := by
    unfold normalizePositive
    rw [Quat.normalize_of_gt hn, if_neg]
    rw [not_lt, Quat.smul_w]
    exact mul_nonneg hnn q4
  refine ⟨fromPose_unit _ (unit_norm_gt hu), ?_, ?_, ?_, ?_, ?_, ?_⟩
  · rw [fromPose_motion _ hu]
    simpa [Quat.rotateVector] using hx
  · rw [fromPose_motion _ hu]
    simpa [Quat.rotateVector] using hz
  all_goals rw [fromPose_rot hu, he]
  · rw [Quat.smul_x]; exact mul_nonneg hnn q1
  · rw [Quat.smul_y]; exact mul_nonneg hnn q2
  · rw [Quat.smul_z]; exact mul_nonneg hnn q3
  · rw [Quat.smul_w]; exact mul_nonneg hnn q4

theorem not_outlier {o : PathOptions} {d : PathDraws} (ho : o.include_outliers = false) (i : ℕ) :
    ¬ Spec.IsOutlier o d i := by
  rintro ⟨h, -⟩
  rw [ho] at h
  cases h

/-- C80: without outliers and noise, `generate_test_path` gives the requested number of poses of a body on a curve that
rises while it makes two turns around the centre, as unit dual quaternions with a non-negative scalar part; the random
numbers do not matter. -/
theorem C80_path (n : ℕ) (o : PathOptions) (d : PathDraws) (ho : o.include_outliers = false)
    (hn : o.include_noise = false) :
    ∃ l, generateTestPath n o d = .ok l ∧ l.length = n ∧ ∀ i (h : i < l.length),
      Spec.IsUnit l[i] ∧ 0 ≤ l[i].rot.w ∧ ∀ x, Spec.motion l[i] x = Spec.helix (Spec.sampleTime n i) x := by
  obtain ⟨l, hl⟩ := generateTestPath_total n d hn
  obtain ⟨h1, h2⟩ := generateTestPath_sound hl
  refine ⟨l, hl, h1, fun i hi => ?_⟩
  have e : l[i] = helixPose (Spec.sampleTime n i) := sample_inlier hn (h2 i hi) (not_outlier ho i)
  rw [e]
  exact ⟨helixPose_unit _, helixPose_w _, helixPose_motion _⟩

/-- The first of five poses, and the last: one turn is a rise of 2.5. -/
example : Spec.helix (Spec.sampleTime 5 0) ⟨1, 0, 0⟩ = ⟨12, -5, 1 / 2⟩ ∧
    Spec.helixPosition (Spec.sampleTime 5 4) = ⟨11, -5, 11 / 2⟩ ∧
    Spec.helixPosition (Spec.sampleTime 5 1) = ⟨9, -5, 7 / 4⟩ := by
  refine ⟨?_, ?_, ?_⟩
  · simp only [Spec.helix, Spec.sampleTime, Spec.helixPosition, Spec.rodrigues, Spec.cross]
    ext <;> (simp [Vec3.dot]; try norm_num)
  · have h1 : Real.cos (4 * Real.pi) = 1 := by
      rw [show 4 * Real.pi = 2 * Real.pi + 2 * Real.pi by ring, Real.cos_add_two_pi, Real.cos_two_pi]
    have h2 : Real.sin (4 * Real.pi) = 0 := by
      rw [show 4 * Real.pi = 2 * Real.pi + 2 * Real.pi by ring, Real.sin_add_two_pi, Real.sin_two_pi]
    ext <;> norm_num [Spec.helixPosition, Spec.sampleTime, h1, h2]
  · have h : 4 * Real.pi * ((1 : ℕ) / ((5 : ℕ) - 1) : ℝ) = Real.pi := by push_cast; ring
    simp only [Spec.helixPosition, Spec.sampleTime]
    rw [h]
    ext <;> norm_num

/-! ## Both paths -/

theorem sample_unit {o : PathOptions} {d : PathDraws} {n i : ℕ} {a : DQuat} (ho : o.include_noise = false)
    (hd : o.include_outliers = true → Spec.UniformDraws d) (h : Sample o d n i a) : Spec.IsUnit a := by
  by_cases hi : Spec.IsOutlier o d i
  · exact (sample_outlier ho (hd hi.1) h hi).1
  · rw [sample_inlier ho h hi]
    exact helixPose_unit _

theorem offset_relative {X W a b : DQuat} (hW : Spec.IsUnit W) :
    (W.conj * a * X).conj * (W.conj * b * X) = X.conj * (a.conj * b) * X := by
  rw [DQuat.conj_mul_rev, DQuat.conj_mul_rev, DQuat.conj_conj]
  calc X.conj * (a.conj * W) * (W.conj * b * X) = X.conj * a.conj * (W * W.conj) * b * X := by noncomm_ring
    _ = _ := by rw [DQuat.mul_conj_unit hW]; noncomm_ring

/-- The two paths in terms of the two generated ones. -/
theorem generateTestPaths_ok {n : ℕ} (hpos : 0 < n) {X W : DQuat} (hX : Spec.IsUnit X) (hW : Spec.IsUnit W)
    {oB oW : PathOptions} {dB dW : PathDraws} (hoB : oB.include_noise = false) (hoW : oW.include_noise = false)
    (hdB : oB.include_outliers = true → Spec.UniformDraws dB) (hdW : oW.include_outliers = true → Spec.UniformDraws dW) :
    ∃ (v u : List DQuat) (b w : DQuat), v.length = n ∧ u.length = n ∧ v.head? = some b ∧ u.head? = some w ∧
      Sample oB dB n 0 b ∧ Sample oW dW n 0 w ∧ (∀ i (h : i < v.length), Sample oB dB n i v[i]) ∧ (∀ i (h : i < u.length), Sample oW dW n i u[i]) ∧
      (∀ a ∈ v, Spec.IsUnit a) ∧ (∀ a ∈ u, Spec.IsUnit a) ∧
      generateTestPaths n X W true oB oW dB dW = .ok (v.map fun a => posW (b.conj * a),
        u.map fun a => posW (X.conj * (w.conj * a) * X)) := by
  obtain ⟨v, ev⟩ := generateTestPath_total n dB hoB
  obtain ⟨u, eu⟩ := generateTestPath_total n dW hoW
  obtain ⟨lv, sv⟩ := generateTestPath_sound ev
  obtain ⟨lu, su⟩ := generateTestPath_sound eu
  have uv : ∀ a ∈ v, Spec.IsUnit a := by
    intro a ha
    obtain ⟨i, hi, rfl⟩ := List.getElem_of_mem ha
    exact sample_unit hoB hdB (sv i hi)
  have uu : ∀ a ∈ u, Spec.IsUnit a := by
    intro a ha
    obtain ⟨i, hi, rfl⟩ := List.getElem_of_mem ha
    exact sample_unit hoW hdW (su i hi)
  have v0 : 0 < v.length := by omega
  have u0 : 0 < u.length := by omega
  refine ⟨v, u, v[0], u[0], lv, lu, by rw [List.head?_eq_getElem?, List.getElem?_eq_getElem v0],
    by rw [List.head?_eq_getElem?, List.getElem?_eq_getElem u0], sv 0 v0, su 0 u0, sv, su, uv, uu, ?_⟩
  unfold generateTestPaths
  rw [ev, Py.ok_bind, if_pos rfl]
  have p1 : pyPos v.length 0 = some 0 := pyPos_natCast (k := 0) (by omega)
  have a1 := align_unit p1 uv true
  rw [List.rotate_zero] at a1
  have uo : ∀ a ∈ u.map fun b => W.conj * b * X, Spec.IsUnit a := by
    intro a ha
    obtain ⟨b, hb, rfl⟩ := List.mem_map.mp ha
    exact DQuat.isUnit_mul (DQuat.isUnit_mul (DQuat.isUnit_conj hW) (uu b hb)) hX
  have p2 : pyPos (u.map fun b => W.conj * b * X).length 0 = some 0 :=
    pyPos_natCast (k := 0) (by rw [List.length_map]; omega)
  have a2 := align_unit p2 uo true
  rw [List.rotate_zero] at a2
  rw [a1, Py.ok_bind, eu, Py.ok_bind, offset_unit uu hX hW, Py.ok_bind, a2, Py.ok_bind]
  rw [List.map_map]
  congr 3
  funext b
  rw [Function.comp_apply, rebase_true, List.getElem_map, offset_relative hW]

/-- C80: without outliers and noise, the two paths of `generate_test_paths` start at the identity and are exact data
for the given transform, whatever the transform between the two worlds is. -/
theorem C80_exact (n : ℕ) (hpos : 0 < n) (X W : DQuat) (hX : Spec.IsUnit X) (hW : Spec.IsUnit W)
    (oB oW : PathOptions) (dB dW : PathDraws) (hB : oB.include_outliers = false) (hB' : oB.include_noise = false)
    (hW1 : oW.include_outliers = false) (hW2 : oW.include_noise = false) :
    ∃ bs ws, generateTestPaths n X W true oB oW dB dW = .ok (bs, ws) ∧ bs.length = n ∧ ws.length = n ∧
      bs.head? = some DQuat.identity ∧ ws.head? = some DQuat.identity ∧
      (∀ b ∈ bs, Spec.IsUnit b ∧ 0 ≤ b.rot.w) ∧ (∀ w ∈ ws, Spec.IsUnit w ∧ 0 ≤ w.rot.w) ∧ Spec.Exact bs ws X := by
  obtain ⟨v, u, b, w, lv, lu, hb, hw, sb, sw, sv, su, uv, uu, e⟩ := generateTestPaths_ok hpos hX hW (dB := dB)
    (dW := dW) hB' hW2 (fun h => absurd h (by rw [hB]; exact Bool.false_ne_true))
    (fun h => absurd h (by rw [hW1]; exact Bool.false_ne_true))
  have hvu : u = v := by
    refine List.ext_getElem (by omega) fun i h1 h2 => ?_
    rw [sample_inlier hB' (sv i h2) (not_outlier hB i), sample_inlier hW2 (su i h1) (not_outlier hW1 i)]
  subst hvu
  obtain rfl : b = w := by rw [hb] at hw; exact Option.some.inj hw
  have h0 : Spec.IsUnit b := uu _ (List.mem_of_mem_head? (by rw [hb]; rfl))
  have posW_one : posW (1 : DQuat) = DQuat.identity := posW_of_nonneg (by simp)
  refine ⟨_, _, e, by rw [List.length_map, lu], by rw [List.length_map, lu], ?_, ?_, ?_, ?_, ?_⟩
  · rw [List.head?_map, hb, Option.map_some,
      DQuat.conj_mul_unit h0, posW_one]
  · rw [List.head?_map, hb, Option.map_some,
      DQuat.conj_mul_unit h0, mul_one, DQuat.conj_mul_unit hX, posW_one]
  · intro c hc
    obtain ⟨a, ha, rfl⟩ := List.mem_map.mp hc
    refine ⟨?_, posW_nonneg _⟩
    have := DQuat.isUnit_mul (DQuat.isUnit_conj h0) (uu a ha)
    rcases posW_eq_or (b.conj * a) with h | h <;> rw [h]
    · exact this
    · exact DQuat.isUnit_neg this
  · intro c hc
    obtain ⟨a, ha, rfl⟩ := List.mem_map.mp hc
    refine ⟨?_, posW_nonneg _⟩
    have := DQuat.isUnit_mul (DQuat.isUnit_mul (DQuat.isUnit_conj hX)
      (DQuat.isUnit_mul (DQuat.isUnit_conj h0) (uu a ha))) hX
    rcases posW_eq_or (X.conj * (b.conj * a) * X) with h | h <;> rw [h]
    · exact this
    · exact DQuat.isUnit_neg this
  · unfold Spec.Exact
    rw [List.forall₂_map_left_iff, List.forall₂_map_right_iff, List.forall₂_same]
    intro a _
    rw [handEyeEq_iff]
    exact conj_sandwich_posW hX

/-- C80: without samples there is no first pose to align the paths at. -/
theorem C80_no_samples (X W : DQuat) (oB oW : PathOptions) (dB dW : PathDraws) :
    generateTestPaths 0 X W true oB oW dB dW = .error .index := by
  have h : generateTestPath 0 oB dB = .ok [] := rfl
  unfold generateTestPaths
  rw [h, Py.ok_bind, if_pos rfl, align_index_error (by simp [pyPos])]
  rfl

/-- C80 is refuted for paths that are not to start at the origin: the second path is generated only if
`paths_start_at_origin` is set, and without it there is a NameError. -/
theorem C80_other_start_refuted (n : ℕ) (X W : DQuat) (oB oW : PathOptions) (dB dW : PathDraws)
    (hB : oB.include_noise = false) : generateTestPaths n X W false oB oW dB dW = .error .name := by
  obtain ⟨v, ev⟩ := generateTestPath_total n dB hB
  unfold generateTestPaths
  rw [ev, Py.ok_bind, if_neg Bool.false_ne_true]

end HandEye
