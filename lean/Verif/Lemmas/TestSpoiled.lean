import Verif.Props.Quat3
import Verif.Model.TestSpoiled
import Verif.Props.UnitTests3
import Verif.Props.TestPaths3
import Verif.Props.OutlierScript
import Verif.Props.Figures3d2

/-! # Lemmas about the tests with outliers -/

namespace HandEye

/-! ## The rotation between two samples -/

/-- The rotation between two poses of the curve. -/
theorem helixQuat_between (s t : ℝ) : (helixQuat s).conj * helixQuat t =
    ⟨Real.sin (Real.pi * (t - s) / 5) * Real.sin (2 * Real.pi * (s + t)), -(Real.sin (Real.pi * (t - s) / 5) * Real.cos (2 * Real.pi * (s + t))),
      -(Real.cos (Real.pi * (t - s) / 5) * Real.sin (2 * Real.pi * (t - s))), Real.cos (Real.pi * (t - s) / 5) * Real.cos (2 * Real.pi * (t - s))⟩ := by
  rw [helixQuat_eq, helixQuat_eq]
  have e1 : Real.pi * (t - s) / 5 = Real.pi * t / 5 - Real.pi * s / 5 := by ring
  have e2 : 2 * Real.pi * (s + t) = 2 * Real.pi * s + 2 * Real.pi * t := by ring
  have e3 : 2 * Real.pi * (t - s) = 2 * Real.pi * t - 2 * Real.pi * s := by ring
  rw [e1, e2, e3, Real.sin_sub, Real.cos_sub, Real.sin_add, Real.cos_add, Real.sin_sub, Real.cos_sub]
  ext <;> simp [Quat.mul_x, Quat.mul_y, Quat.mul_z, Quat.mul_w, Quat.conj] <;> ring

theorem helixPose_rot_or (t : ℝ) : (helixPose t).rot = helixQuat t ∨ (helixPose t).rot = -helixQuat t := by
  rw [helixPose_rot, normalizePositive_unit (helixQuat_dot t)]
  split_ifs
  · exact Or.inr rfl
  · exact Or.inl rfl

theorem helixPose_between (s t : ℝ) : ((helixPose s).conj * helixPose t).rot = (helixQuat s).conj * helixQuat t ∨
    ((helixPose s).conj * helixPose t).rot = -((helixQuat s).conj * helixQuat t) := by
  rw [DQuat.mul_rot, DQuat.conj_rot]
  have hc : ∀ q : Quat, (-q).conj = -q.conj := fun q => by ext <;> simp [Quat.conj]
  rcases helixPose_rot_or s with h | h <;> rcases helixPose_rot_or t with h' | h' <;> rw [h, h']
  · exact Or.inl rfl
  · right; rw [mul_neg]
  · right; rw [hc, neg_mul]
  · left; rw [hc, neg_mul, mul_neg, neg_neg]

theorem vec_multiple {q r : Quat} (h : q = r ∨ q = -r) : ∃ a : ℝ, a ≠ 0 ∧ q.vec = ⟨a * r.vec.x, a * r.vec.y, a * r.vec.z⟩ := by
  rcases h with h | h
  · exact ⟨1, one_ne_zero, by rw [h]; simp [Quat.vec]⟩
  · exact ⟨-1, by norm_num, by rw [h]; simp [Quat.vec]⟩

/-- Seen from one sample, two others are rotated about axes that are not parallel. -/
theorem helix_axes {i j k : ℕ} (hij : i < j) (hjk : j < k) (hk : k < 20) :
    Spec.cross ((helixPose (Spec.sampleTime 20 i)).conj * helixPose (Spec.sampleTime 20 j)).rot.vec
      ((helixPose (Spec.sampleTime 20 i)).conj * helixPose (Spec.sampleTime 20 k)).rot.vec ≠ ⟨0, 0, 0⟩ := by
  obtain ⟨a, ha, h1⟩ := vec_multiple (helixPose_between (Spec.sampleTime 20 i) (Spec.sampleTime 20 j))
  obtain ⟨b, hb, h2⟩ := vec_multiple (helixPose_between (Spec.sampleTime 20 i) (Spec.sampleTime 20 k))
  rw [Ne, cross_neg_zero ha hb h1 h2, cross_eq_zero, helixQuat_between, helixQuat_between]
  rintro ⟨-, -, h⟩
  have pos : ∀ m : ℕ, i < m → m < 20 → 0 < Real.sin (Real.pi * (Spec.sampleTime 20 m - Spec.sampleTime 20 i) / 5) := by
    intro m h1 h2
    have h1' : (i : ℝ) < m := by exact_mod_cast h1
    have h2' : (m : ℝ) < 20 := by exact_mod_cast h2
    have h3' : (0 : ℝ) ≤ i := Nat.cast_nonneg i
    have e : Real.pi * (Spec.sampleTime 20 m - Spec.sampleTime 20 i) / 5 = Real.pi * (((m : ℝ) - i) / 95) := by
      unfold Spec.sampleTime
      push_cast
      ring
    rw [e]
    apply Real.sin_pos_of_pos_of_lt_pi
    · have := Real.pi_pos
      have : 0 < ((m : ℝ) - i) / 95 := by linarith
      positivity
    · have := Real.pi_pos
      have : ((m : ℝ) - i) / 95 < 1 := by linarith
      nlinarith
  have p1 := pos j hij (by omega)
  have p2 := pos k (by omega) hk
  have p3 : Real.sin (2 * Real.pi * (Spec.sampleTime 20 k - Spec.sampleTime 20 j)) ≠ 0 := by
    intro h0
    obtain ⟨n, hn⟩ := Real.sin_eq_zero_iff.mp h0
    have e : (n : ℝ) * Real.pi = (2 * ((k : ℝ) - j) / 19) * Real.pi := by
      rw [hn]
      unfold Spec.sampleTime
      push_cast
      ring
    have e' := mul_right_cancel₀ Real.pi_ne_zero e
    have e2 : (n : ℝ) * 19 = 2 * ((k : ℝ) - j) := by rw [e']; ring
    have e3 : n * 19 = 2 * ((k : ℤ) - j) := by exact_mod_cast e2
    omega
  simp only [Quat.vec] at h
  set S₁ := Real.sin (Real.pi * (Spec.sampleTime 20 j - Spec.sampleTime 20 i) / 5)
  set S₂ := Real.sin (Real.pi * (Spec.sampleTime 20 k - Spec.sampleTime 20 i) / 5)
  have e : 2 * Real.pi * (Spec.sampleTime 20 k - Spec.sampleTime 20 j) =
      2 * Real.pi * (Spec.sampleTime 20 i + Spec.sampleTime 20 k) - 2 * Real.pi * (Spec.sampleTime 20 i + Spec.sampleTime 20 j) := by ring
  rw [e, Real.sin_sub] at p3
  have := mul_ne_zero (mul_ne_zero p1.ne' p2.ne') p3
  apply this
  linear_combination h

/-! ## The paths -/

theorem scalarParts_conj {a X : DQuat} (hX : Spec.IsUnit X) : Spec.scalarParts (X.conj * a * X) = Spec.scalarParts a := by
  have h := conj_scalar_parts (a := a) (DQuat.isUnit_conj hX)
  rw [DQuat.conj_conj] at h
  unfold Spec.scalarParts
  rw [h.1, h.2]

/-- The paths before they are moved to the origin: RANSAC aligns these as it aligns the ones that it gets. -/
theorem generated_paths {oB oW : PathOptions} {dB dW : PathDraws} {n : ℕ} (hn : 0 < n) {X W : DQuat} (hX : Spec.IsUnit X) (hW : Spec.IsUnit W)
    {v u : List DQuat} (hv : generateTestPath n oB dB = .ok v) (hu : generateTestPath n oW dW = .ok u)
    (uv : ∀ a ∈ v, Spec.IsUnit a) (uu : ∀ a ∈ u, Spec.IsUnit a) (nv : Spec.NoHalfTurns v) (nu : Spec.NoHalfTurns u) :
    ∃ bs ws, generateTestPaths n X W true oB oW dB dW = .ok (bs, ws) ∧ (∀ a ∈ bs, Spec.IsUnit a) ∧ (∀ a ∈ ws, Spec.IsUnit a) ∧
      bs.length = n ∧ ws.length = n ∧
      (∀ i : ℤ, alignPathsAtIndex bs i = alignPathsAtIndex v i) ∧
      (∀ i : ℤ, alignPathsAtIndex ws i = alignPathsAtIndex (u.map fun b => W.conj * b * X) i) ∧
      (∀ a ∈ u.map fun b => W.conj * b * X, Spec.IsUnit a) ∧ Spec.NoHalfTurns (u.map fun b => W.conj * b * X) := by
  obtain ⟨lv, -⟩ := generateTestPath_sound hv
  obtain ⟨lu, -⟩ := generateTestPath_sound hu
  have uo : ∀ a ∈ u.map fun b => W.conj * b * X, Spec.IsUnit a := by
    intro a ha
    obtain ⟨b, hb, rfl⟩ := List.mem_map.mp ha
    exact DQuat.isUnit_mul (DQuat.isUnit_mul (DQuat.isUnit_conj hW) (uu b hb)) hX
  have no : Spec.NoHalfTurns (u.map fun b => W.conj * b * X) := by
    rw [noHalfTurns_iff] at nu ⊢
    intro a ha b hb
    obtain ⟨a, ha', rfl⟩ := List.mem_map.mp ha
    obtain ⟨b, hb', rfl⟩ := List.mem_map.mp hb
    have h := (conj_scalar_parts (a := a.conj * b) (DQuat.isUnit_conj hX)).1
    rw [DQuat.conj_conj] at h
    rw [offset_relative hW, h]
    exact nu a ha' b hb'
  obtain ⟨a₀, l, ev⟩ : ∃ a l, v = a :: l := List.exists_cons_of_ne_nil (by rintro rfl; simp at lv; omega)
  obtain ⟨b₀, l', eu⟩ : ∃ a l, u = a :: l := List.exists_cons_of_ne_nil (by rintro rfl; simp at lu; omega)
  obtain ⟨bs, b1, b2, b3⟩ := align_again uv nv ev
  obtain ⟨ws, w1, w2, w3⟩ := align_again uo no (a₀ := W.conj * b₀ * X) (l := l'.map fun b => W.conj * b * X) (by rw [eu]; rfl)
  have ur : ∀ {c : DQuat} {l r : List DQuat}, Spec.IsUnit c → (∀ a ∈ l, Spec.IsUnit a) → r = l.map (rebase c.conj true) →
      ∀ a ∈ r, Spec.IsUnit a := by
    rintro c l r hc hl rfl a ha
    obtain ⟨b, hb, rfl⟩ := List.mem_map.mp ha
    rw [rebase_true]
    exact posW_unit (DQuat.isUnit_mul (DQuat.isUnit_conj hc) (hl b hb))
  refine ⟨bs, ws, ?_, ur (uv a₀ (by rw [ev]; simp)) uv b2, ur (uo _ (by rw [eu]; simp)) uo w2, by rw [b2, List.length_map, lv],
    by rw [w2, List.length_map, List.length_map, lu], b3, w3, uo, no⟩
  unfold generateTestPaths
  rw [hv, Py.ok_bind, if_pos rfl, b1, Py.ok_bind, hu, Py.ok_bind, offset_unit uu hX hW, Py.ok_bind, w1]
  rfl

/-- The plot changes nothing. -/
theorem plotTestPaths_unit {bs ws : List DQuat} (ub : ∀ a ∈ bs, Spec.IsUnit a) (uw : ∀ a ∈ ws, Spec.IsUnit a) (hb : bs ≠ []) (hw : ws ≠ []) :
    ∃ figure, plotTestPaths bs ws = .ok (figure, bs, ws) := by
  have e : ∃ f : DQuat → Pose, ∀ l : List DQuat, (∀ a ∈ l, Spec.IsUnit a) → l.mapM DQuat.toPose = .ok (l.map fun a => (f a, a)) :=
    ⟨_, fun l hl => Py.mapM_ok fun a ha => DQuat.toPose_unit (DQuat.IsUnit.rot (hl a ha))⟩
  obtain ⟨f, e⟩ := e
  unfold plotTestPaths
  rw [e bs ub, Py.ok_bind, e ws uw, Py.ok_bind]
  obtain ⟨figure, hf, -⟩ := C84_positions [bs.map f, ws.map f] true (by simp) (by simp) (by
      intro p hp
      simp only [List.mem_cons, List.not_mem_nil, or_false] at hp
      rcases hp with rfl | rfl <;> simpa using by assumption)
  refine ⟨figure, ?_⟩
  simp only [List.map_map, Function.comp_def]
  rw [hf, Py.ok_bind]
  simp

/-- The measurements of the test. -/
theorem measurement_at {X W : DQuat} {v u : List DQuat} {p : DQuat × DQuat} (hp : p ∈ v.zip (u.map fun b => W.conj * b * X)) :
    ∃ (i : ℕ) (a b : DQuat), (v.zip u)[i]? = some (a, b) ∧ p = (a, W.conj * b * X) := by
  rw [List.zip_map_right] at hp
  obtain ⟨⟨a, b⟩, h, rfl⟩ := List.mem_map.mp hp
  obtain ⟨i, hi⟩ := List.getElem?_of_mem h
  exact ⟨i, a, b, hi, rfl⟩

theorem corresponds_offset {X W : DQuat} (hX : Spec.IsUnit X) (hW : Spec.IsUnit W) {tol : ℝ} {a b a' b' : DQuat} :
    Spec.Corresponds tol (a, W.conj * b * X) (a', W.conj * b' * X) ↔ Spec.Corresponds tol (a, b) (a', b') := by
  unfold Spec.Corresponds
  dsimp only
  rw [offset_relative hW, scalarParts_conj hX]

theorem fits_offset {X W : DQuat} (hX : Spec.IsUnit X) (hW : Spec.IsUnit W) {a b : DQuat} (ha : Spec.IsUnit a) (hb : Spec.IsUnit b) :
    Spec.FitsMotion W.conj X (a, W.conj * b * X) ↔ b = a ∨ b = -a := by
  rw [fitsMotion_iff (m := (a, W.conj * b * X)) (DQuat.isUnit_conj hW) hX ha
    (DQuat.isUnit_mul (DQuat.isUnit_mul (DQuat.isUnit_conj hW) hb) hX)]
  dsimp only
  have e : ∀ c : DQuat, W * (W.conj * c * X) * X.conj = c := by
    intro c
    have : W * (W.conj * c * X) * X.conj = (W * W.conj) * c * (X * X.conj) := by noncomm_ring
    rw [this, DQuat.mul_conj_unit hW, DQuat.mul_conj_unit hX, one_mul, mul_one]
  have en : ∀ c : DQuat, W.conj * -c * X = -(W.conj * c * X) := fun c => by rw [mul_neg, neg_mul]
  constructor
  · rintro (h | h)
    · left
      rw [← e b, h, e]
    · right
      rw [← e b, h, ← en, e]
  · rintro (rfl | rfl)
    · exact Or.inl rfl
    · exact Or.inr (en a)

/-- RANSAC on two paths that agree in the good samples: every calibration that it reports is the given transform. -/
theorem spoiled_outcome {svd : Svd} (hsvd : ∀ T s V, svd T = .ok (s, V) → Spec.IsSVD T s V) {cfg : HandEyeConfig}
    (hmode : cfg.ransac_inlier_classification = .scalarPartEquality) {tol : ℝ}
    (ht : cfg.ransac_sample_rejection_scalar_part_equality_tolerance = tol) (htol : 0 ≤ tol)
    {X W : DQuat} (hX : Spec.IsUnit X) (hXw : X.rot.w ≠ 0) (hW : Spec.IsUnit W) {v u : List DQuat} (hl : u.length = v.length)
    (uv : ∀ a ∈ v, Spec.IsUnit a) (uu : ∀ a ∈ u, Spec.IsUnit a)
    (nu : Spec.NoHalfTurns u) (no : Spec.NoHalfTurns (u.map fun b => W.conj * b * X)) (uo : ∀ a ∈ u.map fun b => W.conj * b * X, Spec.IsUnit a)
    {Good : ℕ → Prop} (same : ∀ (i : ℕ) a b, (v.zip u)[i]? = some (a, b) → Good i → b = a)
    {i₀ : ℕ} {p₀ : DQuat × DQuat} (h₀ : (v.zip u)[i₀]? = some p₀) (hg₀ : Good i₀)
    (hvis : ∀ (i j : ℕ) p q, (v.zip u)[i]? = some p → (v.zip u)[j]? = some q → Good i → Spec.Corresponds tol p q → Good j)
    (hfew : ∀ (i : ℕ) p, (v.zip u)[i]? = some p → ¬ Good i → Spec.number (Spec.Corresponds tol p) (v.zip u) < cfg.min_num_inliers)
    (h2 : ∃ (i : ℕ) (a a' : DQuat) (j : ℕ) (b b' : DQuat) (k : ℕ) (c c' : DQuat), (v.zip u)[i]? = some (a, a') ∧ (v.zip u)[j]? = some (b, b') ∧ (v.zip u)[k]? = some (c, c') ∧
      Good i ∧ Good j ∧ Good k ∧ Spec.cross (a.conj * b).rot.vec (a.conj * c).rot.vec ≠ ⟨0, 0, 0⟩)
    {bs ws : List DQuat} (eb : ∀ i : ℤ, alignPathsAtIndex bs i = alignPathsAtIndex v i)
    (ew : ∀ i : ℤ, alignPathsAtIndex ws i = alignPathsAtIndex (u.map fun b => W.conj * b * X) i) {rng : ℕ → List ℕ} {fuel : ℕ}
    {r : CalibrationResult} (h : ransac svd rng cfg bs ws fuel = .ok (some r)) (hs : r.success = true) :
    ∃ dq, r.dq_H_E = some dq ∧ Spec.SameUpToSign dq X ∧ 0 ≤ dq.rot.w := by
  classical
  have unit : ∀ (i : ℕ) a b, (v.zip u)[i]? = some (a, b) → Spec.IsUnit a ∧ Spec.IsUnit b := by
    intro i a b hi
    have := List.of_mem_zip (List.mem_of_getElem? hi)
    exact ⟨uv a this.1, uu b this.2⟩
  -- poses that agree as motions are good
  have good : ∀ (i : ℕ) a b, (v.zip u)[i]? = some (a, b) → (Spec.FitsMotion W.conj X (a, W.conj * b * X) ↔ Good i) := by
    intro i a b hi
    obtain ⟨ua, ub⟩ := unit i a b hi
    constructor
    · intro hf
      obtain ⟨a₀, b₀⟩ := p₀
      obtain rfl := same _ _ _ h₀ hg₀
      have hba := (fits_offset hX hW ua ub).mp hf
      have hne := noHalfTurns_iff.mp nu _ (List.of_mem_zip (List.mem_of_getElem? h₀)).2 _ (List.of_mem_zip (List.mem_of_getElem? hi)).2
      have hba' : a = b ∨ a = -b := by
        rcases hba with h | h <;> rw [h]
        · exact Or.inl rfl
        · exact Or.inr (neg_neg a).symm
      refine hvis i₀ i _ _ h₀ hi hg₀ ?_
      have e := scalarParts_signs (a := b₀) (Or.inl rfl) hba' hne
      unfold Spec.Corresponds
      dsimp only
      rw [e, sub_self, sub_self, abs_zero]
      constructor <;> positivity
    · intro hg
      rw [fits_offset hX hW ua ub]
      exact Or.inl (same i a b hi hg)
  have hmem : ∀ (i : ℕ) a b, (v.zip u)[i]? = some (a, b) → (a, W.conj * b * X) ∈ v.zip (u.map fun b => W.conj * b * X) := by
    intro i a b hi
    rw [List.zip_map_right]
    exact List.mem_map.mpr ⟨(a, b), List.mem_of_getElem? hi, rfl⟩
  suffices hx : _ ∧ _ ∧ _ by
    obtain ⟨dq, a1, a2, a3, -⟩ := ransac_outcome hsvd hmode ht htol (DQuat.isUnit_conj hW) hX hXw
      (V := v) (W := u.map fun b => W.conj * b * X) (by rw [List.length_map, hl]) uv uo no hx.1 hx.2.1 hx.2.2 (fun i => eb i) (fun i => ew i) h hs
    exact ⟨dq, a1, a2, a3⟩
  refine ⟨?_, ?_, ?_⟩
  · intro p hp hpf q hq hc
    obtain ⟨i, a, b, hi, rfl⟩ := measurement_at hp
    obtain ⟨j, a', b', hj, rfl⟩ := measurement_at hq
    rw [good i a b hi] at hpf
    rw [good j a' b' hj]
    exact hvis i j _ _ hi hj hpf ((corresponds_offset hX hW).mp hc)
  · intro p hp hpf
    obtain ⟨i, a, b, hi, rfl⟩ := measurement_at hp
    rw [good i a b hi] at hpf
    have := hfew i _ hi hpf
    unfold Spec.number at this ⊢
    rw [List.zip_map_right, List.countP_map]
    refine lt_of_eq_of_lt (List.countP_congr fun q _ => ?_) this
    simp only [Function.comp_apply, decide_eq_true_eq]
    exact corresponds_offset hX hW
  · obtain ⟨i, a, a', j, b, b', k, c, c', hi, hj, hk, gi, gj, gk, hne⟩ := h2
    have hin : ∀ (i : ℕ) a b, (v.zip u)[i]? = some (a, b) → Good i →
        a ∈ Spec.handsOf (Spec.FitsMotion W.conj X) (v.zip (u.map fun b => W.conj * b * X)) := by
      intro i a b hi hg
      unfold Spec.handsOf
      refine List.mem_map.mpr ⟨(a, W.conj * b * X), List.mem_filter.mpr ⟨hmem i a b hi, ?_⟩, rfl⟩
      rw [decide_eq_true_eq, good i a b hi]
      exact hg
    exact ⟨a, hin i a a' hi gi, b, hin j b b' hj gj, c, hin k c c' hk gk, hne⟩

/-! ## Noise -/

theorem npNormal_ok {s : ℝ} (hs : 0 ≤ s) (u : ℝ) : npNormal s u = .ok (s * u) := by
  unfold npNormal
  unfold pyRequire
  rw [if_pos hs]
  rfl

/-- The axis of the rotation which is added as noise. -/
def noiseAxis (o : PathOptions) (d : PathDraws) (i : ℕ) : Vec3 :=
  ⟨o.noise_sigma_rot * (d.noise_axis i).x, o.noise_sigma_rot * (d.noise_axis i).y, o.noise_sigma_rot * (d.noise_axis i).z⟩

/-- The noise can be added if the drawn axis is not practically zero. -/
theorem addNoise_ok {o : PathOptions} {d : PathDraws} {n i : ℕ} {pos : Vec3} {s : PathState} {q : Quat} (hp : Placed n i pos s)
    (ho : o.include_noise = true) (ht : 0 ≤ o.noise_sigma_trans) (hr : 0 ≤ o.noise_sigma_rot)
    (ha : 1e-16 < (noiseAxis o d i).norm) : ∃ r, addNoise o d i s q = .ok r := by
  unfold addNoise
  rw [if_pos ho, pyAt_eq_ok.mpr hp.x, Py.ok_bind, pyAt_eq_ok.mpr hp.y]
  simp only [Py.ok_bind, pyAt_eq_ok.mpr hp.z, npNormal_ok ht, npNormal_ok hr]
  have hu : (Quat.fromAngleAxis (Real.pi * (o.noise_sigma_rot * d.noise_angle i)) (noiseAxis o d i)).norm = 1 :=
    (C06_from_angle_axis_partial _ _ ha).1
  have hu' := Quat.norm_eq_one.mp hu
  unfold noiseAxis at hu'
  rw [Quat.normalize_unit hu', Quat.inverse_unit hu', Py.ok_bind]
  exact ⟨_, rfl⟩

theorem noisyStep_total {o : PathOptions} {d : PathDraws} {n i : ℕ} (hi : i < n) {s : PathState} (hs : Remaining n i s)
    (ho : o.include_noise = true) (ht : 0 ≤ o.noise_sigma_trans) (hr : 0 ≤ o.noise_sigma_rot)
    (ha : 1e-16 < (noiseAxis o d i).norm) : ∃ r, pathStep o d (unitLinspace n) i s = .ok r := by
  unfold pathStep
  rw [pyAt_eq_ok.mpr (unitLinspace_get hi), Py.ok_bind]
  obtain ⟨s', q, pos, e2, hp, hd⟩ := drawPose_ok o d hi hs
  rw [e2, Py.ok_bind]
  dsimp only
  obtain ⟨⟨s'', q'⟩, hr⟩ := addNoise_ok (q := q) hp ho ht hr ha
  obtain ⟨pos', hp', -⟩ := addNoise_sound hp hr
  rw [hr, Py.ok_bind]
  dsimp only
  rw [pyAt_eq_ok.mpr hp'.x, Py.ok_bind, pyAt_eq_ok.mpr hp'.y, Py.ok_bind, pyAt_eq_ok.mpr hp'.z, Py.ok_bind]
  exact ⟨_, rfl⟩

theorem noisyLoop_total {o : PathOptions} {d : PathDraws} {n : ℕ} (ho : o.include_noise = true) (ht : 0 ≤ o.noise_sigma_trans)
    (hr : 0 ≤ o.noise_sigma_rot) (ha : ∀ i, 1e-16 < (noiseAxis o d i).norm) (k : ℕ) :
    ∀ (i : ℕ) (s : PathState), i + k = n → Remaining n i s → ∃ l, pathLoop o d (unitLinspace n) (List.range' i k) s = .ok l := by
  induction k with
  | zero => exact fun i s _ _ => ⟨[], rfl⟩
  | succ k ih =>
    intro i s hk hs
    rw [List.range'_succ]
    unfold pathLoop
    obtain ⟨r, he⟩ := noisyStep_total (d := d) (by omega) hs ho ht hr (ha i)
    obtain ⟨l, hl⟩ := ih (i + 1) r.1 (by omega) (pathStep_sound (by omega) hs he).1
    rw [he, Py.ok_bind, hl, Py.ok_bind]
    exact ⟨_, rfl⟩

/-- A path with noise is generated unless a drawn axis is practically zero. -/
theorem noisyPath_total (n : ℕ) {o : PathOptions} {d : PathDraws} (ho : o.include_noise = true) (ht : 0 ≤ o.noise_sigma_trans)
    (hr : 0 ≤ o.noise_sigma_rot) (ha : ∀ i, 1e-16 < (noiseAxis o d i).norm) :
    ∃ l, generateTestPath n o d = .ok l := by
  unfold generateTestPath
  rw [List.range_eq_range']
  exact noisyLoop_total ho ht hr ha n 0 _ (by omega) (remaining_initial n)

end HandEye
