import Verif.Props.Ransac8

/-! # Lemmas: the poses that are compared, for a calibration that need not be a rigid motion -/

namespace HandEye

/-- The pose of a dual quaternion whose rotational part has length one. -/
noncomputable def unitPose (d : DQuat) : Pose :=
  ⟨(((2 : ℝ) • d.dual) * d.rot.conj).vec, if d.rot.w < 0 then -d.rot else d.rot⟩

theorem poses_of {v : List DQuat} (hv : ∀ a ∈ v, a.rot.dot a.rot = 1) :
    v.mapM (fun d => (Prod.fst <$> d.toPose : Py Pose)) = .ok (v.map unitPose) := by
  apply Py.mapM_ok
  intro a ha
  rw [DQuat.toPose_unit (hv a ha)]
  rfl

theorem unitPose_norm {d : DQuat} (h : d.rot.dot d.rot = 1) : (unitPose d).q.norm = 1 := by
  rw [Quat.norm_eq_one]
  unfold unitPose
  dsimp only
  split <;> simpa using h

theorem unitPose_q (d : DQuat) : (unitPose d).q = d.rot ∨ (unitPose d).q = -d.rot := by
  unfold unitPose
  dsimp only
  split
  · exact Or.inr rfl
  · exact Or.inl rfl

theorem unitPose_neg (d : DQuat) : (unitPose (-d)).pos = (unitPose d).pos := by
  unfold unitPose
  ext <;> simp

/-- The same motion has the same pose, as far as the error is concerned. -/
theorem unitPose_same {a b : DQuat} (hb : b.rot.dot b.rot = 1) (h : a = b ∨ a = -b) : computePoseError (unitPose b) (unitPose a) = .ok (0, 0) := by
  have hu : (unitPose b).q.norm = 1 := unitPose_norm hb
  have ha : a.rot.dot a.rot = 1 := by
    rcases h with rfl | rfl
    · exact hb
    · simpa using hb
  refine poseError_same ?_ (unitPose_norm ha) ?_
  · rcases h with rfl | rfl
    · rfl
    · exact (unitPose_neg b).symm
  · have h1 := unitPose_q a
    have h2 := unitPose_q b
    rcases h with rfl | rfl
    · exact Or.inl rfl
    · simp only [DQuat.neg_rot, neg_neg] at h1
      rcases h1 with h1 | h1 <;> rcases h2 with h2 | h2 <;> rw [h1, h2] <;> simp

theorem pm_mul {a b c d : DQuat} (h1 : a = b ∨ a = -b) (h2 : c = d ∨ c = -d) : a * c = b * d ∨ a * c = -(b * d) := by
  rcases h1 with rfl | rfl <;> rcases h2 with rfl | rfl
  · exact Or.inl rfl
  · right; rw [mul_neg]
  · right; rw [neg_mul]
  · left; rw [neg_mul_neg]

theorem pm_trans {a b c : DQuat} (h1 : a = b ∨ a = -b) (h2 : b = c ∨ b = -c) : a = c ∨ a = -c := by
  rcases h1 with rfl | rfl <;> rcases h2 with rfl | rfl
  · exact Or.inl rfl
  · exact Or.inr rfl
  · exact Or.inr rfl
  · left; rw [neg_neg]

theorem pm_rot {a b : DQuat} (hb : b.rot.dot b.rot = 1) (h : a = b ∨ a = -b) : a.rot.dot a.rot = 1 := by
  rcases h with rfl | rfl
  · exact hb
  · simpa using hb

theorem inverse_value {a : DQuat} (h : a.rot.dot a.rot = 1) :
    ∃ i, a.inverse = .ok i ∧ a * i = 1 ∧ i * a = 1 ∧ i.rot.dot i.rot = 1 := by
  have hn : a.rot.norm > 1e-8 := by rw [Quat.norm_eq_one.mpr h]; norm_num
  refine ⟨_, DQuat.inverse_ok hn, (C13_inverse a _ (DQuat.inverse_ok hn)).1, (C13_inverse a _ (DQuat.inverse_ok hn)).2.1, ?_⟩
  dsimp only
  rw [Quat.inv'_unit h, Quat.dot_conj_conj, h]

/-- The poses that are compared, if the rotational parts have length one. -/
theorem aligned_value {bs ws : List DQuat} (hb : ∀ a ∈ bs, a.rot.dot a.rot = 1) (hw : ∀ a ∈ ws, Spec.IsUnit a)
    (hl : ws.length = bs.length) {w0 : DQuat} (h0 : ws[0]? = some w0) {Y : DQuat} (hY : Y.rot.dot Y.rot = 1) :
    ∃ (Y' : DQuat) (L : List DQuat), Y.inverse = .ok Y' ∧ getAlignedPoses bs ws Y = .ok (bs.map unitPose, L.map unitPose) ∧ L.length = bs.length ∧
      L[0]? = some DQuat.identity ∧ (∀ d ∈ L, d.rot.dot d.rot = 1) ∧
      ∀ (k : ℕ) d w, L[k]? = some d → ws[k]? = some w →
        (d = Y * (w0.conj * w) * Y' ∨ d = -(Y * (w0.conj * w) * Y')) := by
  obtain ⟨Y', i1, i2, i3, i4⟩ := inverse_value hY
  obtain ⟨w0lt, hw0⟩ := List.getElem?_eq_some_iff.mp h0
  have hw0u : Spec.IsUnit w0 := hw _ (hw0 ▸ List.getElem_mem w0lt)
  set e := posW Y' with he
  have hpm : e = Y' ∨ e = -Y' := posW_eq_or Y'
  have heu : e.rot.dot e.rot = 1 := pm_rot i4 hpm
  set g : DQuat × DQuat → DQuat := fun p => if ((p.2 * e).rot.w < 0 ∧ p.1.rot.w > 0) ∨ ((p.2 * e).rot.w > 0 ∧ p.1.rot.w < 0)
    then -(p.2 * e) else p.2 * e with hg
  have hgpm : ∀ p : DQuat × DQuat, g p = p.2 * Y' ∨ g p = -(p.2 * Y') := by
    intro p
    refine pm_trans (b := p.2 * e) ?_ (pm_mul (Or.inl rfl) hpm)
    simp only [hg]
    split
    · exact Or.inr rfl
    · exact Or.inl rfl
  have hwY : ∀ w : DQuat, Spec.IsUnit w → (w * Y').rot.dot (w * Y').rot = 1 := by
    intro w hw
    rw [DQuat.mul_rot, Quat.dot_mul_mul, DQuat.IsUnit.rot hw, i4, one_mul]
  have hm : (bs.zip ws).mapM (fun p => alignedHandPose e p.1 p.2) = .ok ((bs.zip ws).map g) := by
    apply Py.mapM_ok
    intro p hp
    unfold alignedHandPose
    have : (p.2 * e).rot.dot (p.2 * e).rot = 1 := by
      rw [DQuat.mul_rot, Quat.dot_mul_mul, DQuat.IsUnit.rot (hw _ (List.of_mem_zip hp).2), heu, one_mul]
    rw [DQuat.normalize_unit this, Py.ok_bind]
    rfl
  have hzl : ((bs.zip ws).map g).length = bs.length := by simp [hl]
  have hpos : pyPos ((bs.zip ws).map g).length 0 = some 0 := pyPos_natCast (k := 0) (by rw [hzl]; omega)
  set g0 := ((bs.zip ws).map g)[0]'(pyPos_some hpos).1 with hg0
  have hg0e : g0 = g (bs[0]'(by omega), w0) := by
    rw [hg0, List.getElem_map, List.getElem_zip, hw0]
  have hg0pm : g0 = w0 * Y' ∨ g0 = -(w0 * Y') := by rw [hg0e]; exact hgpm _
  have hg0u : g0.rot.dot g0.rot = 1 := pm_rot (hwY w0 hw0u) hg0pm
  obtain ⟨G, j1, j2, j3, j4⟩ := inverse_value hg0u
  have hreb0 : rebase G true g0 = DQuat.identity := by
    rw [rebase_true, j3]
    exact posW_of_nonneg (by simp)
  have hGpm : G = Y * w0.conj ∨ G = -(Y * w0.conj) := by
    have h1 : (Y * w0.conj) * (w0 * Y') = 1 := by
      rw [mul_assoc, ← mul_assoc w0.conj, DQuat.conj_mul_unit hw0u, one_mul, i2]
    have h2 : ∀ Z : DQuat, Z * g0 = 1 → G = Z := by
      intro Z hZ
      calc G = Z * g0 * G := by rw [hZ, one_mul]
        _ = Z * (g0 * G) := mul_assoc _ _ _
        _ = Z := by rw [j2, mul_one]
    rcases hg0pm with h | h
    · left; apply h2; rw [h]; exact h1
    · right; apply h2; rw [h, neg_mul_neg]; exact h1
  have hal : alignPathsAtIndex ((bs.zip ws).map g) = .ok (((bs.zip ws).map g).map (rebase G true)) := by
    have := align_eq hpos true
    rw [← hg0, j1, Py.ok_bind, hreb0, pyAssert_pos allclose_identity_self, List.rotate_zero] at this
    exact this
  have hru : ∀ a ∈ ((bs.zip ws).map g).map (rebase G true), a.rot.dot a.rot = 1 := by
    intro a ha
    obtain ⟨b, hb', rfl⟩ := List.mem_map.mp ha
    obtain ⟨p, hp, rfl⟩ := List.mem_map.mp hb'
    refine pm_rot ?_ (rebase_eq_or G (g p) true)
    rw [DQuat.mul_rot, Quat.dot_mul_mul, j4, pm_rot (hwY p.2 (hw _ (List.of_mem_zip hp).2)) (hgpm p), one_mul]
  refine ⟨Y', ((bs.zip ws).map g).map (rebase G true), i1, ?_, by rw [List.length_map, hzl], ?_, hru, ?_⟩
  · unfold getAlignedPoses
    have hen : Y'.enforcePositiveQRotW = .ok e := by
      have hn : Y'.rot.norm > 1e-8 := by rw [Quat.norm_eq_one.mpr i4]; norm_num
      unfold DQuat.enforcePositiveQRotW
      rw [DQuat.norm_ok hn, Py.ok_bind, pyAssert_pos hn, Py.ok_bind]
      rfl
    rw [pyAssert_pos hl, Py.ok_bind, i1, Py.ok_bind, DQuat.normalize_unit i4, Py.ok_bind, hen, Py.ok_bind, hm, Py.ok_bind, hal,
      Py.ok_bind, poses_of hru, Py.ok_bind, poses_of hb, Py.ok_bind]
    rfl
  · rw [List.getElem?_map, List.getElem?_eq_getElem (pyPos_some hpos).1, Option.map_some, ← hg0, hreb0]
  · intro k d w hd hw'
    rw [List.getElem?_map, List.getElem?_map] at hd
    cases hz : (bs.zip ws)[k]? with
    | none => rw [hz] at hd; cases hd
    | some p =>
      rw [hz] at hd
      simp only [Option.map_some, Option.some.injEq] at hd
      have hp2 : p.2 = w := by
        have := (List.getElem?_zip_eq_some.mp hz).2
        rw [hw'] at this
        exact (Option.some.inj this).symm
      rw [← hd]
      refine pm_trans (rebase_eq_or G (g p) true) (pm_trans (pm_mul hGpm (hgpm p)) ?_)
      left
      rw [hp2, mul_assoc, mul_assoc, mul_assoc]

theorem tryCalibration_rot {svd : Svd} {tol : ℝ} {b w : List DQuat} {c : Calibration} (h : tryCalibration svd tol b w = some c) :
    c.dq_H_E.rot.dot c.dq_H_E.rot = 1 := by
  obtain ⟨c0, -, h2, -⟩ := tryCalibration_some h
  by_cases h0 : c0.dq_H_E.rot.dot c0.dq_H_E.rot = 0
  · rw [DQuat.normalize_error h0] at h2; cases h2
  · rw [DQuat.normalize_ok h0] at h2
    have hp := Quat.norm_pos h0
    rw [← Except.ok.inj h2]
    simp only [DQuat.smul_rot, Quat.smul_dot, Quat.dot_smul]
    rw [← Quat.norm_sq]
    field_simp

/-- The evaluation of a calibration whose rotational part has length one: it returns, and which flags it sets. -/
theorem evaluation_flags {bs ws : List DQuat} (hb : ∀ a ∈ bs, a.rot.dot a.rot = 1) (hw : ∀ a ∈ ws, Spec.IsUnit a)
    (hl : ws.length = bs.length) (hb0 : bs[0]? = some DQuat.identity) (hw0 : ws[0]? = some DQuat.identity)
    {Y : DQuat} (hY : Y.rot.dot Y.rot = 1) (ot pt : ℝ) :
    ∃ Y' pB pW rp ro fl, Y.inverse = .ok Y' ∧ getAlignedPoses bs ws Y = .ok (pB, pW) ∧
      evaluateAlignment ot pt pB pW = .ok (rp, ro, fl) ∧ fl.length = bs.length ∧ (0 < ot → 0 < pt → fl[0]? = some true) ∧
      ∀ (k : ℕ) b w, bs[k]? = some b → ws[k]? = some w → ∃ d e, (d = Y * w * Y' ∨ d = -(Y * w * Y')) ∧ d.rot.dot d.rot = 1 ∧
        computePoseError (unitPose b) (unitPose d) = .ok e ∧ (fl[k]? = some true ↔ e.1 < pt ∧ e.2 < ot) := by
  obtain ⟨Y', L, i1, i2, i3, i4, i5, i6⟩ := aligned_value hb hw hl hw0 hY
  have hpos : 0 < bs.length := (List.getElem?_eq_some_iff.mp hb0).1
  obtain ⟨rp, ro, fl, es, e1, e2, e3, e4, e5, -⟩ := C35_evaluation ot pt (bs.map unitPose) (L.map unitPose) (by simp [i3])
    (by intro h; rw [List.map_eq_nil_iff.mp h] at hpos; simp at hpos)
    (fun p hp => by
      obtain ⟨a, ha, rfl⟩ := List.mem_map.mp hp
      rw [unitPose_norm (hb a ha)]; norm_num)
    (fun p hp => by
      obtain ⟨a, ha, rfl⟩ := List.mem_map.mp hp
      rw [unitPose_norm (i5 a ha)]; norm_num)
  have key : ∀ (k : ℕ) b d, bs[k]? = some b → L[k]? = some d → ∃ e, computePoseError (unitPose b) (unitPose d) = .ok e ∧
      (fl[k]? = some true ↔ e.1 < pt ∧ e.2 < ot) := by
    intro k b d hb hd
    obtain ⟨e, x1, x2⟩ := e4 k (unitPose b) (unitPose d) (by rw [List.getElem?_map, hb]; rfl) (by rw [List.getElem?_map, hd]; rfl)
    exact ⟨e, x2, e5 k e x1⟩
  refine ⟨Y', _, _, rp, ro, fl, i1, i2, e1, by rw [e3, List.length_map], ?_, ?_⟩
  · intro hot hpt
    obtain ⟨e, x1, x2⟩ := key 0 _ _ hb0 i4
    rw [C34_self] at x1
    rw [x2, ← Except.ok.inj x1]
    exact ⟨hpt, hot⟩
  · intro k b w hb' hw'
    have hk : k < L.length := by rw [i3]; exact (List.getElem?_eq_some_iff.mp hb').1
    obtain ⟨e, x1, x2⟩ := key k b _ hb' (List.getElem?_eq_getElem hk)
    refine ⟨L[k], e, ?_, i5 _ (List.getElem_mem hk), x1, x2⟩
    have := i6 k _ w (List.getElem?_eq_getElem hk) hw'
    have hc : (DQuat.identity.conj * w) = w := by
      have : DQuat.identity.conj = 1 := by
        apply DQuat.ext' <;> ext <;> simp [DQuat.identity, DQuat.conj, Quat.conj]
      rw [this, one_mul]
    rwa [hc] at this

/-- The evaluation returns as soon as there are poses. -/
theorem evaluation_returns {bs ws : List DQuat} (hb : ∀ a ∈ bs, a.rot.dot a.rot = 1) (hw : ∀ a ∈ ws, Spec.IsUnit a)
    (hl : ws.length = bs.length) (hb0 : bs[0]? = some DQuat.identity) (hw0 : ws[0]? = some DQuat.identity)
    {Y : DQuat} (hY : Y.rot.dot Y.rot = 1) (ot pt : ℝ) :
    ∃ pB pW rp ro fl, getAlignedPoses bs ws Y = .ok (pB, pW) ∧ evaluateAlignment ot pt pB pW = .ok (rp, ro, fl) := by
  obtain ⟨Y', pB, pW, rp, ro, fl, -, h1, h2, -⟩ := evaluation_flags hb hw hl hb0 hw0 hY ot pt
  exact ⟨pB, pW, rp, ro, fl, h1, h2⟩

theorem unitPose_pos {d : DQuat} (h : d.rot.dot d.rot = 1) : (unitPose d).pos = Spec.motion d ⟨0, 0, 0⟩ := by
  rw [DQuat.motion_eq, h]
  unfold unitPose
  ext <;> simp <;> ring

theorem cosHalf_pm {p p' q q' : Quat} (hp : p' = p ∨ p' = -p) (hq : q' = q ∨ q' = -q) : Spec.cosHalf p' q' = Spec.cosHalf p q := by
  unfold Spec.cosHalf
  have e : ∀ a b : Quat, a.x * b.x + a.y * b.y + a.z * b.z + a.w * b.w = a.dot b := fun _ _ => rfl
  rw [e, e, ← norm_eq', ← norm_eq', ← norm_eq', ← norm_eq']
  rcases hp with rfl | rfl <;> rcases hq with rfl | rfl <;> simp [Quat.norm_neg]

/-- The orientation error of two poses with known motions. -/
theorem unitPose_error {b d h e : DQuat} (hb : b.rot.dot b.rot = 1) (hd : d.rot.dot d.rot = 1) (hbh : b = h ∨ b = -h) (hde : d = e ∨ d = -e) :
    ∃ a, computePoseError (unitPose b) (unitPose d) = .ok (Spec.dist (Spec.motion h ⟨0, 0, 0⟩) (Spec.motion e ⟨0, 0, 0⟩), a) ∧
      (a = Spec.rotationAngle h.rot e.rot ∨ 1 - 6e-11 ≤ Spec.cosHalf h.rot e.rot) := by
  obtain ⟨a, a1, -, -, a4⟩ := C34_value (unitPose b) (unitPose d) (by rw [unitPose_norm hb]; norm_num) (by rw [unitPose_norm hd]; norm_num)
  have m : ∀ {x y : DQuat}, (x = y ∨ x = -y) → Spec.motion x ⟨0, 0, 0⟩ = Spec.motion y ⟨0, 0, 0⟩ := by
    rintro x y (rfl | rfl)
    · rfl
    · exact motion_neg _ _
  have r : ∀ {x y : DQuat}, (x = y ∨ x = -y) → ((unitPose x).q = y.rot ∨ (unitPose x).q = -y.rot) := by
    rintro x y (rfl | rfl)
    · exact unitPose_q _
    · rcases unitPose_q (-y) with h | h <;> rw [h] <;> simp
  rw [unitPose_pos hb, unitPose_pos hd, m hbh, m hde] at a1
  have hc := cosHalf_pm (r hbh) (r hde)
  refine ⟨a, a1, ?_⟩
  rcases a4 with h | ⟨-, h⟩
  · left
    rw [h, Spec.rotationAngle, Spec.rotationAngle, hc]
  · right
    rwa [hc] at h

end HandEye
