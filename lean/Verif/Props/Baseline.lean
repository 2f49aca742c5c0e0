import Verif.Model.Baseline
import Verif.Props.Ransac4
import Verif.Spec.Baseline

/-! # Property C43: the baseline calibration -/

namespace HandEye

/-- C43 fails with the exhaustive search: on no input whatsoever does it return a result. -/
theorem C43_exhaustive_refuted (svd : Svd) (cfg : HandEyeConfig) (bs ws : List DQuat)
    (he : cfg.enable_exhaustive_search = true) (r : BaselineResult) : baseline svd cfg bs ws ≠ .ok r := by
  intro h
  unfold baseline at h
  obtain ⟨_, _, h⟩ := Py.bind_eq_ok.mp h
  obtain ⟨_, _, h⟩ := Py.bind_eq_ok.mp h
  obtain ⟨_, _, h⟩ := Py.bind_eq_ok.mp h
  obtain ⟨_, _, h⟩ := Py.bind_eq_ok.mp h
  obtain ⟨_, h1, _⟩ := Py.bind_eq_ok.mp h
  unfold baselineSelect at h1
  rw [if_pos he] at h1
  obtain ⟨_, _, h1⟩ := Py.bind_eq_ok.mp h1
  cases h1

/-- Rotation part of length one; nothing is said about the dual part. -/
def RotUnit (a : DQuat) : Prop := a.rot.dot a.rot = 1

theorem RotUnit.norm {a : DQuat} (h : RotUnit a) : a.rot.norm > 1e-8 := by
  rw [Quat.norm_eq_one.mpr h]; norm_num

theorem rotUnit_inverse {a : DQuat} (h : RotUnit a) : ∃ i, a.inverse = .ok i ∧ RotUnit i := by
  refine ⟨_, DQuat.inverse_ok h.norm, ?_⟩
  unfold RotUnit at *
  change a.rot.inv'.dot a.rot.inv' = 1
  rw [Quat.inv', h]
  simpa using h

theorem rotUnit_mul {a b : DQuat} (ha : RotUnit a) (hb : RotUnit b) : RotUnit (a * b) := by
  unfold RotUnit at *
  rw [DQuat.mul_rot, Quat.dot_mul_mul, ha, hb, one_mul]

theorem rotUnit_neg {a : DQuat} (ha : RotUnit a) : RotUnit (-a) := by
  unfold RotUnit at *
  rw [DQuat.neg_rot, Quat.dot_neg_neg, ha]

theorem rotUnit_posW {a : DQuat} (ha : RotUnit a) : RotUnit (posW a) := by
  rcases posW_eq_or a with h | h <;> rw [h]
  · exact ha
  · exact rotUnit_neg ha

theorem rotUnit_rebase {i a : DQuat} (hi : RotUnit i) (ha : RotUnit a) (enf : Bool) : RotUnit (rebase i enf a) := by
  rcases rebase_eq_or i a enf with h | h <;> rw [h]
  · exact rotUnit_mul hi ha
  · exact rotUnit_neg (rotUnit_mul hi ha)

/-- Aligning works if the rotation parts have length one. -/
theorem align_rotUnit {v : List DQuat} {i : ℤ} {k : ℕ} (h : pyPos v.length i = some k)
    (hu : ∀ a ∈ v, RotUnit a) (enf : Bool) :
    ∃ r, alignPathsAtIndex v i enf = .ok r ∧ r.length = v.length ∧ ∀ a ∈ r, RotUnit a := by
  have hk := (pyPos_some h).1
  obtain ⟨j, hj, hju⟩ := rotUnit_inverse (hu _ (List.getElem_mem hk))
  refine ⟨_, align_eq_ok_iff.mpr ⟨k, j, h, hj, rfl⟩, by simp, ?_⟩
  intro a ha
  obtain ⟨b, hb, rfl⟩ := List.mem_map.mp ha
  exact rotUnit_rebase hju (hu b (List.mem_rotate.mp hb)) enf

theorem poses_ok {v : List DQuat} (hv : ∀ a ∈ v, RotUnit a) :
    ∃ ps, v.mapM (fun d => (Prod.fst <$> d.toPose : Py Pose)) = .ok ps ∧ ps.length = v.length ∧
      ∀ p ∈ ps, p.q.norm > 1e-8 := by
  have : v.mapM (fun d => (Prod.fst <$> d.toPose : Py Pose)) = .ok (v.map fun a =>
      ⟨(((2 : ℝ) • a.dual) * a.rot.conj).vec, if a.rot.w < 0 then -a.rot else a.rot⟩) := by
    apply Py.mapM_ok
    intro a ha
    rw [DQuat.toPose_unit (hv a ha)]
    rfl
  refine ⟨_, this, by simp, ?_⟩
  intro p hp
  obtain ⟨a, ha, rfl⟩ := List.mem_map.mp hp
  dsimp only
  split
  · rw [Quat.norm_neg]; exact (hv a ha).norm
  · exact (hv a ha).norm

/-- The poses for the evaluation can be computed for every calibration with a unit rotation part. -/
theorem getAlignedPoses_ok {bs ws : List DQuat} {X : DQuat} (hb : ∀ a ∈ bs, RotUnit a)
    (hw : ∀ a ∈ ws, RotUnit a) (hl : ws.length = bs.length) (hn : bs ≠ []) (hX : RotUnit X) :
    ∃ pB pW, getAlignedPoses bs ws X = .ok (pB, pW) ∧ pB.length = bs.length ∧ pW.length = bs.length ∧
      (∀ p ∈ pB, p.q.norm > 1e-8) ∧ ∀ p ∈ pW, p.q.norm > 1e-8 := by
  obtain ⟨e, he, heu⟩ := rotUnit_inverse hX
  have hpos : e.enforcePositiveQRotW = .ok (posW e) := by
    unfold DQuat.enforcePositiveQRotW
    rw [DQuat.norm_ok heu.norm, Py.ok_bind, pyAssert_pos heu.norm, Py.ok_bind]
    rfl
  have hpu := rotUnit_posW heu
  obtain ⟨us, hus, hul, huu⟩ : ∃ us, (bs.zip ws).mapM (fun p => alignedHandPose (posW e) p.1 p.2) = .ok us ∧
      us.length = bs.length ∧ ∀ a ∈ us, RotUnit a := by
    refine ⟨(bs.zip ws).map fun p => if ((p.2 * posW e).rot.w < 0 ∧ p.1.rot.w > 0) ∨
      ((p.2 * posW e).rot.w > 0 ∧ p.1.rot.w < 0) then -(p.2 * posW e) else p.2 * posW e, ?_, by simp [hl], ?_⟩
    · apply Py.mapM_ok
      intro p hp
      unfold alignedHandPose
      rw [DQuat.normalize_unit (rotUnit_mul (hw _ (List.of_mem_zip hp).2) hpu), Py.ok_bind]
      rfl
    · intro a ha
      obtain ⟨p, hp, rfl⟩ := List.mem_map.mp ha
      have := rotUnit_mul (hw _ (List.of_mem_zip hp).2) hpu
      split
      · exact rotUnit_neg this
      · exact this
  have hp0 : pyPos us.length 0 = some 0 := pyPos_natCast (k := 0) (by
    rw [hul]; exact List.length_pos_of_ne_nil hn)
  obtain ⟨r, hr, hrl, hru⟩ := align_rotUnit hp0 huu true
  obtain ⟨pW, w1, w2, w3⟩ := poses_ok hru
  obtain ⟨pB, b1, b2, b3⟩ := poses_ok hb
  refine ⟨pB, pW, ?_, b2, by omega, b3, w3⟩
  unfold getAlignedPoses
  rw [pyAssert_pos hl, Py.ok_bind, he, Py.ok_bind, DQuat.normalize_unit heu, Py.ok_bind, hpos, Py.ok_bind, hus,
    Py.ok_bind, hr, Py.ok_bind, w1, Py.ok_bind, b1]
  rfl

theorem tryCalibration_rotUnit {svd : Svd} {tol : ℝ} {bs ws : List DQuat} {c : Calibration}
    (h : tryCalibration svd tol bs ws = some c) : RotUnit c.dq_H_E := by
  obtain ⟨c0, h1, h2, -⟩ := tryCalibration_some h
  have hn := Quat.norm_eq_one.mp (C29_returned_calibration svd _ _ _ _ c0 h1).1
  rw [DQuat.normalize_unit hn] at h2
  unfold RotUnit
  rw [← Except.ok.inj h2]
  exact hn

theorem eq_posW {r a : DQuat} (h : Spec.SameUpToSign r a) (hp : r.rot.w > 0 ∨ r = a ∧ r.rot.w = 0) :
    r = posW a := by
  rcases hp with hp | ⟨rfl, h0⟩
  · rcases sameUpToSign_iff.mp h with rfl | rfl
    · rw [posW_of_nonneg hp.le]
    · rw [DQuat.neg_rot, Quat.neg_w] at hp
      rw [posW_of_neg (by linarith)]
  · rw [posW_of_nonneg h0.ge]

theorem agree_iff {b₀ w₀ b w : DQuat} : Spec.Agree b₀ w₀ b w ↔
    ScalarsClose 1e-2 (rebase w₀.conj true w) (rebase b₀.conj true b) := by
  constructor
  · rintro ⟨r, t, h1, h2, h3, h4, h5, h6⟩
    rw [eq_posW h1 h3] at h5 h6
    rw [eq_posW h2 h4] at h5 h6
    exact ⟨h5, h6⟩
  · rintro ⟨h1, h2⟩
    have key : ∀ a : DQuat, Spec.SameUpToSign (posW a) a ∧
        ((posW a).rot.w > 0 ∨ posW a = a ∧ (posW a).rot.w = 0) := by
      intro a
      refine ⟨sameUpToSign_iff.mpr (posW_eq_or a), ?_⟩
      rcases (posW_nonneg a).lt_or_eq with h | h
      · exact Or.inl h
      · right
        refine ⟨?_, h.symm⟩
        rw [posW_w] at h
        exact posW_of_nonneg (abs_eq_zero.mp h.symm).ge
    exact ⟨_, _, (key _).1, (key _).1, (key _).2, (key _).2, h1, h2⟩

theorem compress_length {α β : Type} (l : List α) (z : List β) (f : β → Bool) (h : l.length = z.length) :
    (compress l (z.map f)).length = (z.filter f).length := by
  induction l generalizing z with
  | nil =>
    cases z with
    | nil => rfl
    | cons => simp at h
  | cons a l ih =>
    cases z with
    | nil => simp at h
    | cons b z =>
      rw [List.map_cons, compress, List.filter_cons]
      have := ih z (by simpa using h)
      split <;> simp [this]

theorem compress_mem {α : Type} {l : List α} {fl : List Bool} {a : α} (h : a ∈ compress l fl) : a ∈ l := by
  induction l generalizing fl with
  | nil => cases fl <;> simp [compress] at h
  | cons b l ih =>
    cases fl with
    | nil => simp [compress] at h
    | cons f fl =>
      rw [compress] at h
      split at h
      · rcases List.mem_cons.mp h with rfl | h
        · exact List.mem_cons_self
        · exact List.mem_cons_of_mem _ (ih h)
      · exact List.mem_cons_of_mem _ (ih h)

theorem agreeing_rotate {bf wf : List DQuat} (hl : wf.length = bf.length) {j : ℕ} (hj : j < bf.length)
    (hj' : j < wf.length) (f : DQuat × DQuat → Bool) (hf : ∀ p : DQuat × DQuat, f (rebase wf[j].conj true p.2, rebase bf[j].conj true p.1) = true ↔
      Spec.Agree bf[j] wf[j] p.1 p.2) :
    ((((wf.rotate j).map (rebase wf[j].conj true)).zip ((bf.rotate j).map (rebase bf[j].conj true))).filter f).length
      = Spec.agreeing bf wf j := by
  classical
  unfold Spec.agreeing
  rw [List.zip_map, List.filter_map, List.length_map]
  have hz : (wf.rotate j).zip (bf.rotate j) = ((bf.zip wf).rotate j).map Prod.swap := by
    rw [List.zip, ← List.zipWith_rotate_distrib _ _ _ _ hl, ← List.zip, List.map_rotate, List.zip_swap]
  rw [hz, List.filter_map, List.length_map]
  rw [← List.countP_eq_length_filter, ← List.countP_eq_length_filter]
  rw [(List.rotate_perm _ _).countP_eq]
  apply List.countP_congr
  intro p hp
  rw [List.getD_eq_getElem?_getD, List.getElem?_eq_getElem hj, List.getD_eq_getElem?_getD,
    List.getElem?_eq_getElem (show j < wf.length by omega)]
  simp only [Function.comp, Option.getD_some, decide_eq_true_eq]
  exact hf p

/-- The search step on unit trajectories. -/
theorem baselineInliers_unit {bf wf : List DQuat} (hb : ∀ a ∈ bf, Spec.IsUnit a) (hw : ∀ a ∈ wf, Spec.IsUnit a)
    (hl : wf.length = bf.length) {j : ℕ} (hj : j < bf.length) :
    ∃ iB iW, baselineInliers bf wf j = .ok (iB, iW) ∧ iB.length = Spec.agreeing bf wf j ∧
      iW.length = Spec.agreeing bf wf j ∧ (∀ a ∈ iB, RotUnit a) ∧ ∀ a ∈ iW, RotUnit a := by
  classical
  have hj' : j < wf.length := by omega
  have e1 := align_unit (pyPos_natCast hj) hb true
  have e2 := align_unit (pyPos_natCast hj') hw true
  have hfl : (((wf.rotate j).map (rebase wf[j].conj true)).zip ((bf.rotate j).map (rebase bf[j].conj true))).mapM
      (fun p => scalarPartsMatch 1e-2 p.1 p.2) = .ok ((((wf.rotate j).map (rebase wf[j].conj true)).zip
        ((bf.rotate j).map (rebase bf[j].conj true))).map fun p => decide (ScalarsClose 1e-2 p.1 p.2)) :=
    Py.mapM_ok fun p _ => scalarPartsMatch_eq (by norm_num) _ _
  have hag := agreeing_rotate hl hj hj' (fun p => decide (ScalarsClose 1e-2 p.1 p.2)) (by
    intro p
    rw [decide_eq_true_iff]
    exact agree_iff.symm)
  refine ⟨compress ((bf.rotate j).map (rebase bf[j].conj true))
      ((((wf.rotate j).map (rebase wf[j].conj true)).zip
        ((bf.rotate j).map (rebase bf[j].conj true))).map fun p => decide (ScalarsClose 1e-2 p.1 p.2)),
    compress ((wf.rotate j).map (rebase wf[j].conj true))
      ((((wf.rotate j).map (rebase wf[j].conj true)).zip
        ((bf.rotate j).map (rebase bf[j].conj true))).map fun p => decide (ScalarsClose 1e-2 p.1 p.2)),
    ?_, ?_, ?_, ?_, ?_⟩
  rotate_left
  · rw [compress_length, hag]
    simp [hl]
  · rw [compress_length, hag]
    simp [hl]
  · intro a ha
    obtain ⟨d, hd, rfl⟩ := List.mem_map.mp (compress_mem ha)
    exact DQuat.IsUnit.rot (rebase_unit (DQuat.isUnit_conj (hb _ (List.getElem_mem hj)))
      (hb d (List.mem_rotate.mp hd)) true)
  · intro a ha
    obtain ⟨d, hd, rfl⟩ := List.mem_map.mp (compress_mem ha)
    exact DQuat.IsUnit.rot (rebase_unit (DQuat.isUnit_conj (hw _ (List.getElem_mem hj')))
      (hw d (List.mem_rotate.mp hd)) true)
  · unfold baselineInliers
    rw [e2, Py.ok_bind, e1, Py.ok_bind, hfl, Py.ok_bind]
    rfl

theorem enforceSameSign_units {bs ws ws' : List DQuat} (hw : ∀ a ∈ ws, Spec.IsUnit a)
    (h : enforceSameSign bs ws = .ok ws') : ws'.length = ws.length ∧ ∀ a ∈ ws', Spec.IsUnit a := by
  induction bs generalizing ws ws' with
  | nil => rw [enforceSameSign] at h; cases h; exact ⟨rfl, hw⟩
  | cons b bs ih =>
    cases ws with
    | nil => rw [enforceSameSign] at h; cases h
    | cons w ws =>
      rw [enforceSameSign] at h
      obtain ⟨r, h1, h2⟩ := Py.bind_eq_ok.mp h
      cases h2
      obtain ⟨e1, e2⟩ := ih (fun a ha => hw a (List.mem_cons_of_mem _ ha)) h1
      refine ⟨by simp [e1], ?_⟩
      intro a ha
      rcases List.mem_cons.mp ha with rfl | ha
      · split
        · exact DQuat.isUnit_neg (hw _ List.mem_cons_self)
        · exact hw _ List.mem_cons_self
      · exact e2 a ha

/-- The trajectories that are searched, on unit input. -/
theorem baselineFilter_units {cfg : HandEyeConfig} {bs ws bf wf : List DQuat} (hl : ws.length = bs.length)
    (hb : ∀ a ∈ bs, Spec.IsUnit a) (hw : ∀ a ∈ ws, Spec.IsUnit a)
    (h : baselineFilter cfg bs ws = .ok (bf, wf)) :
    wf.length = bf.length ∧ bf.Sublist bs ∧ (∀ a ∈ bf, Spec.IsUnit a) ∧ ∀ a ∈ wf, Spec.IsUnit a := by
  unfold baselineFilter at h
  split at h
  · rcases C32_unit_trajectories bs ws _ hl.symm hb hw with ⟨p, q, h1, h2, -, h3, h4, -⟩ | h1
    · rw [h1] at h
      cases h
      exact ⟨h2.symm, h3, fun a ha => hb a (h3.subset ha), fun a ha => hw a (h4.subset ha)⟩
    · rw [h1] at h; cases h
  · cases h
    exact ⟨hl, List.Sublist.refl _, hb, hw⟩

/-- The search without `enable_exhaustive_search`, started at index `k`. -/
theorem baselineLoop_first {cfg : HandEyeConfig} {bf wf : List DQuat} (he : cfg.enable_exhaustive_search = false)
    (hb : ∀ a ∈ bf, Spec.IsUnit a) (hw : ∀ a ∈ wf, Spec.IsUnit a) (hl : wf.length = bf.length)
    (m k : ℕ) (hm : k + m = bf.length) (st : BaselineSearch) :
    (∀ j, k ≤ j → j < bf.length → (∀ i, k ≤ i → i < j → Spec.agreeing bf wf i ≤ cfg.min_num_inliers) →
      Spec.agreeing bf wf j > cfg.min_num_inliers → ∃ st' iB iW,
        baselineLoop cfg bf wf (List.range' k m) st = .ok st' ∧ st'.best_idx = j ∧
        st'.best_num_inliers = Spec.agreeing bf wf j ∧ st'.cur_inlier = some (iB, iW) ∧
        iB.length = Spec.agreeing bf wf j ∧ iW.length = Spec.agreeing bf wf j ∧
        (∀ a ∈ iB, RotUnit a) ∧ ∀ a ∈ iW, RotUnit a) ∧
    ((∀ j, k ≤ j → j < bf.length → Spec.agreeing bf wf j ≤ cfg.min_num_inliers) → 0 < m →
      baselineLoop cfg bf wf (List.range' k m) st = .error .assertion) := by
  induction m generalizing k st with
  | zero => exact ⟨fun j h1 h2 => by omega, fun _ h => by omega⟩
  | succ m ih =>
    obtain ⟨iB, iW, h1, h2, h3, h4, h5⟩ := baselineInliers_unit hb hw hl (show k < bf.length by omega)
    have hstep : baselineLoop cfg bf wf (List.range' k (m + 1)) st =
        if iW.length > cfg.min_num_inliers then
          .ok ⟨k, iW.length, st.best_dq_W_E_vec_inlier, st.best_dq_B_H_vec_inlier, some (iB, iW)⟩
        else (pyAssert (k + 1 < wf.length) >>= fun _ =>
          baselineLoop cfg bf wf (List.range' (k + 1) m) { st with cur_inlier := some (iB, iW) }) := by
      rw [List.range'_succ, baselineLoop, h1, Py.ok_bind]
      dsimp only
      rw [pyAssert_pos (by rw [h2, h3]), Py.ok_bind, if_neg (by simp [he])]
      rfl
    rw [hstep]
    obtain ⟨ih1, ih2⟩ := ih (k + 1) (by omega) { st with cur_inlier := some (iB, iW) }
    constructor
    · intro j hj1 hj2 hj3 hj4
      rcases hj1.eq_or_lt with rfl | hlt
      · rw [if_pos (by rw [h3]; exact hj4)]
        exact ⟨_, iB, iW, rfl, rfl, by simp [h3], rfl, h2, h3, h4, h5⟩
      · rw [if_neg (by rw [h3]; exact not_lt.mpr (hj3 k le_rfl hlt)), pyAssert_pos (by omega), Py.ok_bind]
        exact ih1 j hlt hj2 (fun i hi hij => hj3 i (by omega) hij) hj4
    · intro hall _
      rw [if_neg (by rw [h3]; exact not_lt.mpr (hall k le_rfl (by omega)))]
      by_cases hk : k + 1 < wf.length
      · rw [pyAssert_pos hk, Py.ok_bind]
        exact ih2 (fun j hj hj2 => hall j (by omega) hj2) (by omega)
      · rw [pyAssert, if_neg hk]
        rfl

/-- Calibration and evaluation never raise once the search has ended. -/
theorem baselineSolve_ok (svd : Svd) (cfg : HandEyeConfig) {bs ws iB iW : List DQuat} {n j : ℕ}
    {st : BaselineSearch} (hl : ws.length = bs.length) (hj : j < bs.length) (hst : st.best_idx = j)
    (hb : ∀ a ∈ bs, RotUnit a) (hw : ∀ a ∈ ws, RotUnit a) (hi : iW.length = iB.length) (hne : iB ≠ [])
    (hiB : ∀ a ∈ iB, RotUnit a) (hiW : ∀ a ∈ iW, RotUnit a) :
    ∃ r, baselineSolve svd cfg bs ws n st iB iW = .ok r ∧ r.num_poses_after_filtering = n ∧
      ∀ c, r.found = some c → c.sample_indices = [j] ∧ c.num_inliers = st.best_num_inliers.toNat ∧
        ∃ s, tryCalibration svd cfg.hand_eye_calibration_scalar_part_equality_tolerance iB iW = some s ∧
          c.singular_values = s.singular_values ∧ c.bad_singular_values = s.bad_singular_values := by
  unfold baselineSolve
  rcases ht : tryCalibration svd cfg.hand_eye_calibration_scalar_part_equality_tolerance iB iW with _ | c
  · exact ⟨_, rfl, rfl, by simp⟩
  · have hcu := tryCalibration_rotUnit ht
    have hposes : ∃ pB pW, baselinePoses cfg bs ws iB iW st.best_idx c.dq_H_E = .ok (pB, pW) ∧
        pB.length = pW.length ∧ pB ≠ [] ∧ (∀ p ∈ pB, p.q.norm > 1e-8) ∧ ∀ p ∈ pW, p.q.norm > 1e-8 := by
      unfold baselinePoses
      split
      · obtain ⟨pB, pW, h1, h2, h3, h4, h5⟩ := getAlignedPoses_ok hiB hiW hi hne hcu
        refine ⟨pB, pW, h1, by omega, ?_, h4, h5⟩
        apply List.ne_nil_of_length_pos
        rw [h2]
        exact List.length_pos_of_ne_nil hne
      · obtain ⟨r1, a1, a2, a3⟩ := align_rotUnit (pyPos_natCast hj) hb true
        obtain ⟨r2, b1, b2, b3⟩ := align_rotUnit (pyPos_natCast (show j < ws.length by omega)) hw true
        obtain ⟨pB, pW, h1, h2, h3, h4, h5⟩ := getAlignedPoses_ok a3 b3 (by omega)
          (List.ne_nil_of_length_pos (by omega)) hcu
        refine ⟨pB, pW, ?_, by omega, List.ne_nil_of_length_pos (by omega), h4, h5⟩
        rw [hst, a1, Py.ok_bind, b1, Py.ok_bind]
        exact h1
    obtain ⟨pB, pW, h1, h2, h3, h4, h5⟩ := hposes
    obtain ⟨rp, ro, fl, -, h6, -⟩ := C35_evaluation cfg.ransac_orientation_error_threshold_deg
      cfg.ransac_position_error_threshold_m pB pW h2 h3 h4 h5
    have hpose := DQuat.toPose_unit hcu
    dsimp only
    rw [h1, Py.ok_bind, h6, Py.ok_bind, hpose, Py.ok_bind]
    refine ⟨_, rfl, rfl, ?_⟩
    intro c' hc'
    cases hc'
    exact ⟨by simp [hst], rfl, c, rfl, rfl, rfl⟩

/-- C43, without `enable_exhaustive_search`, on unit trajectories: what happens is decided by the first pose
pair `j` with which more than `min_num_inliers` of the (prefiltered) pairs agree.  If there is none, the
search ends in an `AssertionError`; if there is one, and `j` is smaller than the number of pairs agreeing
with it, a result for exactly these pairs is returned; otherwise an `IndexError` is raised, however good the
data are.  `_partial` because the property asks for a result whenever there is such a `j`. -/
theorem C43_outcome_partial (svd : Svd) (cfg : HandEyeConfig) (bs ws ws' bf wf : List DQuat)
    (he : cfg.enable_exhaustive_search = false) (hl : ws.length = bs.length)
    (hb : ∀ a ∈ bs, Spec.IsUnit a) (hw : ∀ a ∈ ws, Spec.IsUnit a)
    (hs : enforceSameSign bs ws = .ok ws') (hf : baselineFilter cfg bs ws' = .ok (bf, wf)) :
    (∀ j < bf.length, (∀ i < j, Spec.agreeing bf wf i ≤ cfg.min_num_inliers) →
      Spec.agreeing bf wf j > cfg.min_num_inliers →
      (j < Spec.agreeing bf wf j → ∃ r, baseline svd cfg bs ws = .ok r ∧
        r.num_poses_after_filtering = bf.length ∧
        ∀ c, r.found = some c → c.sample_indices = [j] ∧ c.num_inliers = Spec.agreeing bf wf j) ∧
      (Spec.agreeing bf wf j ≤ j → baseline svd cfg bs ws = .error .index)) ∧
    ((∀ j < bf.length, Spec.agreeing bf wf j ≤ cfg.min_num_inliers) → bf ≠ [] →
      baseline svd cfg bs ws = .error .assertion) ∧
    (bf = [] → baseline svd cfg bs ws = .error .name) := by
  obtain ⟨hl', hw'⟩ := enforceSameSign_units hw hs
  obtain ⟨hfl, hsub, hbf, hwf⟩ := baselineFilter_units (by omega) hb hw' hf
  obtain ⟨L1, L2⟩ := baselineLoop_first he hbf hwf hfl bf.length 0 (by omega)
    { best_num_inliers := (cfg.min_num_inliers : ℤ) - 1 }
  rw [← List.range_eq_range', ← hfl] at L1 L2
  have hbase : baseline svd cfg bs ws = (baselineLoop cfg bf wf (List.range wf.length)
      { best_num_inliers := (cfg.min_num_inliers : ℤ) - 1 } >>= fun st => baselineSelect cfg st >>= fun p =>
      alignPathsAtIndex p.1 st.best_idx >>= fun _ => alignPathsAtIndex p.2 st.best_idx >>= fun _ =>
      baselineSolve svd cfg bs ws' wf.length st p.1 p.2) := by
    unfold baseline
    rw [pyAssert_pos hl, Py.ok_bind, hs, Py.ok_bind, hf, Py.ok_bind]
  refine ⟨?_, ?_, ?_⟩
  · intro j hj h1 h2
    obtain ⟨st, iB, iW, e1, e2, e3, e4, e5, e6, e7, e8⟩ := L1 j (by omega) (by omega) (fun i _ hi => h1 i hi) h2
    have hsel : baselineSelect cfg st = .ok (iB, iW) := by
      unfold baselineSelect
      rw [if_neg (by simp [he]), e4]
    rw [hbase, e1, Py.ok_bind, hsel, Py.ok_bind]
    dsimp only
    constructor
    · intro hlt
      obtain ⟨_, a1, -⟩ := align_rotUnit (v := iB) (i := st.best_idx) (k := j)
        (by rw [e2]; exact pyPos_natCast (by omega)) e7 true
      obtain ⟨_, a2, -⟩ := align_rotUnit (v := iW) (i := st.best_idx) (k := j)
        (by rw [e2]; exact pyPos_natCast (by omega)) e8 true
      rw [a1, Py.ok_bind, a2, Py.ok_bind]
      obtain ⟨r, r1, r2, r3⟩ := baselineSolve_ok svd cfg (bs := bs) (ws := ws') (n := wf.length) (st := st)
        (by omega) (lt_of_lt_of_le hj hsub.length_le) e2 (fun a ha => DQuat.IsUnit.rot (hb a ha))
        (fun a ha => DQuat.IsUnit.rot (hw' a ha)) (by omega) (List.ne_nil_of_length_pos (by omega)) e7 e8
      refine ⟨r, r1, by omega, fun c hc => ?_⟩
      obtain ⟨c1, c2, -⟩ := r3 c hc
      exact ⟨c1, by rw [c2, e3]; simp⟩
    · intro hle
      rw [align_index_error]
      · rfl
      · rw [e2, pyPos]
        simp
        omega
  · intro hall hne
    rw [hbase, L2 (fun j _ hj => hall j (by omega)) (by rw [hfl]; exact List.length_pos_of_ne_nil hne)]
    rfl
  · rintro rfl
    have : wf = [] := List.length_eq_zero_iff.mp (by simpa using hfl)
    subst this
    rw [hbase]
    simp [baselineLoop, baselineSelect, he]

end HandEye
