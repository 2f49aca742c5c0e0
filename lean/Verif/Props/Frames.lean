import Verif.Props.Script
import Verif.Spec.Frames

/-! # C95: the calibration and the choice of the world frames -/

namespace HandEye

theorem seen_iff {g : DQuat} {v v' : List DQuat} :
    Spec.SeenFrom g v v' ↔ List.Forall₂ (fun a a' => a' = g * a ∨ a' = -(g * a)) v v' := by
  have h := C12_agrees_with_dual_numbers
  have hn : ∀ z : DQuat, (-z).toDual = -z.toDual := by
    intro z
    have e : -z = (-1 : ℝ) • z := by ext <;> simp
    rw [e, (h z z (-1)).2.2.2.2.1]
    exact neg_one_smul ℝ z.toDual
  unfold Spec.SeenFrom
  have e : ∀ a a' : DQuat, (a'.toDual = g.toDual * a.toDual ∨ a'.toDual = -(g.toDual * a.toDual)) ↔
      (a' = g * a ∨ a' = -(g * a)) := by
    intro a a'
    rw [← (h g a 0).2.1, ← hn]
    exact or_congr ⟨fun e => (h a' (g * a) 0).1 e, congrArg _⟩ ⟨fun e => (h a' (-(g * a)) 0).1 e, congrArg _⟩
  simp only [e]

theorem noHalfTurns_iff {v : List DQuat} : Spec.NoHalfTurns v ↔ ∀ a ∈ v, ∀ b ∈ v, (a.conj * b).rot.w ≠ 0 := by
  have e : ∀ a b : DQuat, (star a.rot.toH * b.rot.toH).re = (a.conj * b).rot.w := by
    intro a b
    rw [DQuat.mul_rot, DQuat.conj_rot, ← Quat.toH_conj, ← Quat.toH_mul]
    rfl
  unfold Spec.NoHalfTurns
  simp only [e]

/-- Aligning removes the world frame and the signs. -/
theorem align_seen {g : DQuat} (hg : Spec.IsUnit g) {v v' : List DQuat} (hu : ∀ a ∈ v, Spec.IsUnit a)
    (h : List.Forall₂ (fun a a' => a' = g * a ∨ a' = -(g * a)) v v') (i : ℤ)
    (hne : ∀ (k : ℕ) (a : DQuat), pyPos v.length i = some k → v[k]? = some a → ∀ b ∈ v, (a.conj * b).rot.w ≠ 0) :
    alignPathsAtIndex v' i = alignPathsAtIndex v i := by
  have hl := h.length_eq
  cases hp : pyPos v.length i with
  | none => rw [align_index_error hp, align_index_error (by rw [← hl]; exact hp)]
  | some k =>
    have hk := (pyPos_some hp).1
    have hne' := hne k v[k] hp (List.getElem?_eq_getElem hk)
    have hr := align_unit hp hu true
    rw [← C22_gauge v g hg] at hr
    have hs : List.Forall₂ Spec.SameUpToSign v' (v.map (g * ·)) := by
      rw [List.forall₂_map_right_iff]
      exact h.flip.imp fun a b hab => hab
    obtain ⟨r', e1, -, e2⟩ := C22_signs _ v' hs i true _ hr
    rw [C22_gauge v g hg] at hr
    rw [e1, hr]
    congr 1
    have e3 := e2 rfl
    rw [List.forall₂_map_right_iff] at e3
    have : List.Forall₂ (fun a' b => a' = rebase v[k].conj true b) r' (v.rotate k) := by
      refine List.forall₂_iff_get.mpr ⟨e3.length_eq, fun n h1 h2 => ?_⟩
      refine (List.forall₂_iff_get.mp e3).2 n h1 h2 ?_
      have hm : (v.rotate k).get ⟨n, h2⟩ ∈ v := List.mem_rotate.mp (List.get_mem _ _)
      have hw := hne' _ hm
      rw [rebase_true]
      rcases posW_eq_or (v[k].conj * (v.rotate k).get ⟨n, h2⟩) with e | e <;> rw [e]
      · exact hw
      · rw [DQuat.neg_rot, Quat.neg_w]
        exact neg_ne_zero.mpr hw
    have e4 : List.Forall₂ (· = ·) r' ((v.rotate k).map (rebase v[k].conj true)) := by
      rw [List.forall₂_map_right_iff]
      exact this
    exact List.forall₂_eq_eq_eq ▸ e4

/-- C95: aligning a trajectory at any of its poses gives the same, whatever world frame it was given in and whatever signs its
dual quaternions had, provided that no two poses differ by a half turn. -/
theorem C95_align (g : DQuat) (hg : Spec.IsUnit g) (v v' : List DQuat) (hu : ∀ a ∈ v, Spec.IsUnit a)
    (h : Spec.SeenFrom g v v') (hne : Spec.NoHalfTurns v) (i : ℤ) : alignPathsAtIndex v' i = alignPathsAtIndex v i :=
  align_seen hg hu (seen_iff.mp h) i fun _ _ _ ha b hb => noHalfTurns_iff.mp hne _ (List.mem_of_getElem? ha) b hb

/-- Drawing the same indices of two related lists. -/
theorem mapM_pyAt_related {R : DQuat → DQuat → Prop} {v v' : List DQuat} (h : List.Forall₂ R v v') (s : List ℕ) :
    (∃ e, s.mapM (pyAt v) = .error e ∧ s.mapM (pyAt v') = .error e) ∨
    ∃ x x', s.mapM (pyAt v) = .ok x ∧ s.mapM (pyAt v') = .ok x' ∧ List.Forall₂ R x x' ∧ ∀ a ∈ x, a ∈ v := by
  induction s with
  | nil => exact Or.inr ⟨[], [], rfl, rfl, .nil, by simp⟩
  | cons k s ih =>
    rw [Py.mapM_cons, Py.mapM_cons]
    have hl := h.length_eq
    by_cases hk : k < v.length
    · have e1 : pyAt v k = .ok v[k] := pyAt_eq_ok.mpr (List.getElem?_eq_getElem hk)
      have e2 : pyAt v' k = .ok (v'[k]'(by omega)) := pyAt_eq_ok.mpr (List.getElem?_eq_getElem (by omega))
      rw [e1, e2, Py.ok_bind, Py.ok_bind]
      rcases ih with ⟨e, i1, i2⟩ | ⟨x, x', i1, i2, i3, i4⟩
      · rw [i1, i2]
        exact Or.inl ⟨e, rfl, rfl⟩
      · rw [i1, i2]
        refine Or.inr ⟨_, _, rfl, rfl, .cons (h.get hk (by omega)) i3, ?_⟩
        intro a ha
        rcases List.mem_cons.mp ha with rfl | ha
        · exact List.getElem_mem hk
        · exact i4 a ha
    · have e1 : pyAt v k = .error .index := by
        unfold pyAt
        rw [List.getElem?_eq_none (by omega)]
      have e2 : pyAt v' k = .error .index := by
        unfold pyAt
        rw [List.getElem?_eq_none (by omega)]
      rw [e1, e2]
      exact Or.inl ⟨_, rfl, rfl⟩

/-- For samples of one measurement, the classification does not look at the sample. -/
theorem classify_samples (svd : Svd) (cfg : HandEyeConfig) (h : ¬ 1 < cfg.ransac_sample_size) (x y x' y' aB aW : List DQuat) :
    classify svd cfg x y aB aW = classify svd cfg x' y' aB aW := by
  unfold classify
  split
  · unfold classifyByRmse
    rw [pyAssert_neg (by omega)]
    rfl
  · rfl
  · rfl

/-- One sample, for both descriptions of the trajectories. -/
theorem evaluate_seen (svd : Svd) (cfg : HandEyeConfig) {g g' : DQuat} (hg : Spec.IsUnit g) (hg' : Spec.IsUnit g')
    {bs bs' ws ws' : List DQuat} (hub : ∀ a ∈ bs, Spec.IsUnit a) (huw : ∀ a ∈ ws, Spec.IsUnit a)
    (hb : List.Forall₂ (fun a a' => a' = g * a ∨ a' = -(g * a)) bs bs')
    (hw : List.Forall₂ (fun a a' => a' = g' * a ∨ a' = -(g' * a)) ws ws')
    (hnb : ∀ a ∈ bs, ∀ b ∈ bs, (a.conj * b).rot.w ≠ 0) (hnw : ∀ a ∈ ws, ∀ b ∈ ws, (a.conj * b).rot.w ≠ 0) (s : List ℕ) :
    evaluateSample svd cfg bs' ws' bs' ws' s = evaluateSample svd cfg bs ws bs ws s := by
  have ab : ∀ i : ℤ, alignPathsAtIndex bs' i = alignPathsAtIndex bs i := fun i =>
    align_seen hg hub hb i fun _ _ _ ha b hb => hnb _ (List.mem_of_getElem? ha) b hb
  have aw : ∀ i : ℤ, alignPathsAtIndex ws' i = alignPathsAtIndex ws i := fun i =>
    align_seen hg' huw hw i fun _ _ _ ha b hb => hnw _ (List.mem_of_getElem? ha) b hb
  unfold evaluateSample
  simp only [ab, aw]
  unfold sampleTest
  rcases mapM_pyAt_related hw s with ⟨e, i1, i2⟩ | ⟨x, x', i1, i2, i3, i4⟩
  · rw [i1, i2]
    rfl
  · rw [i1, i2, Py.ok_bind, Py.ok_bind]
    rcases mapM_pyAt_related hb s with ⟨e, j1, j2⟩ | ⟨y, y', j1, j2, j3, j4⟩
    · rw [j1, j2]
      rfl
    · rw [j1, j2, Py.ok_bind, Py.ok_bind, ← i3.length_eq]
      by_cases hsz : 1 < cfg.ransac_sample_size
      · rw [if_pos hsz, if_pos hsz,
          align_seen hg (fun a ha => hub a (j4 a ha)) j3 0
            fun _ _ _ ha b hb => hnb _ (j4 _ (List.mem_of_getElem? ha)) b (j4 b hb),
          align_seen hg' (fun a ha => huw a (i4 a ha)) i3 0
            fun _ _ _ ha b hb => hnw _ (i4 _ (List.mem_of_getElem? ha)) b (i4 b hb)]
      · rw [if_neg hsz, if_neg hsz]
        by_cases hx : x.length = cfg.ransac_sample_size
        · rw [pyAssert_pos hx]
          simp only [Py.ok_bind, Py.pure_eq, if_true]
          congr 1
          funext i0
          congr 1
          funext aB
          congr 1
          funext aW
          rw [classify_samples svd cfg hsz y' x' y x]
        · rw [pyAssert_neg hx]
          rfl

theorem loop_seen (svd : Svd) (cfg : HandEyeConfig) (rng : ℕ → List ℕ) {bs bs' ws ws' : List DQuat}
    (hl : ws'.length = ws.length)
    (he : ∀ s, evaluateSample svd cfg bs' ws' bs' ws' s = evaluateSample svd cfg bs ws bs ws s) (fuel : ℕ) (st : LoopState) :
    ransacLoop svd cfg rng bs' ws' bs' ws' fuel st = ransacLoop svd cfg rng bs ws bs ws fuel st := by
  induction fuel generalizing st with
  | zero =>
    unfold ransacLoop
    rw [hl]
  | succ n ih =>
    unfold ransacLoop
    simp only [ih]
    unfold ransacStep
    simp only [he, hl]

/-- C95, RANSAC without the prefilter: each of the two trajectories may be given in any world frame and with any signs of its
dual quaternions, if no two poses of it differ by a half turn; RANSAC does the same.  Missing: with the prefilter, see
`C95_prefilter_refuted`, and with half turns, see `C22_sign_visible`. -/
theorem C95_ransac_partial (svd : Svd) (rng : ℕ → List ℕ) (cfg : HandEyeConfig) (hpre : cfg.prefilter_poses_enabled = false)
    (g g' : DQuat) (hg : Spec.IsUnit g) (hg' : Spec.IsUnit g') (bs bs' ws ws' : List DQuat)
    (hub : ∀ a ∈ bs, Spec.IsUnit a) (huw : ∀ a ∈ ws, Spec.IsUnit a) (hb : Spec.SeenFrom g bs bs') (hw : Spec.SeenFrom g' ws ws')
    (hnb : Spec.NoHalfTurns bs) (hnw : Spec.NoHalfTurns ws) (fuel : ℕ) :
    ransac svd rng cfg bs' ws' fuel = ransac svd rng cfg bs ws fuel := by
  have hb' := seen_iff.mp hb
  have hw' := seen_iff.mp hw
  have he := evaluate_seen svd cfg hg hg' hub huw hb' hw' (noHalfTurns_iff.mp hnb) (noHalfTurns_iff.mp hnw)
  unfold ransac filteredPoses
  rw [← hb'.length_eq, ← hw'.length_eq, hpre]
  simp only [Bool.false_eq_true, if_false, Py.ok_bind, loop_seen svd cfg rng hw'.length_eq.symm he, hw'.length_eq]

end HandEye
