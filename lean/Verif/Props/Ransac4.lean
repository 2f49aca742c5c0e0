import Verif.Props.Ransac3

/-! # Property C42: the pose at which RANSAC aligns the data -/

namespace HandEye

/-- C42, without prefiltering: a sample's calibration is computed and evaluated on trajectories that are
aligned at the pose pair drawn first.  (Missing: with prefiltering, where it fails, see
`C42_prefilter_refuted`.) -/
theorem C42_alignment_partial (svd : Svd) (cfg : HandEyeConfig) (bs ws bf wf : List DQuat) (s : List ℕ)
    (c : Candidate) (hbu : ∀ a ∈ bs, Spec.IsUnit a) (hwu : ∀ a ∈ ws, Spec.IsUnit a)
    (hl : ws.length = bs.length)
    (hp : cfg.prefilter_poses_enabled = false) (hf : filteredPoses cfg bs ws = .ok (bf, wf))
    (h : evaluateSample svd cfg bs ws bf wf s = .ok (.candidate c)) :
    ∃ (i0 : ℕ) (b w : DQuat) (aB aW : List DQuat) (k : Classified), s[0]? = some i0 ∧ bf[i0]? = some b ∧
      wf[i0]? = some w ∧ aB.length = bs.length ∧ aW.length = ws.length ∧
      (∀ (j : ℕ) (a d : DQuat), aB[j]? = some a → bs[(i0 + j) % bs.length]? = some d → ∀ x, Spec.motion b (Spec.motion a x) = Spec.motion d x) ∧
      (∀ (j : ℕ) (a d : DQuat), aW[j]? = some a → ws[(i0 + j) % ws.length]? = some d → ∀ x, Spec.motion w (Spec.motion a x) = Spec.motion d x) ∧
      (k.aligned_dq_B_H = aB ∨ aB.mapM DQuat.normalize = .ok k.aligned_dq_B_H) ∧
      (∃ pB pW fl, getAlignedPoses
          (if cfg.ransac_evaluate_refined_model_on_inliers_only then compress k.aligned_dq_B_H k.inlier_flags
            else k.aligned_dq_B_H)
          (if cfg.ransac_evaluate_refined_model_on_inliers_only then compress aW k.inlier_flags else aW)
          c.dq_H_E = .ok (pB, pW) ∧
        evaluateAlignment cfg.ransac_orientation_error_threshold_deg cfg.ransac_position_error_threshold_m
          pB pW = .ok (c.rmse_position, c.rmse_orientation, fl)) := by
  unfold filteredPoses at hf
  rw [if_neg (by rw [hp]; simp)] at hf
  obtain ⟨rfl, rfl⟩ := Prod.mk.inj (Except.ok.inj hf)
  obtain ⟨i0, aB, aW, k, h1, h2, h3, h4, h5, -⟩ := C37_candidate svd cfg bs ws bs ws s c h
  have hi0 : i0 < bs.length := by
    by_contra hcon
    rw [align_index_error] at h2
    · cases h2
    · unfold pyPos
      rw [if_pos (by omega), if_neg (by simpa using hcon)]
  have key : ∀ (v : List DQuat) (hv : i0 < v.length) (a : List DQuat), (∀ x ∈ v, Spec.IsUnit x) →
      alignPathsAtIndex v (i0 : ℕ) = .ok a → a.length = v.length ∧
      ∀ (j : ℕ) (x d : DQuat), a[j]? = some x → v[(i0 + j) % v.length]? = some d → ∀ y,
        Spec.motion v[i0] (Spec.motion x y) = Spec.motion d y := by
    intro v hv a hu ha
    obtain ⟨r, e1, e2, -, e3, -⟩ := C21_align v hu i0 i0 ⟨hv, Or.inl rfl⟩ true
    rw [ha] at e1
    cases e1
    refine ⟨e2, fun j x d hx hd y => ?_⟩
    obtain ⟨hj, rfl⟩ := List.getElem?_eq_some_iff.mp hx
    obtain ⟨hj', rfl⟩ := List.getElem?_eq_some_iff.mp hd
    exact (e3 j hj).2.2 y
  obtain ⟨kb1, kb2⟩ := key bs hi0 aB hbu h2
  obtain ⟨kw1, kw2⟩ := key ws (by omega) aW hwu h3
  exact ⟨i0, _, _, aB, aW, k, h1, List.getElem?_eq_getElem hi0, List.getElem?_eq_getElem (by omega), kb1, kw1,
    kb2, kw2, h4, h5⟩

/-- Rotations about the axes, and (for `camera`) an outlier in the first place. -/
noncomputable def hand : List DQuat :=
  [⟨⟨0, 0, 0, 1⟩, ⟨0, 0, 0, 0⟩⟩, ⟨⟨0, 0, 0.6, 0.8⟩, ⟨0, 0, 0, 0⟩⟩, ⟨⟨0.6, 0, 0, 0.8⟩, ⟨0, 0, 0, 0⟩⟩,
    ⟨⟨0, 0.6, 0, 0.8⟩, ⟨0, 0, 0, 0⟩⟩]

noncomputable def camera : List DQuat :=
  [⟨⟨0, 0, 1, 0⟩, ⟨0, 0, 0, 0⟩⟩, ⟨⟨0, 0, 0.6, 0.8⟩, ⟨0, 0, 0, 0⟩⟩, ⟨⟨0.6, 0, 0, 0.8⟩, ⟨0, 0, 0, 0⟩⟩,
    ⟨⟨0, 0.6, 0, 0.8⟩, ⟨0, 0, 0, 0⟩⟩]

theorem hand_unit : ∀ a ∈ hand, Spec.IsUnit a := by
  simp only [hand, List.forall_mem_cons]
  refine ⟨?_, ?_, ?_, ?_, by simp⟩ <;> rw [DQuat.isUnit_iff] <;> norm_num [Quat.dot]

theorem camera_unit : ∀ a ∈ camera, Spec.IsUnit a := by
  simp only [camera, List.forall_mem_cons]
  refine ⟨?_, ?_, ?_, ?_, by simp⟩ <;> rw [DQuat.isUnit_iff] <;> norm_num [Quat.dot]

/-- The prefilter drops the first pair, in which the hand is not rotated, and nothing else. -/
theorem hand_filtered : prefilterUsingScrewAxis hand camera 0.975 = .ok (hand.tail, camera.tail) := by
  have u1 := hasAxis_rotation (a := ⟨⟨0, 0, 0.6, 0.8⟩, ⟨0, 0, 0, 0⟩⟩) (s := 0.6)
    (by rw [DQuat.isUnit_iff]; norm_num [Quat.dot]) (by norm_num) (by norm_num)
  have u2 := hasAxis_rotation (a := ⟨⟨0.6, 0, 0, 0.8⟩, ⟨0, 0, 0, 0⟩⟩) (s := 0.6)
    (by rw [DQuat.isUnit_iff]; norm_num [Quat.dot]) (by norm_num) (by norm_num)
  have u3 := hasAxis_rotation (a := ⟨⟨0, 0.6, 0, 0.8⟩, ⟨0, 0, 0, 0⟩⟩) (s := 0.6)
    (by rw [DQuat.isUnit_iff]; norm_num [Quat.dot]) (by norm_num) (by norm_num)
  have a1 := axesOf_eq u1 u1
  have a2 := axesOf_eq u2 u2
  have a3 := axesOf_eq u3 u3
  have a0 : axesOf (⟨⟨0, 0, 0, 1⟩, ⟨0, 0, 0, 0⟩⟩, ⟨⟨0, 0, 1, 0⟩, ⟨0, 0, 0, 0⟩⟩) = none := by
    obtain ⟨_, _, _, hs, _⟩ := C18_parameters ⟨⟨0, 0, 1, 0⟩, ⟨0, 0, 0, 0⟩⟩ (camera_unit _ (by simp [camera]))
    have h1 : DQuat.screwAxis ⟨⟨0, 0, 0, 1⟩, ⟨0, 0, 0, 0⟩⟩ = .ok (⟨0, 0, 0⟩, 0, 0) := by
      unfold DQuat.screwAxis
      rw [npArccos_ok (by norm_num) (by norm_num), Py.ok_bind]
      simp only [Real.arccos_one, npDegrees, npMod, zero_mul, mul_zero, zero_div, Int.floor_zero, Int.cast_zero,
        sub_zero]
      rw [if_neg (by norm_num)]
      norm_num
    have : (⟨0, 0, 0⟩ : Vec3).norm ≤ 1e-12 := by norm_num [Vec3.norm, Vec3.dot]
    unfold axesOf pairAxes
    dsimp only
    rw [h1, Py.ok_bind]
    dsimp only
    rw [hs, Py.ok_bind]
    dsimp only
    rw [if_pos (Or.inl this)]
    rfl
  have hax : ∀ a, Spec.IsUnit a → ∃ r, a.screwAxis = .ok r := fun a ha => by
    obtain ⟨_, _, _, h, _⟩ := C18_parameters a ha
    exact ⟨_, h⟩
  have hpre := prefilter_eq 0.975 (hand.zip camera) (fun p hp =>
    pairAxes_ok (hax _ (hand_unit _ (List.of_mem_zip hp).1)) (hax _ (camera_unit _ (List.of_mem_zip hp).2)))
  simp only [hand, camera, List.zip_cons_cons, List.zip_nil_right, List.map_cons, List.map_nil] at hpre
  have h12 : survives axesOf (nearBy 0.975) (⟨0 / 0.6, 0 / 0.6, 0.6 / 0.6⟩, ⟨0 / 0.6, 0 / 0.6, 0.6 / 0.6⟩)
      (⟨⟨0.6, 0, 0, 0.8⟩, ⟨0, 0, 0, 0⟩⟩, ⟨⟨0.6, 0, 0, 0.8⟩, ⟨0, 0, 0, 0⟩⟩) = true := by
    rw [survives, a2]
    simp only [Bool.not_eq_true', nearBy]
    norm_num [Vec3.dot]
  have h13 : survives axesOf (nearBy 0.975) (⟨0 / 0.6, 0 / 0.6, 0.6 / 0.6⟩, ⟨0 / 0.6, 0 / 0.6, 0.6 / 0.6⟩)
      (⟨⟨0, 0.6, 0, 0.8⟩, ⟨0, 0, 0, 0⟩⟩, ⟨⟨0, 0.6, 0, 0.8⟩, ⟨0, 0, 0, 0⟩⟩) = true := by
    rw [survives, a3]
    simp only [Bool.not_eq_true', nearBy]
    norm_num [Vec3.dot]
  have h23 : survives axesOf (nearBy 0.975) (⟨0.6 / 0.6, 0 / 0.6, 0 / 0.6⟩, ⟨0.6 / 0.6, 0 / 0.6, 0 / 0.6⟩)
      (⟨⟨0, 0.6, 0, 0.8⟩, ⟨0, 0, 0, 0⟩⟩, ⟨⟨0, 0.6, 0, 0.8⟩, ⟨0, 0, 0, 0⟩⟩) = true := by
    rw [survives, a3]
    simp only [Bool.not_eq_true', nearBy]
    norm_num [Vec3.dot]
  unfold hand camera
  rw [hpre, greedy_none _ _ a0, greedy_some _ _ a1, List.filter_cons, List.filter_cons, List.filter_nil, h12,
    h13]
  simp only [if_true]
  rw [greedy_some _ _ a2, List.filter_cons, List.filter_nil, h23]
  simp only [if_true]
  rw [greedy_some _ _ a3, List.filter_nil, greedy]
  rfl

/-- C42 fails with prefiltering: sample indices count the filtered poses, but the alignment uses them as
indices of the unfiltered ones.  Here the prefilter has removed the first pair, an outlier; the sample
consists of three perfect pairs, and after aligning at the first of them these three pairs agree exactly.
The code instead aligns at the outlier, finds fewer than three inliers and rejects the sample. -/
theorem C42_prefilter_refuted :
    ∃ bs ws bf wf : List DQuat, (∀ a ∈ bs, Spec.IsUnit a) ∧ (∀ a ∈ ws, Spec.IsUnit a) ∧
      filteredPoses { min_num_inliers := 3 } bs ws = .ok (bf, wf) ∧
      Spec.IsSample wf.length 3 [0, 1, 2] ∧
      bf[0]? = bs[1]? ∧ wf[0]? = ws[1]? ∧ bf[0]? ≠ bs[0]? ∧
      (∃ aB aW, alignPathsAtIndex bs 1 = .ok aB ∧ alignPathsAtIndex ws 1 = .ok aW ∧ aB.take 3 = aW.take 3) ∧
      ∀ svd, evaluateSample svd { min_num_inliers := 3 } bs ws bf wf [0, 1, 2] = .ok .rejected := by
  classical
  refine ⟨hand, camera, hand.tail, camera.tail, hand_unit, camera_unit, ?_, ?_, rfl, rfl, ?_, ?_, ?_⟩
  · unfold filteredPoses
    rw [if_pos rfl, hand_filtered, Py.ok_bind]
    dsimp only
    rw [pyAssert_pos (show camera.tail.length = hand.tail.length from rfl), Py.ok_bind]
    rfl
  · exact ⟨rfl, by decide, by simp [camera]⟩
  · norm_num [hand]
  · have p1 : pyPos hand.length (1 : ℤ) = some 1 := pyPos_natCast (k := 1) (by simp [hand])
    have p2 : pyPos camera.length (1 : ℤ) = some 1 := pyPos_natCast (k := 1) (by simp [camera])
    exact ⟨_, _, align_unit p1 hand_unit true, align_unit p2 camera_unit true, rfl⟩
  · intro svd
    have hm : Spec.Mounted 1 1 hand.tail camera.tail := by
      rw [mounted_iff]
      simp [hand, camera]
    obtain ⟨x, y, ht⟩ := mounted_sampleTest (cfg := { min_num_inliers := 3 }) DQuat.isUnit_one DQuat.isUnit_one
      (fun a ha => hand_unit a (List.mem_of_mem_tail ha)) hm (by norm_num) (s := [0, 1, 2])
      ⟨rfl, by decide, by simp [camera]⟩
    have p1 : pyPos hand.length (0 : ℤ) = some 0 := pyPos_natCast (k := 0) (by simp [hand])
    have p2 : pyPos camera.length (0 : ℤ) = some 0 := pyPos_natCast (k := 0) (by simp [camera])
    have e1 := align_unit p1 hand_unit true
    have e2 := align_unit p2 camera_unit true
    unfold evaluateSample
    rw [ht, Py.ok_bind]
    dsimp only
    rw [if_pos rfl, pyAt_ok (by simp), Py.ok_bind]
    simp only [List.getElem_cons_zero, Nat.cast_zero]
    rw [e1, Py.ok_bind, e2, Py.ok_bind, List.rotate_zero, List.rotate_zero]
    have hno : ∀ q w b : DQuat, |(q.conj * w).rot.w| ≤ 0.7 → b.rot.w = 0.8 →
        scalarPartsMatch 1e-2 (rebase q.conj true w) (rebase (1 : DQuat).conj true b) = .ok false := by
      intro q w b h1 h2
      rw [scalarPartsMatch_eq (by norm_num)]
      congr 1
      rw [decide_eq_false_iff_not]
      rintro ⟨h3, -⟩
      rw [rebase_true, rebase_true, posW_w, posW_w] at h3
      have : ((1 : DQuat).conj * b).rot.w = 0.8 := by rw [← h2]; simp
      rw [this] at h3
      unfold npIsclose at h3
      have h4 := neg_le_abs (|(q.conj * w).rot.w| - |(0.8 : ℝ)|)
      have h5 : |(0.8 : ℝ)| = 0.8 := abs_of_pos (by norm_num)
      rw [h5] at h3 h4
      norm_num at h1 h3 h4
      linarith
    have hfl : ((camera.map (rebase camera[0].conj true)).zip (hand.map (rebase hand[0].conj true))).mapM
        (fun p => scalarPartsMatch 1e-2 p.1 p.2) = .ok [true, false, false, false] := by
      have z0 : scalarPartsMatch 1e-2 (rebase camera[0].conj true camera[0]) (rebase hand[0].conj true hand[0]) =
          .ok true := by
        rw [rebase_self (camera_unit _ (List.getElem_mem _)), rebase_self (hand_unit _ (List.getElem_mem _)),
          scalarPartsMatch_eq (by norm_num)]
        congr 1
        rw [decide_eq_true_iff]
        exact ⟨npIsclose_self _ (by norm_num), npIsclose_self _ (by norm_num)⟩
      have z1 := hno camera[0] camera[1] hand[1] (by simp [camera]; norm_num) rfl
      have z2 := hno camera[0] camera[2] hand[2] (by simp [camera]; norm_num) rfl
      have z3 := hno camera[0] camera[3] hand[3] (by simp [camera]; norm_num) rfl
      rw [Py.mapM_eq_ok]
      exact .cons z0 (.cons z1 (.cons z2 (.cons z3 .nil)))
    have hcl : classify svd { min_num_inliers := 3 } x y (hand.map (rebase hand[0].conj true))
        (camera.map (rebase camera[0].conj true)) =
        .ok (some ⟨none, hand.map (rebase hand[0].conj true), [true, false, false, false]⟩) := by
      unfold classify classifyByScalar
      dsimp only
      rw [hfl, Py.ok_bind]
      rfl
    rw [hcl, Py.ok_bind]
    rfl

end HandEye
