import Verif.Props.Baseline

/-! # Property C43: baseline calibration on noise-free data, and a failing search -/

namespace HandEye

theorem enforceSameSign_forall₂ {bs ws : List DQuat} (h : ws.length = bs.length) :
    ∃ ws', enforceSameSign bs ws = .ok ws' ∧ List.Forall₂ (fun w' w => w' = w ∨ w' = -w) ws' ws := by
  induction bs generalizing ws with
  | nil =>
    have : ws = [] := List.length_eq_zero_iff.mp (by simpa using h)
    subst this
    exact ⟨[], by rw [enforceSameSign], .nil⟩
  | cons b bs ih =>
    cases ws with
    | nil => simp at h
    | cons w ws =>
      obtain ⟨r, h1, h2⟩ := ih (ws := ws) (by simpa using h)
      refine ⟨_, by rw [enforceSameSign, h1, Py.ok_bind]; rfl, .cons ?_ h2⟩
      split
      · exact Or.inr rfl
      · exact Or.inl rfl

/-- Signs are irrelevant for the alignment unless there is a half turn. -/
theorem rebase_sign {w₀ w w₀' w' : DQuat} (h0 : w₀' = w₀ ∨ w₀' = -w₀) (h : w' = w ∨ w' = -w)
    (hne : (w₀.conj * w).rot.w ≠ 0) : rebase w₀'.conj true w' = rebase w₀.conj true w := by
  have hc : w₀'.conj = w₀.conj ∨ w₀'.conj = -w₀.conj := by
    rcases h0 with rfl | rfl
    · exact Or.inl rfl
    · exact Or.inr (by ext <;> simp [DQuat.conj, Quat.conj])
  rw [rebase_true, rebase_true]
  rcases hc with e1 | e1 <;> rcases h with e2 | e2 <;> rw [e1, e2]
  · rw [mul_neg, posW_neg hne]
  · rw [neg_mul, posW_neg hne]
  · rw [neg_mul_neg]

theorem align0_sign {ws ws' : List DQuat} (hs : List.Forall₂ (fun w' w => w' = w ∨ w' = -w) ws' ws)
    (hu : ∀ w ∈ ws, Spec.IsUnit w) {w₀ : DQuat} (h0 : ws.head? = some w₀)
    (hne : ∀ w ∈ ws, (w₀.conj * w).rot.w ≠ 0) :
    alignPathsAtIndex ws' (0 : ℕ) = alignPathsAtIndex ws (0 : ℕ) := by
  have hu' : ∀ w ∈ ws', Spec.IsUnit w := by
    intro w hw
    obtain ⟨i, hi, rfl⟩ := List.getElem_of_mem hw
    have := (List.forall₂_iff_get.mp hs).2 i hi (by rw [← hs.length_eq]; exact hi)
    simp only [List.get_eq_getElem] at this
    rcases this with e | e <;> rw [e]
    · exact hu _ (List.getElem_mem _)
    · exact DQuat.isUnit_neg (hu _ (List.getElem_mem _))
  cases hs with
  | nil => rfl
  | @cons a b as bs hab hrest =>
    simp only [List.head?_cons, Option.some.injEq] at h0
    subst h0
    have e1 := align_unit (pyPos_natCast (n := (b :: bs).length) (k := 0) (by simp)) hu true
    have e2 := align_unit (pyPos_natCast (n := (a :: as).length) (k := 0) (by simp)) hu' true
    rw [e1, e2]
    congr 1
    simp only [List.rotate_zero, List.getElem_cons_zero]
    have hall : List.Forall₂ (fun w' w => w' = w ∨ w' = -w) (a :: as) (b :: bs) := .cons hab hrest
    clear hu hu' e1 e2 hrest
    revert hne
    generalize a :: as = A at hall
    generalize b :: bs = Bs at hall
    intro hne
    induction hall with
    | nil => rfl
    | @cons x y xs ys hxy _ ih =>
      rw [List.map_cons, List.map_cons, ih fun w hw => hne w (List.mem_cons_of_mem _ hw),
        rebase_sign hab hxy (hne y List.mem_cons_self)]

/-- C43 on noise-free data of two rigidly connected sensors: without exhaustive search and prefilter, with
more than `min_num_inliers` poses and no half turn as seen from the first pose, a result is returned for all
poses, and the calibration in it, unless the solver raised, is the true one, without any error.  `_partial`:
with the two options the property fails or is not shown. -/
theorem C43_noise_free_partial (svd : Svd) (hsvd : ∀ T s V, svd T = .ok (s, V) → Spec.IsSVD T s V)
    (cfg : HandEyeConfig) (he : cfg.enable_exhaustive_search = false)
    (hp : cfg.prefilter_poses_enabled = false) (g X : DQuat) (hg : Spec.IsUnit g) (hX : Spec.IsUnit X)
    (hXw : X.rot.w ≠ 0) (bs ws : List DQuat) (hu : ∀ a ∈ bs, Spec.IsUnit a) (hm : Spec.Mounted g X bs ws)
    (h2 : Spec.TurnsAboutTwoAxes bs) (hmin : cfg.min_num_inliers < bs.length) (b₀ : DQuat)
    (h0 : bs.head? = some b₀) (hhalf : ∀ b ∈ bs, (b₀.conj * b).rot.w ≠ 0) :
    ∃ r, baseline svd cfg bs ws = .ok r ∧ r.num_poses_after_filtering = bs.length ∧
      ∀ c, r.found = some c → Spec.SameUpToSign c.dq_H_E X ∧ 0 ≤ c.dq_H_E.rot.w ∧ c.rmse_position = 0 ∧
        c.rmse_orientation = 0 ∧ c.num_inliers = bs.length := by
  classical
  have hws := mounted_iff.mp hm
  have hl : ws.length = bs.length := by rw [hws, List.length_map]
  have hwu : ∀ a ∈ ws, Spec.IsUnit a := by
    rw [hws]
    intro a ha
    obtain ⟨b, hb, rfl⟩ := List.mem_map.mp ha
    exact DQuat.isUnit_mul (DQuat.isUnit_mul hg (hu b hb)) hX
  have h0lt : 0 < bs.length := by omega
  obtain ⟨ws', hs, hsgn⟩ := enforceSameSign_forall₂ hl
  obtain ⟨hl', hwu'⟩ := enforceSameSign_units hwu hs
  obtain ⟨B, W, e1, e2, e3, e4, e5, e6, e7, e8, e9⟩ := mounted_align hg hX hu hm h0lt
  have hhead : bs[0] = b₀ := by
    rw [List.head?_eq_getElem?, List.getElem?_eq_getElem h0lt] at h0
    exact Option.some.inj h0
  have e2' : alignPathsAtIndex ws' (0 : ℕ) = .ok W := by
    rw [align0_sign hsgn hwu (w₀ := g * b₀ * X) ?_ ?_, e2]
    · rw [hws, List.head?_map, h0]; rfl
    · rw [hws]
      intro w hw
      obtain ⟨b, hb, rfl⟩ := List.mem_map.mp hw
      have hb0 : b₀ ∈ bs := by rw [← hhead]; exact List.getElem_mem h0lt
      have : (g * b₀ * X).conj * (g * b * X) = X.conj * (b₀.conj * b) * X := by
        rw [DQuat.conj_mul_rev, DQuat.conj_mul_rev]
        have hgg : g.conj * g = 1 := DQuat.conj_mul_unit hg
        calc X.conj * (b₀.conj * g.conj) * (g * b * X) = X.conj * (b₀.conj * ((g.conj * g) * b)) * X := by
              noncomm_ring
          _ = _ := by rw [hgg, one_mul]
      rw [this]
      have key : (X.conj * (b₀.conj * b) * X).rot.w = (b₀.conj * b).rot.w := by
        have hXu := DQuat.IsUnit.rot hX
        generalize b₀.conj * b = d
        simp only [DQuat.mul_rot, DQuat.conj, Quat.mul_w, Quat.mul_x, Quat.mul_y, Quat.mul_z, Quat.conj, Quat.dot] at hXu ⊢
        linear_combination d.rot.w * hXu
      rw [key]
      exact hhalf b hb
  have hWl : W.length = B.length := e5.length_eq.symm
  have hB2 : Spec.TwoAxes B := by
    obtain ⟨b₁, hb₁, b₂, hb₂, hne⟩ := twoAxes_any_base hu h2 (List.getElem_mem h0lt)
    rw [e3, List.map_rotate]
    exact ⟨b₁, List.mem_rotate.mpr hb₁, b₂, List.mem_rotate.mpr hb₂, hne⟩
  have hflags : (W.zip B).mapM (fun p => scalarPartsMatch 1e-2 p.1 p.2) = .ok ((W.zip B).map fun _ => true) := by
    apply Py.mapM_ok
    intro p hp
    rw [scalarPartsMatch_eq (by norm_num)]
    have hp' : (p.2, p.1) ∈ B.zip W := by
      rw [← List.zip_swap] at hp
      obtain ⟨q, hq, rfl⟩ := List.mem_map.mp hp
      exact hq
    rw [decide_eq_true (scalarsClose_exact hX ((List.forall₂_iff_zip.mp e5).2 hp') (by norm_num))]
  have hin : baselineInliers bs ws' 0 = .ok (B, W) := by
    unfold baselineInliers
    rw [e2', Py.ok_bind, e1, Py.ok_bind, hflags, Py.ok_bind, List.map_const', List.length_zip, hWl, min_self,
      compress_replicate, ← hWl, compress_replicate]
    rfl
  obtain ⟨m, hm'⟩ : ∃ m, ws'.length = m + 1 := ⟨ws'.length - 1, by omega⟩
  have hloop : baselineLoop cfg bs ws' (List.range ws'.length) { best_num_inliers := (cfg.min_num_inliers : ℤ) - 1 }
      = .ok ⟨(0 : ℕ), W.length, [], [], some (B, W)⟩ := by
    rw [hm', List.range_eq_range', List.range'_succ, baselineLoop, hin, Py.ok_bind]
    dsimp only
    rw [pyAssert_pos hWl, Py.ok_bind, if_neg (by simp [he]), if_pos (by omega)]
    rfl
  have hBu : ∀ a ∈ B, RotUnit a := fun a ha => DQuat.IsUnit.rot (e6 a ha)
  have hWu : ∀ a ∈ W, RotUnit a := by
    intro a ha
    rw [align_unit (pyPos_natCast (show 0 < ws'.length by omega)) hwu' true] at e2'
    rw [← Except.ok.inj e2'] at ha
    obtain ⟨d, hd, rfl⟩ := List.mem_map.mp ha
    exact DQuat.IsUnit.rot (rebase_unit (DQuat.isUnit_conj (hwu' _ (List.getElem_mem _)))
      (hwu' d (List.mem_rotate.mp hd)) true)
  have hBne : B ≠ [] := List.ne_nil_of_length_pos (by omega)
  obtain ⟨_, a1, -⟩ := align_rotUnit (pyPos_natCast (show 0 < B.length by omega)) hBu true
  obtain ⟨_, a2, -⟩ := align_rotUnit (pyPos_natCast (show 0 < W.length by omega)) hWu true
  have hbase : baseline svd cfg bs ws = baselineSolve svd cfg bs ws' ws'.length
      ⟨(0 : ℕ), W.length, [], [], some (B, W)⟩ B W := by
    unfold baseline
    rw [pyAssert_pos hl, Py.ok_bind, hs, Py.ok_bind, baselineFilter, if_neg (by simp [hp]), Py.ok_bind]
    dsimp only
    rw [hloop, Py.ok_bind, baselineSelect, if_neg (by simp [he])]
    dsimp only
    rw [Py.ok_bind]
    dsimp only
    rw [a1, Py.ok_bind, a2, Py.ok_bind]
  rw [hbase]
  unfold baselineSolve
  cases ht : tryCalibration svd cfg.hand_eye_calibration_scalar_part_equality_tolerance B W with
  | none => exact ⟨_, rfl, by simp; omega, by simp⟩
  | some cal =>
    dsimp only
    obtain ⟨c0, hc0, hn, -, -⟩ := tryCalibration_some ht
    obtain ⟨hrec, hw0⟩ := C27_exact_recovery svd hsvd B W X hX e5 hB2 (Or.inl hXw) _ _ c0 hc0
    have hXc : c0.dq_H_E = X ∨ c0.dq_H_E = -X := sameUpToSign_iff.mp hrec
    have hru : Spec.IsUnit c0.dq_H_E := by
      rcases hXc with h | h <;> rw [h]
      · exact hX
      · exact DQuat.isUnit_neg hX
    rw [normalize_of_unit hru] at hn
    have hcal : cal.dq_H_E = c0.dq_H_E := (Except.ok.inj hn).symm
    have hex : Spec.Exact B W c0.dq_H_E := by
      rcases hXc with h | h <;> rw [h]
      · exact e5
      · exact exact_neg e5
    obtain ⟨pB, pW, g1, g2, g3, -⟩ := C36_perfect_calibration B W c0.dq_H_E hru e6 hex e7
    have hne : pB ≠ [] := by
      rintro rfl
      rw [List.length_nil, e4] at g2
      omega
    obtain ⟨fl, hfl⟩ := evaluateAlignment_zero g3 hne cfg.ransac_orientation_error_threshold_deg
      cfg.ransac_position_error_threshold_m
    have hposes : baselinePoses cfg bs ws' B W (0 : ℕ) cal.dq_H_E = .ok (pB, pW) := by
      unfold baselinePoses
      rw [hcal, e1, Py.ok_bind, e2', Py.ok_bind, ite_self, g1]
    rw [hposes, Py.ok_bind]
    dsimp only
    rw [hfl, Py.ok_bind, hcal]
    have hpose : c0.dq_H_E.toPose = .ok (⟨(((2 : ℝ) • c0.dq_H_E.dual) * c0.dq_H_E.rot.conj).vec,
        c0.dq_H_E.rot⟩, c0.dq_H_E) := by
      rw [DQuat.toPose_unit (DQuat.IsUnit.rot hru), if_neg (not_lt.mpr hw0)]
    dsimp only
    rw [hpose, Py.ok_bind]
    refine ⟨_, rfl, by simp; omega, ?_⟩
    intro c hc
    cases hc
    exact ⟨hrec, hw0, rfl, rfl, by simp; omega⟩

/-- The rotation by twice the angle with cosine `c` and sine `s` about the z axis. -/
def turnZ (s c : ℝ) : DQuat := ⟨⟨0, 0, s, c⟩, ⟨0, 0, 0, 0⟩⟩

theorem turnZ_unit {s c : ℝ} (h : s ^ 2 + c ^ 2 = 1) : Spec.IsUnit (turnZ s c) := by
  rw [DQuat.isUnit_iff]
  simp only [turnZ, Quat.dot]
  constructor
  · linarith [h, sq s, sq c]
  · ring

theorem posW_rot_w (a : DQuat) : (posW a).rot.w = |a.rot.w| := posW_w a

theorem posW_dual_w_zero {a : DQuat} (h : a.dual = 0) : (posW a).dual.w = 0 := by
  rcases posW_eq_or a with e | e <;> rw [e]
  · rw [h]; rfl
  · rw [DQuat.neg_dual, h, neg_zero]; rfl

theorem agree_turnZ (s c s' c' : ℝ) : Spec.Agree (turnZ 0 1) (turnZ s c) (turnZ 0 1) (turnZ s' c') ↔
    |(|c * c' + s * s'| - 1)| ≤ 1e-2 + 1e-5 := by
  rw [agree_iff]
  unfold ScalarsClose npIsclose
  rw [rebase_true, rebase_true, posW_w, posW_w]
  have d1 : ((turnZ s c).conj * turnZ s' c').dual = 0 := by ext <;> simp [turnZ, DQuat.conj, Quat.conj]
  have d2 : ((turnZ 0 1).conj * turnZ 0 1).dual = 0 := by ext <;> simp [turnZ, DQuat.conj, Quat.conj]
  rw [posW_dual_w_zero d1, posW_dual_w_zero d2]
  have r1 : ((turnZ s c).conj * turnZ s' c').rot.w = c * c' + s * s' := by
    simp [turnZ, DQuat.conj, Quat.conj]
  have r2 : ((turnZ 0 1).conj * turnZ 0 1).rot.w = 1 := by simp [turnZ, DQuat.conj, Quat.conj]
  rw [r1, r2]
  norm_num

/-- C43 fails without exhaustive search, too.  The robot stands still and the camera reports four
orientations of which the last two are equal.  With `min_num_inliers = 1` the third pose is the first one
with enough agreeing poses (itself and the fourth), and then an `IndexError` is raised instead of a
calibration attempted: the index 2 of that pose is used in the list of the two inliers. -/
theorem C43_index_refuted (svd : Svd) :
    baseline svd { min_num_inliers := 1, prefilter_poses_enabled := false, enable_exhaustive_search := false }
      [turnZ 0 1, turnZ 0 1, turnZ 0 1, turnZ 0 1]
      [turnZ 0 1, turnZ (3/5) (4/5), turnZ 1 0, turnZ 1 0] = .error .index := by
  classical
  have hb : ∀ a ∈ [turnZ 0 1, turnZ 0 1, turnZ 0 1, turnZ 0 1], Spec.IsUnit a := by
    simp [turnZ_unit]
  have hw : ∀ a ∈ [turnZ 0 1, turnZ (3/5) (4/5), turnZ 1 0, turnZ 1 0], Spec.IsUnit a := by
    simp only [List.forall_mem_cons]
    refine ⟨?_, ?_, ?_, ?_, by simp⟩ <;> apply turnZ_unit <;> norm_num
  have hs : enforceSameSign [turnZ 0 1, turnZ 0 1, turnZ 0 1, turnZ 0 1]
      [turnZ 0 1, turnZ (3/5) (4/5), turnZ 1 0, turnZ 1 0] =
        .ok [turnZ 0 1, turnZ (3/5) (4/5), turnZ 1 0, turnZ 1 0] := by
    apply enforceSameSign_nonneg
    · simp
    · simp [turnZ]
    · simp only [turnZ, List.forall_mem_cons]
      norm_num
  obtain ⟨h, -⟩ := C43_outcome_partial svd
    { min_num_inliers := 1, prefilter_poses_enabled := false, enable_exhaustive_search := false }
    _ _ _ _ _ rfl (by rfl) hb hw hs rfl
  have a0 : Spec.agreeing [turnZ 0 1, turnZ 0 1, turnZ 0 1, turnZ 0 1]
      [turnZ 0 1, turnZ (3/5) (4/5), turnZ 1 0, turnZ 1 0] 0 = 1 := by
    simp only [Spec.agreeing, List.zip_cons_cons, List.zip_nil_right, List.getD_cons_zero, List.filter_cons,
      agree_turnZ, List.filter_nil]
    norm_num [abs_of_pos, abs_of_neg]
  have a1 : Spec.agreeing [turnZ 0 1, turnZ 0 1, turnZ 0 1, turnZ 0 1]
      [turnZ 0 1, turnZ (3/5) (4/5), turnZ 1 0, turnZ 1 0] 1 = 1 := by
    simp only [Spec.agreeing, List.zip_cons_cons, List.zip_nil_right, List.getD_cons_zero, List.getD_cons_succ,
      List.filter_cons, agree_turnZ, List.filter_nil]
    norm_num [abs_of_pos, abs_of_neg]
  have a2 : Spec.agreeing [turnZ 0 1, turnZ 0 1, turnZ 0 1, turnZ 0 1]
      [turnZ 0 1, turnZ (3/5) (4/5), turnZ 1 0, turnZ 1 0] 2 = 2 := by
    simp only [Spec.agreeing, List.zip_cons_cons, List.zip_nil_right, List.getD_cons_zero, List.getD_cons_succ,
      List.filter_cons, agree_turnZ, List.filter_nil]
    norm_num [abs_of_pos, abs_of_neg]
  refine (h 2 (by simp) ?_ ?_).2 ?_
  · intro i hi
    interval_cases i
    · exact a0.le
    · exact a1.le
  · rw [a2]; simp
  · rw [a2]

/-- The noise-free case is not empty: three poses of the RANSAC example, no half turn, more than two inliers
wanted. -/
example : ∃ svd : Svd, ∃ r, baseline svd { min_num_inliers := 2, prefilter_poses_enabled := false }
      (bodyPoses.take 3) ((bodyPoses.take 3).map fun b => turnZ 1 0 * b * sampleX) = .ok r ∧
      r.num_poses_after_filtering = 3 := by
  obtain ⟨hX, -, -, hXw⟩ := sample_data
  obtain ⟨svd, hv, -⟩ := exists_good_svd
  obtain ⟨r, h1, h2, -⟩ := C43_noise_free_partial svd hv
    { min_num_inliers := 2, prefilter_poses_enabled := false } rfl rfl (turnZ 1 0) sampleX
    (turnZ_unit (by norm_num)) hX hXw (bodyPoses.take 3) _
    (fun a ha => bodyPoses_unit a (List.mem_of_mem_take ha)) (mounted_iff.mpr rfl)
    (by
      refine ⟨_, List.mem_cons_self, _, List.mem_cons_of_mem _ List.mem_cons_self, _,
        List.mem_cons_of_mem _ (List.mem_cons_of_mem _ List.mem_cons_self), ?_⟩
      rw [Ne, cross_eq_zero]
      norm_num [Quat.vec])
    (by simp [bodyPoses]) _ rfl (by
      simp only [bodyPoses, List.take_succ_cons, List.take_zero, List.forall_mem_cons]
      refine ⟨?_, ?_, ?_, by simp⟩ <;> norm_num [DQuat.conj, Quat.conj])
  exact ⟨svd, r, h1, h2⟩

end HandEye
