import Verif.Lemmas.Outliers2

/-! # Property C92: which of several supported calibrations RANSAC reports -/

namespace HandEye

/-- A candidate without orientation error is not replaced. -/
theorem stays {outs : List SampleOutcome} {c : Candidate} (hc : c.rmse_orientation = 0)
    (h : ∀ d, SampleOutcome.candidate d ∈ outs → 0 ≤ d.rmse_orientation) : outs.foldl upd (some c) = some c := by
  induction outs with
  | nil => rfl
  | cons o outs ih =>
    have ih := ih fun d hd => h d (List.mem_cons_of_mem _ hd)
    rw [List.foldl_cons]
    cases o with
    | prerejected => exact ih
    | rejected => exact ih
    | candidate d =>
      have hd := h d List.mem_cons_self
      have : upd (some c) (.candidate d) = some c := by
        simp only [upd, updateBest]
        rw [if_neg]
        rw [hc]
        rintro ⟨-, h'⟩
        linarith
      rw [this]
      exact ih

theorem candidate_nonneg {svd : Svd} {cfg : HandEyeConfig} {bs ws bf wf : List DQuat} {s : List ℕ} {c : Candidate}
    (h : evaluateSample svd cfg bs ws bf wf s = .ok (.candidate c)) : 0 ≤ c.rmse_orientation := by
  obtain ⟨_, _, _, _, _, k, -, -, -, -, -, a4⟩ := evaluateSample_candidate h
  obtain ⟨_, pB, pW, fl, -, -, he, -⟩ := buildCandidate_some a4
  obtain ⟨_, _, es, _, e⟩ := evaluateAlignment_eq_ok.mp he
  have := congrArg (fun r => r.2.1) e
  dsimp only at this
  rw [this]
  positivity

/-- A run that reports a calibration, whose first sample became a candidate without orientation error, reports this candidate. -/
theorem first_reported {svd : Svd} {rng : ℕ → List ℕ} {cfg : HandEyeConfig} {bs ws bf wf : List DQuat} {fuel : ℕ} {r : CalibrationResult}
    (h : ransac svd rng cfg bs ws fuel = .ok (some r)) (hs : r.success = true) (hf : filteredPoses cfg bs ws = .ok (bf, wf))
    {s : List ℕ} (hd : drawSample cfg rng wf.length 0 = .ok s)
    {c : Candidate} (hc : evaluateSample svd cfg bs ws bf wf s = .ok (.candidate c)) (h0 : c.rmse_orientation = 0) :
    r.dq_H_E = some c.dq_H_E ∧ r.num_inliers = c.num_inliers ∧ r.rmse = some (c.rmse_position, c.rmse_orientation) := by
  obtain ⟨-, -, bf', wf', st, h1, hfin, h3⟩ := ransac_some h
  rw [hf] at h1
  obtain ⟨rfl, rfl⟩ := Prod.mk.inj (Except.ok.inj h1)
  obtain ⟨samples, outs, hcourse, -, i5⟩ := finished_course hfin
  have hz := hcourse.outcomes
  have hbest : st.best = some c := by
    cases hz with
    | nil =>
      rw [i5] at h3
      simp only [List.foldl_nil, ransacResult, Except.ok.injEq] at h3
      rw [← h3] at hs
      cases hs
    | @cons s' o' samples' outs' z1 z2 =>
      have := hcourse.drawn 0 s' rfl
      rw [hd] at this
      cases this
      rw [hc] at z1
      cases z1
      rw [i5, List.foldl_cons]
      refine stays h0 fun d hd => ?_
      obtain ⟨n, hn⟩ := List.getElem?_of_mem hd
      obtain ⟨hn1, hn2⟩ := List.getElem?_eq_some_iff.mp hn
      have hz' := List.forall₂_iff_get.mp z2
      have := hz'.2 n (by rw [hz'.1]; exact hn1) hn1
      simp only [List.get_eq_getElem] at this
      rw [hn2] at this
      exact candidate_nonneg this
  rw [hbest] at h3
  have hcu : c.dq_H_E.rot.dot c.dq_H_E.rot = 1 := by
    obtain ⟨_, _, _, _, _, k, -, -, -, -, a3, a4⟩ := evaluateSample_candidate hc
    obtain ⟨cal, _, _, _, r1, -, -, -, r5, -⟩ := buildCandidate_some a4
    rw [r5]
    exact refine_rot a3 r1
  unfold ransacResult at h3
  dsimp only at h3
  rw [DQuat.toPose_unit hcu, Py.ok_bind] at h3
  rw [← Except.ok.inj h3]
  exact ⟨rfl, rfl, rfl⟩

/-- Every measurement has enough others that correspond to it, and these fit one mounting. -/
structure Clusters (tol : ℝ) (min : ℕ) (bs ws : List DQuat) (p : DQuat × DQuat) (g X : DQuat) : Prop where
  unit_g : Spec.IsUnit g
  unit_X : Spec.IsUnit X
  no_half_turn : X.rot.w ≠ 0
  fit : ∀ q ∈ bs.zip ws, Spec.Corresponds tol p q → Spec.Fits g X q
  axes : Spec.TurnsAboutTwoAxes (Spec.handsOf (Spec.Corresponds tol p) (bs.zip ws))
  enough : min ≤ Spec.number (Spec.Corresponds tol p) (bs.zip ws)

/-- What becomes of a sample whose first measurement is in such a group. -/
theorem cluster_outcome {svd : Svd} (hsvd : ∀ T s V, svd T = .ok (s, V) → Spec.IsSVD T s V)
    {cfg : HandEyeConfig} (hmode : cfg.ransac_inlier_classification = .scalarPartEquality) {tol : ℝ}
    (ht : cfg.ransac_sample_rejection_scalar_part_equality_tolerance = tol) (htol : 0 ≤ tol)
    {bs ws : List DQuat} (hl : ws.length = bs.length) (hb : ∀ a ∈ bs, Spec.IsUnit a) (hw : ∀ a ∈ ws, Spec.IsUnit a)
    {i0 : ℕ} {s : List ℕ} (hs : Spec.IsSample ws.length cfg.ransac_sample_size (i0 :: s)) {p : DQuat × DQuat}
    (hp : (bs.zip ws)[i0]? = some p) {g X : DQuat} (hcl : Clusters tol cfg.min_num_inliers bs ws p g X)
    (hsolve : ∀ B W, Spec.Exact B W X → (∀ b ∈ B, Spec.IsUnit b) → Spec.TwoAxes B → B.head? = some ⟨⟨0, 0, 0, 1⟩, ⟨0, 0, 0, 0⟩⟩ →
      ∃ r, computeHandEyeCalibration svd B W cfg.hand_eye_calibration_scalar_part_equality_tolerance = .ok r) :
    ∃ o, evaluateSample svd cfg bs ws bs ws (i0 :: s) = .ok o ∧
      ((∀ i ∈ i0 :: s, ∀ q, (bs.zip ws)[i]? = some q → Spec.Corresponds tol p q) →
        ∃ c, o = .candidate c ∧ Spec.SameUpToSign c.dq_H_E X ∧ 0 ≤ c.dq_H_E.rot.w ∧
          c.num_inliers = Spec.number (Spec.Corresponds tol p) (bs.zip ws) ∧
          ((∀ q ∈ bs.zip ws, QSame (p.1.rot.conj * q.1.rot * X.rot) (X.rot * (p.2.rot.conj * q.2.rot))) → c.rmse_orientation = 0)) := by
  obtain ⟨good, x, y, t1, t2⟩ := sampleTest_measurements ht htol hl hb hw hs hp
  obtain ⟨b1, b2⟩ := align_measurements hl hb hw hp
  obtain ⟨c1, c2, c3, c4, c5, c6⟩ := hcl
  have hpm := List.mem_of_getElem? hp
  have hp1 := hb _ (List.of_mem_zip hpm).1
  have hp2 := hw _ (List.of_mem_zip hpm).2
  obtain ⟨oc, o1, o2, o3⟩ := build_group hsvd htol c1 c2 c3 hb hw hp c4 c5 c6 (i0 :: s)
  obtain ⟨x1, x2, -, x4, x5⟩ := agreeing_exact htol c1 c2 hb hw hp c4 c5
  obtain ⟨c, rfl⟩ := o3 (hsolve _ _ x1 x2 x5 x4)
  obtain ⟨d1, d2, d3, d4⟩ := o2 c rfl
  unfold evaluateSample
  rw [t1, Py.ok_bind]
  dsimp only
  cases good with
  | false => exact ⟨_, rfl, fun h => absurd (t2 h) (by simp)⟩
  | true =>
    have hat : pyAt (i0 :: s) 0 = .ok i0 := rfl
    rw [if_pos rfl, hat, Py.ok_bind, b1, Py.ok_bind, b2, Py.ok_bind, classify_measurements hmode ht htol, Py.ok_bind]
    dsimp only
    rw [o1, Py.ok_bind]
    refine ⟨_, rfl, fun _ => ⟨c, rfl, d1, d2, d3, fun hrot => ?_⟩⟩
    by_cases hin : cfg.ransac_evaluate_refined_model_on_inliers_only = true
    · exact (d4 hin).2
    · obtain ⟨cal, pB, pW, fl, -, r2, r3, -, r5, -⟩ := buildCandidate_some o1
      rw [if_neg hin, ← r5] at r2
      have hcu : Spec.IsUnit c.dq_H_E := by
        rcases sameUpToSign_iff.mp d1 with h | h <;> rw [h]
        · exact c2
        · exact DQuat.isUnit_neg c2
      refine orientation_zero ?_ ?_ ?_ hcu ?_ r2 r3
      · intro a ha
        obtain ⟨q, hq, rfl⟩ := List.mem_map.mp ha
        exact rebase_unit (DQuat.isUnit_conj hp1) (hb _ (List.of_mem_zip (mem_turned.mp hq)).1) true
      · intro a ha
        obtain ⟨q, hq, rfl⟩ := List.mem_map.mp ha
        exact rebase_unit (DQuat.isUnit_conj hp2) (hw _ (List.of_mem_zip (mem_turned.mp hq)).2) true
      · have := head_turned hp
        rw [List.getElem?_map, ← List.head?_eq_getElem?, this, Option.map_some, rebase_self hp2]
        rfl
      · dsimp only
        rw [List.forall₂_map_left_iff, List.forall₂_map_right_iff]
        refine List.forall₂_same.mpr fun q hq => ?_
        have hq' := hrot q (mem_turned.mp hq)
        have hX : QSame c.dq_H_E.rot X.rot := by
          rcases sameUpToSign_iff.mp d1 with h | h <;> rw [h]
          · exact Or.inl rfl
          · right; simp
        refine ((rebase_rot _ _).mul hX).trans (QSame.trans ?_ (hX.mul (rebase_rot _ _)).symm)
        simpa using hq'

/-- C92 fails: RANSAC does not prefer the calibration with more inliers.  Let every measurement fit one of two mountings that differ
in translation only, those of the second being at least `min_num_inliers`, with two rotation axes, and none of the first
corresponding to them.  If the first sample happens to consist of measurements of the second mounting, the second mounting is
reported, however many measurements fit the first one: its orientation error is zero, so that no other candidate is better
in both errors. -/
theorem C92_first_wins_refuted (svd : Svd) (hsvd : ∀ T s V, svd T = .ok (s, V) → Spec.IsSVD T s V)
    (rng : ℕ → List ℕ) (cfg : HandEyeConfig) (hmode : cfg.ransac_inlier_classification = .scalarPartEquality) (tol : ℝ)
    (ht : cfg.ransac_sample_rejection_scalar_part_equality_tolerance = tol) (htol : 0 ≤ tol)
    (hpre : cfg.prefilter_poses_enabled = false) (hsize : 0 < cfg.ransac_sample_size)
    (g X g' X' : DQuat) (hg' : Spec.IsUnit g') (hX' : Spec.IsUnit X') (hXw : X'.rot.w ≠ 0)
    (hgr : g.rot = g'.rot) (hXr : X.rot = X'.rot)
    (bs ws : List DQuat) (hb : ∀ a ∈ bs, Spec.IsUnit a) (hw : ∀ a ∈ ws, Spec.IsUnit a)
    (hall : ∀ p ∈ bs.zip ws, Spec.Fits g X p ∨ Spec.Fits g' X' p)
    (hsep : ∀ p ∈ bs.zip ws, Spec.Fits g' X' p → ∀ q ∈ bs.zip ws, Spec.Corresponds tol p q → Spec.Fits g' X' q)
    (h2 : Spec.TurnsAboutTwoAxes (Spec.handsOf (Spec.Fits g' X') (bs.zip ws)))
    (hmin : cfg.min_num_inliers ≤ Spec.number (Spec.Fits g' X') (bs.zip ws))
    (hsolve : ∀ B W, Spec.Exact B W X' → (∀ b ∈ B, Spec.IsUnit b) → Spec.TwoAxes B → B.head? = some ⟨⟨0, 0, 0, 1⟩, ⟨0, 0, 0, 0⟩⟩ →
      ∃ r, computeHandEyeCalibration svd B W cfg.hand_eye_calibration_scalar_part_equality_tolerance = .ok r)
    (s : List ℕ) (hs : Spec.IsSample ws.length cfg.ransac_sample_size s) (hd : drawSample cfg rng ws.length 0 = .ok s)
    (hfirst : Spec.AllFit g' X' bs ws s) (fuel : ℕ) (r : CalibrationResult)
    (h : ransac svd rng cfg bs ws fuel = .ok (some r)) (hsucc : r.success = true) :
    ∃ dq, r.dq_H_E = some dq ∧ Spec.SameUpToSign dq X' ∧ 0 ≤ dq.rot.w ∧
      r.num_inliers = Spec.number (Spec.Fits g' X') (bs.zip ws) ∧ ∃ e, r.rmse = some (e, 0) := by
  obtain ⟨hl, -⟩ := ransac_some h
  have hf : filteredPoses cfg bs ws = .ok (bs, ws) := by
    unfold filteredPoses
    rw [hpre]
    rfl
  obtain ⟨i0, s', rfl⟩ : ∃ i0 s', s = i0 :: s' := by
    cases s with
    | nil => simp [Spec.IsSample] at hs; omega
    | cons a l => exact ⟨a, l, rfl⟩
  have hi0 : i0 < ws.length := hs.2.2 i0 List.mem_cons_self
  obtain ⟨p, hp⟩ : ∃ p, (bs.zip ws)[i0]? = some p := ⟨_, List.getElem?_eq_getElem (by rw [List.length_zip]; omega)⟩
  have hpm := List.mem_of_getElem? hp
  have hpf := hfirst i0 List.mem_cons_self p hp
  have hu : ∀ m ∈ bs.zip ws, Spec.IsUnit m.1 := fun m hm => hb _ (List.of_mem_zip hm).1
  obtain ⟨s1, s2⟩ := agree_good htol hg' hX' hu hpm hpf (hsep p hpm hpf)
  have hcl : Clusters tol cfg.min_num_inliers bs ws p g' X' :=
    ⟨hg', hX', hXw, hsep p hpm hpf, by rw [s1]; exact h2, by rw [s2]; exact hmin⟩
  obtain ⟨o, o1, o2⟩ := cluster_outcome hsvd hmode ht htol hl hb hw hs hp hcl hsolve
  obtain ⟨c, rfl, c1, c2, c3, c4⟩ := o2 fun i hi q hq =>
    fits_agree htol hg' hX' (hu p hpm) (hu q (List.mem_of_getElem? hq)) hpf (hfirst i hi q hq)
  have hrot : ∀ q ∈ bs.zip ws, q.2.rot = g'.rot * q.1.rot * X'.rot := by
    intro q hq
    rcases hall q hq with h | h <;> rw [fits_iff] at h <;> rw [h]
    · simp [hgr, hXr]
    · simp
  have h0 : c.rmse_orientation = 0 := by
    apply c4
    intro q hq
    left
    have e1 : X'.rot * X'.rot.conj = 1 := by simpa using congrArg DQuat.rot (DQuat.mul_conj_unit hX')
    have e2 : g'.rot.conj * g'.rot = 1 := by simpa using congrArg DQuat.rot (DQuat.conj_mul_unit hg')
    rw [hrot q hq, hrot p hpm]
    have e3 : ∀ a b c : Quat, (a * b * c).conj = c.conj * b.conj * a.conj := by
      intro a b c; ext <;> simp <;> ring
    rw [e3]
    calc p.1.rot.conj * q.1.rot * X'.rot
        = (X'.rot * X'.rot.conj) * p.1.rot.conj * (g'.rot.conj * g'.rot) * q.1.rot * X'.rot := by rw [e1, e2]; noncomm_ring
      _ = _ := by noncomm_ring
  obtain ⟨r1, r2, r3⟩ := first_reported h hsucc hf hd o1 h0
  exact ⟨c.dq_H_E, r1, c1, c2, by rw [r2, c3, s2], c.rmse_position, by rw [r3, h0]⟩

/-- C92, what does hold: if outliers are visible and never reach `min_num_inliers` (the hypotheses of C91), no rigid mounting fits more
measurements than the reported one has inliers.  (Missing: several mountings with enough measurements each, where it fails, see
`C92_first_wins_refuted` and `C92_majority_refuted`.) -/
theorem C92_most_inliers_partial (svd : Svd) (hsvd : ∀ T s V, svd T = .ok (s, V) → Spec.IsSVD T s V)
    (rng : ℕ → List ℕ) (cfg : HandEyeConfig) (hmode : cfg.ransac_inlier_classification = .scalarPartEquality) (tol : ℝ)
    (ht : cfg.ransac_sample_rejection_scalar_part_equality_tolerance = tol) (htol : 0 ≤ tol)
    (g X : DQuat) (hg : Spec.IsUnit g) (hX : Spec.IsUnit X) (hXw : X.rot.w ≠ 0)
    (bs ws : List DQuat) (hb : ∀ a ∈ bs, Spec.IsUnit a) (hw : ∀ a ∈ ws, Spec.IsUnit a)
    (hvis : ∀ p ∈ bs.zip ws, Spec.Fits g X p → ∀ q ∈ bs.zip ws, Spec.Corresponds tol p q → Spec.Fits g X q)
    (hfew : ∀ p ∈ bs.zip ws, ¬ Spec.Fits g X p → Spec.number (Spec.Corresponds tol p) (bs.zip ws) < cfg.min_num_inliers)
    (h2 : Spec.TurnsAboutTwoAxes (Spec.handsOf (Spec.Fits g X) (bs.zip ws)))
    (fuel : ℕ) (r : CalibrationResult) (h : ransac svd rng cfg bs ws fuel = .ok (some r)) (hs : r.success = true)
    (g' X' : DQuat) (hg' : Spec.IsUnit g') (hX' : Spec.IsUnit X') :
    Spec.number (Spec.Fits g' X') (bs.zip ws) ≤ r.num_inliers := by
  classical
  obtain ⟨dq, -, -, -, d4, -⟩ := C91_outliers svd hsvd rng cfg hmode tol ht htol g X hg hX hXw bs ws hb hw hvis hfew h2 fuel r h hs
  have hmin : cfg.min_num_inliers ≤ r.num_inliers := by
    obtain ⟨_, _, _, _, _, -, -, -, -, -, e3, e4, -⟩ := C37_best_candidate svd rng cfg bs ws fuel r h hs
    rw [e3]; exact e4
  have hu : ∀ m ∈ bs.zip ws, Spec.IsUnit m.1 := fun m hm => hb _ (List.of_mem_zip hm).1
  have mono : ∀ P Q : DQuat × DQuat → Prop, (∀ q ∈ bs.zip ws, P q → Q q) → Spec.number P (bs.zip ws) ≤ Spec.number Q (bs.zip ws) := by
    intro P Q hPQ
    refine List.countP_mono_left fun q hq hP => ?_
    exact decide_eq_true (hPQ q hq (of_decide_eq_true hP))
  by_cases hex : ∃ p ∈ bs.zip ws, Spec.Fits g X p ∧ Spec.Fits g' X' p
  · obtain ⟨p, hpm, hpf, hpf'⟩ := hex
    rw [d4]
    exact mono _ _ fun q hq hqf => hvis p hpm hpf q hq (fits_agree htol hg' hX' (hu p hpm) (hu q hq) hpf' hqf)
  · by_cases hne : ∃ p ∈ bs.zip ws, Spec.Fits g' X' p
    · obtain ⟨p, hpm, hpf'⟩ := hne
      have hpf : ¬ Spec.Fits g X p := fun h => hex ⟨p, hpm, h, hpf'⟩
      refine le_trans (le_trans (mono _ _ fun q hq hqf => ?_) (hfew p hpm hpf).le) hmin
      exact fits_agree htol hg' hX' (hu p hpm) (hu q hq) hpf' hqf
    · have : Spec.number (Spec.Fits g' X') (bs.zip ws) = 0 := by
        unfold Spec.number
        rw [List.countP_eq_zero]
        intro q hq hf
        exact hne ⟨q, hq, of_decide_eq_true hf⟩
      omega

end HandEye
