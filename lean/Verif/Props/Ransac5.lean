import Verif.Lemmas.Outliers

/-! # Property C91: RANSAC on exact measurements with outliers -/

namespace HandEye

/-- Measurements that fit the same mounting agree. -/
theorem fits_agree {tol : ℝ} (ht : 0 ≤ tol) {g X : DQuat} (hg : Spec.IsUnit g) (hX : Spec.IsUnit X) {p q : DQuat × DQuat}
    (hp : Spec.IsUnit p.1) (hq : Spec.IsUnit q.1) (hpf : Spec.Fits g X p) (hqf : Spec.Fits g X q) : Spec.Corresponds tol p q := by
  rw [fits_iff] at hpf hqf
  have hm : Spec.Mounted g X [p.1, q.1] [p.2, q.2] := by
    rw [mounted_iff, hpf, hqf]
    rfl
  have hu : ∀ a ∈ [p.1, q.1], Spec.IsUnit a := by simp [hp, hq]
  have hu' : ∀ a ∈ [p.2, q.2], Spec.IsUnit a := by
    rw [mounted_iff.mp hm]
    intro a ha
    obtain ⟨b, hb, rfl⟩ := List.mem_map.mp ha
    exact DQuat.isUnit_mul (DQuat.isUnit_mul hg (hu b hb)) hX
  obtain ⟨B, W, e1, e2, -, -, e5, -⟩ := mounted_align hg hX hu hm (k := 0) (by simp)
  rw [align_unit (pyPos_natCast (k := 0) (by simp)) hu true] at e1
  rw [align_unit (pyPos_natCast (k := 0) (by simp)) hu' true] at e2
  rw [← Except.ok.inj e1, ← Except.ok.inj e2] at e5
  simp only [List.rotate_zero, List.map_cons, List.map_nil, List.getElem_cons_zero] at e5
  rw [corresponds_iff]
  cases e5 with
  | cons _ h => cases h with
    | cons h _ => exact scalarsClose_exact hX h ht

/-- If no outlier agrees with a good measurement, those that agree with a good one are the good ones. -/
theorem agree_good {tol : ℝ} (ht : 0 ≤ tol) {g X : DQuat} (hg : Spec.IsUnit g) (hX : Spec.IsUnit X) {ms : List (DQuat × DQuat)}
    (hu : ∀ m ∈ ms, Spec.IsUnit m.1) {p : DQuat × DQuat} (hp : p ∈ ms) (hpf : Spec.Fits g X p)
    (hvis : ∀ q ∈ ms, Spec.Corresponds tol p q → Spec.Fits g X q) :
    Spec.handsOf (Spec.Corresponds tol p) ms = Spec.handsOf (Spec.Fits g X) ms ∧
      Spec.number (Spec.Corresponds tol p) ms = Spec.number (Spec.Fits g X) ms := by
  classical
  have h : ∀ q ∈ ms, (decide (Spec.Corresponds tol p q)) = decide (Spec.Fits g X q) := by
    intro q hq
    rw [decide_eq_decide]
    exact ⟨hvis q hq, fun hqf => fits_agree ht hg hX (hu p hp) (hu q hq) hpf hqf⟩
  unfold Spec.handsOf Spec.number
  refine ⟨?_, ?_⟩
  · rw [List.filter_congr h]
  · exact List.countP_congr fun q hq => by rw [h q hq]

/-- C91: some of the measurements are exact, `w = g b X`, with two rotation axes among them, and the others are anything.  If no
outlier has the scalar parts of a good measurement, seen from any good one, and seen from an outlier fewer than
`min_num_inliers` measurements have matching scalar parts, then every calibration that RANSAC (with the default classification by
scalar parts) reports is the true one, and its inliers are exactly the good measurements; whatever is drawn, with or without
the prefilter, and for any valid singular value decomposition.  If only the inliers are evaluated, both errors are zero. -/
theorem C91_outliers (svd : Svd) (hsvd : ∀ T s V, svd T = .ok (s, V) → Spec.IsSVD T s V)
    (rng : ℕ → List ℕ) (cfg : HandEyeConfig) (hmode : cfg.ransac_inlier_classification = .scalarPartEquality) (tol : ℝ)
    (ht : cfg.ransac_sample_rejection_scalar_part_equality_tolerance = tol) (htol : 0 ≤ tol)
    (g X : DQuat) (hg : Spec.IsUnit g) (hX : Spec.IsUnit X) (hXw : X.rot.w ≠ 0)
    (bs ws : List DQuat) (hb : ∀ a ∈ bs, Spec.IsUnit a) (hw : ∀ a ∈ ws, Spec.IsUnit a)
    (hvis : ∀ p ∈ bs.zip ws, Spec.Fits g X p → ∀ q ∈ bs.zip ws, Spec.Corresponds tol p q → Spec.Fits g X q)
    (hfew : ∀ p ∈ bs.zip ws, ¬ Spec.Fits g X p → Spec.number (Spec.Corresponds tol p) (bs.zip ws) < cfg.min_num_inliers)
    (h2 : Spec.TurnsAboutTwoAxes (Spec.handsOf (Spec.Fits g X) (bs.zip ws)))
    (fuel : ℕ) (r : CalibrationResult) (h : ransac svd rng cfg bs ws fuel = .ok (some r)) (hs : r.success = true) :
    ∃ dq, r.dq_H_E = some dq ∧ Spec.SameUpToSign dq X ∧ 0 ≤ dq.rot.w ∧
      r.num_inliers = Spec.number (Spec.Fits g X) (bs.zip ws) ∧
      (cfg.ransac_evaluate_refined_model_on_inliers_only = true → r.rmse = some (0, 0)) := by
  obtain ⟨hl, -⟩ := ransac_some h
  obtain ⟨bf, wf, samples, outs, c, h1, hco, hc, e1, e2, e3, -⟩ :=
    C37_best_candidate svd rng cfg bs ws fuel r h hs
  obtain ⟨n, hn⟩ := List.getElem?_of_mem hc
  have hlt : n < outs.length := (List.getElem?_eq_some_iff.mp hn).1
  have hz := List.forall₂_iff_get.mp hco.outcomes
  have hsn : n < samples.length := by rw [hz.1]; exact hlt
  have hev := hz.2 n hsn hlt
  simp only [List.get_eq_getElem] at hev
  rw [(List.getElem?_eq_some_iff.mp hn).2] at hev
  obtain ⟨sB, sW, i0, aB, aW, k, -, -, a1, a2, a3, a4⟩ := evaluateSample_candidate hev
  have hi0 : i0 < bs.length := by
    by_contra hcon
    rw [align_index_error] at a1
    · cases a1
    · unfold pyPos
      rw [if_pos (by omega), if_neg (by simpa using hcon)]
  obtain ⟨p, hp⟩ : ∃ p, (bs.zip ws)[i0]? = some p := ⟨_, List.getElem?_eq_getElem (by rw [List.length_zip]; omega)⟩
  have hpm := List.mem_of_getElem? hp
  obtain ⟨b1, b2⟩ := align_measurements hl hb hw hp
  rw [a1] at b1
  rw [a2] at b2
  cases b1
  cases b2
  rw [classify_measurements hmode ht htol] at a3
  cases a3
  by_cases hpf : Spec.Fits g X p
  · obtain ⟨s1, s2⟩ := agree_good htol hg hX (fun m hm => hb _ (List.of_mem_zip hm).1) hpm hpf (hvis p hpm hpf)
    by_cases hmin : cfg.min_num_inliers ≤ Spec.number (Spec.Corresponds tol p) (bs.zip ws)
    · obtain ⟨oc, o1, o2, -⟩ := build_group hsvd htol hg hX hXw hb hw hp (hvis p hpm hpf) (by rw [s1]; exact h2) hmin samples[n]
      rw [a4] at o1
      obtain ⟨p1, p2, p3, p4⟩ := o2 c (Except.ok.inj o1).symm
      refine ⟨c.dq_H_E, e1, p1, p2, by rw [e3, p3, s2], fun hin => ?_⟩
      rw [e2, (p4 hin).1, (p4 hin).2]
    · rw [build_few (by omega)] at a4
      cases a4
  · rw [build_few (hfew p hpm hpf)] at a4
    cases a4

open Classical in
/-- The early test of a sample: whether its measurements agree with the first one. -/
theorem sampleTest_measurements {cfg : HandEyeConfig} {tol : ℝ} (ht : cfg.ransac_sample_rejection_scalar_part_equality_tolerance = tol)
    (htol : 0 ≤ tol) {bs ws : List DQuat} (hl : ws.length = bs.length) (hb : ∀ a ∈ bs, Spec.IsUnit a) (hw : ∀ a ∈ ws, Spec.IsUnit a)
    {i0 : ℕ} {s : List ℕ} (hs : Spec.IsSample ws.length cfg.ransac_sample_size (i0 :: s)) {p : DQuat × DQuat}
    (hp : (bs.zip ws)[i0]? = some p) :
    ∃ good x y, sampleTest cfg bs ws (i0 :: s) = .ok (good, x, y) ∧
      ((∀ i ∈ i0 :: s, ∀ q, (bs.zip ws)[i]? = some q → Spec.Corresponds tol p q) → good = true) := by
  subst ht
  set SB := (i0 :: s).map fun n => bs.getD n 0 with hSB
  set SW := (i0 :: s).map fun n => ws.getD n 0 with hSW
  have key : ∀ i ∈ i0 :: s, (bs.zip ws)[i]? = some (bs.getD i 0, ws.getD i 0) := by
    intro i hi
    have := hs.2.2 i hi
    rw [List.getElem?_zip_eq_some, List.getD_eq_getElem?_getD, List.getD_eq_getElem?_getD, List.getElem?_eq_getElem (by omega),
      List.getElem?_eq_getElem (by omega)]
    exact ⟨rfl, rfl⟩
  have hz : SB.zip SW = (i0 :: s).map fun n => (bs.getD n 0, ws.getD n 0) := by rw [hSB, hSW, List.zip_map']
  have hmem : ∀ q ∈ SB.zip SW, ∃ i ∈ i0 :: s, (bs.zip ws)[i]? = some q := by
    intro q hq
    rw [hz] at hq
    obtain ⟨i, hi, rfl⟩ := List.mem_map.mp hq
    exact ⟨i, hi, key i hi⟩
  unfold sampleTest
  rw [mapM_pyAt 0 hs.2.2, Py.ok_bind, mapM_pyAt 0 (by rw [← hl]; exact hs.2.2), Py.ok_bind, ← hSB, ← hSW,
    pyAssert_pos (by rw [hSW, List.length_map]; exact hs.1), Py.ok_bind]
  split
  · have hp0 : (SB.zip SW)[0]? = some p := by
      rw [hz, List.map_cons, List.getElem?_cons_zero, ← key i0 List.mem_cons_self, hp]
    have hub : ∀ a ∈ SB, Spec.IsUnit a := by
      intro a ha
      obtain ⟨i, hi, rfl⟩ := List.mem_map.mp ha
      exact hb _ (List.of_mem_zip (List.mem_of_getElem? (key i hi))).1
    have huw : ∀ a ∈ SW, Spec.IsUnit a := by
      intro a ha
      obtain ⟨i, hi, rfl⟩ := List.mem_map.mp ha
      exact hw _ (List.of_mem_zip (List.mem_of_getElem? (key i hi))).2
    obtain ⟨e1, e2⟩ := align_measurements (by simp [hSB, hSW]) hub huw hp0
    have e1' : alignPathsAtIndex SB = .ok _ := e1
    have e2' : alignPathsAtIndex SW = .ok _ := e2
    rw [e1', Py.ok_bind, e2', Py.ok_bind, samplesMatch_eq htol, Py.ok_bind]
    refine ⟨_, _, _, rfl, fun hall => decide_eq_true ?_⟩
    rw [List.zip_map']
    intro q hq
    obtain ⟨m, hm, rfl⟩ := List.mem_map.mp hq
    obtain ⟨i, hi, hiq⟩ := hmem m (mem_turned.mp hm)
    exact corresponds_iff.mp (hall i hi m hiq)
  · exact ⟨_, _, _, rfl, fun _ => rfl⟩

/-- Without the prefilter, no sample raises an exception, and a sample of good measurements becomes a candidate. -/
theorem sample_outcome {svd : Svd} (hsvd : ∀ T s V, svd T = .ok (s, V) → Spec.IsSVD T s V)
    {cfg : HandEyeConfig} (hmode : cfg.ransac_inlier_classification = .scalarPartEquality) {tol : ℝ}
    (ht : cfg.ransac_sample_rejection_scalar_part_equality_tolerance = tol) (htol : 0 ≤ tol)
    {g X : DQuat} (hg : Spec.IsUnit g) (hX : Spec.IsUnit X) (hXw : X.rot.w ≠ 0)
    {bs ws : List DQuat} (hl : ws.length = bs.length) (hb : ∀ a ∈ bs, Spec.IsUnit a) (hw : ∀ a ∈ ws, Spec.IsUnit a)
    (hvis : ∀ p ∈ bs.zip ws, Spec.Fits g X p → ∀ q ∈ bs.zip ws, Spec.Corresponds tol p q → Spec.Fits g X q)
    (hfew : ∀ p ∈ bs.zip ws, ¬ Spec.Fits g X p → Spec.number (Spec.Corresponds tol p) (bs.zip ws) < cfg.min_num_inliers)
    (h2 : Spec.TurnsAboutTwoAxes (Spec.handsOf (Spec.Fits g X) (bs.zip ws)))
    (hmin : cfg.min_num_inliers ≤ Spec.number (Spec.Fits g X) (bs.zip ws))
    (hsolve : ∀ B W, Spec.Exact B W X → (∀ b ∈ B, Spec.IsUnit b) → Spec.TwoAxes B → B.head? = some ⟨⟨0, 0, 0, 1⟩, ⟨0, 0, 0, 0⟩⟩ →
      ∃ r, computeHandEyeCalibration svd B W cfg.hand_eye_calibration_scalar_part_equality_tolerance = .ok r)
    (hsize : 0 < cfg.ransac_sample_size) {s : List ℕ} (hs : Spec.IsSample ws.length cfg.ransac_sample_size s) :
    ∃ o, evaluateSample svd cfg bs ws bs ws s = .ok o ∧ (Spec.AllFit g X bs ws s → ∃ c, o = .candidate c) := by
  obtain ⟨i0, s', rfl⟩ : ∃ i0 s', s = i0 :: s' := by
    cases s with
    | nil => simp [Spec.IsSample] at hs; omega
    | cons a l => exact ⟨a, l, rfl⟩
  have hi0 : i0 < ws.length := hs.2.2 i0 List.mem_cons_self
  obtain ⟨p, hp⟩ : ∃ p, (bs.zip ws)[i0]? = some p := ⟨_, List.getElem?_eq_getElem (by rw [List.length_zip]; omega)⟩
  have hpm := List.mem_of_getElem? hp
  obtain ⟨good, x, y, t1, t2⟩ := sampleTest_measurements ht htol hl hb hw hs hp
  obtain ⟨b1, b2⟩ := align_measurements hl hb hw hp
  have hall : Spec.AllFit g X bs ws (i0 :: s') → good = true ∧ Spec.Fits g X p := by
    intro h
    have hpf := h i0 List.mem_cons_self p hp
    refine ⟨t2 fun i hi q hq => ?_, hpf⟩
    exact fits_agree htol hg hX (hb _ (List.of_mem_zip hpm).1) (hb _ (List.of_mem_zip (List.mem_of_getElem? hq)).1) hpf (h i hi q hq)
  unfold evaluateSample
  rw [t1, Py.ok_bind]
  dsimp only
  cases good with
  | false => exact ⟨_, rfl, fun h => absurd (hall h).1 (by simp)⟩
  | true =>
    have hat : pyAt (i0 :: s') 0 = .ok i0 := rfl
    rw [if_pos rfl, hat, Py.ok_bind, b1, Py.ok_bind, b2, Py.ok_bind, classify_measurements hmode ht htol, Py.ok_bind]
    dsimp only
    by_cases hpf : Spec.Fits g X p
    · obtain ⟨s1, s2⟩ := agree_good htol hg hX (fun m hm => hb _ (List.of_mem_zip hm).1) hpm hpf (hvis p hpm hpf)
      have h2' : Spec.TurnsAboutTwoAxes (Spec.handsOf (Spec.Corresponds tol p) (bs.zip ws)) := by rw [s1]; exact h2
      obtain ⟨oc, o1, -, o3⟩ := build_group hsvd htol hg hX hXw hb hw hp (hvis p hpm hpf) h2'
        (by rw [s2]; exact hmin) (i0 :: s')
      obtain ⟨x1, x2, -, x4, x5⟩ := agreeing_exact htol hg hX hb hw hp (hvis p hpm hpf) h2'
      obtain ⟨c, rfl⟩ := o3 (hsolve _ _ x1 x2 x5 x4)
      rw [o1, Py.ok_bind]
      exact ⟨_, rfl, fun _ => ⟨c, rfl⟩⟩
    · rw [build_few (hfew p hpm hpf), Py.ok_bind]
      exact ⟨_, rfl, fun h => absurd (hall h).2 hpf⟩

/-- If no sample raises an exception, the loop raises none. -/
theorem loop_ok {svd : Svd} {cfg : HandEyeConfig} {rng : ℕ → List ℕ} {bs ws bf wf : List DQuat}
    (hfl : cfg.ransac_sample_size ≤ wf.length) (hrng : ∀ k, Spec.IsSample wf.length cfg.ransac_sample_size (rng k))
    (hev : ∀ s, Spec.IsSample wf.length cfg.ransac_sample_size s → ∃ o, evaluateSample svd cfg bs ws bf wf s = .ok o)
    (hab : ∀ k, ∃ b, earlyAbort cfg k = .ok b) (fuel : ℕ) (st : LoopState)
    (hst : ∀ c, st.best = some c → c.dq_H_E.rot.dot c.dq_H_E.rot = 1) :
    ∃ o, ransacLoop svd cfg rng bs ws bf wf fuel st = .ok o ∧
      ∀ st' c, o = some st' → st'.best = some c → c.dq_H_E.rot.dot c.dq_H_E.rot = 1 := by
  induction fuel generalizing st with
  | zero =>
    rw [ransacLoop]
    split
    · exact ⟨_, rfl, by simp⟩
    · exact ⟨_, rfl, fun st' c h hc => hst c (by rw [Option.some.inj h]; exact hc)⟩
  | succ fuel ih =>
    rw [ransacLoop]
    split
    · next hx =>
      obtain ⟨s, hd, hs⟩ := drawSample_ok hfl hrng hx
      obtain ⟨o, ho⟩ := hev s hs
      have hstep : ∃ st₁ b, ransacStep svd cfg rng bs ws bf wf st = .ok (st₁, b) ∧
          ∀ c, st₁.best = some c → c.dq_H_E.rot.dot c.dq_H_E.rot = 1 := by
        unfold ransacStep
        rw [hd, Py.ok_bind]
        dsimp only
        rw [ho, Py.ok_bind]
        cases o with
        | prerejected => exact ⟨_, _, rfl, hst⟩
        | rejected => exact ⟨_, _, rfl, hst⟩
        | candidate c =>
          dsimp only
          obtain ⟨b, hb⟩ := hab (st.full_iterations + 1)
          rw [hb, Py.ok_bind]
          refine ⟨_, _, rfl, fun c' hc' => ?_⟩
          have hcu : c.dq_H_E.rot.dot c.dq_H_E.rot = 1 := by
            obtain ⟨_, _, _, _, _, k, -, -, -, -, a3, a4⟩ := evaluateSample_candidate ho
            obtain ⟨cal, _, _, _, r1, -, -, -, r5, -⟩ := buildCandidate_some a4
            rw [r5]
            exact refine_rot a3 r1
          dsimp only at hc'
          unfold updateBest at hc'
          split at hc'
          · rw [← Option.some.inj hc']; exact hcu
          · next bb hbb =>
            split at hc'
            · rw [← Option.some.inj hc']; exact hcu
            · exact hst c' (by rw [← hc']; exact hbb)
      obtain ⟨st₁, b, h1, h2⟩ := hstep
      dsimp only
      rw [h1, Py.ok_bind]
      dsimp only
      cases b with
      | true =>
        refine ⟨_, rfl, fun st' c h hc => h2 c ?_⟩
        rw [Option.some.inj h]; exact hc
      | false => exact ih st₁ h2
    · exact ⟨_, rfl, fun st' c h hc => hst c (by rw [Option.some.inj h]; exact hc)⟩

/-- If no sample raises an exception, RANSAC raises none. -/
theorem ransac_ok {svd : Svd} {cfg : HandEyeConfig} {rng : ℕ → List ℕ} {bs ws bf wf : List DQuat} (hl : ws.length = bs.length)
    (hn : cfg.ransac_sample_size < ws.length) (hf : filteredPoses cfg bs ws = .ok (bf, wf))
    (hfl : cfg.ransac_sample_size ≤ wf.length) (hrng : ∀ k, Spec.IsSample wf.length cfg.ransac_sample_size (rng k))
    (hev : ∀ s, Spec.IsSample wf.length cfg.ransac_sample_size s → ∃ o, evaluateSample svd cfg bs ws bf wf s = .ok o)
    (hab : ∀ k, ∃ b, earlyAbort cfg k = .ok b) (fuel : ℕ) : ∃ o, ransac svd rng cfg bs ws fuel = .ok o := by
  obtain ⟨o, h1, h2⟩ := loop_ok hfl hrng hev hab fuel {} (by simp)
  unfold ransac
  rw [pyAssert_pos hl, Py.ok_bind, pyAssert_pos hn, Py.ok_bind, hf, Py.ok_bind]
  dsimp only
  rw [h1, Py.ok_bind]
  cases o with
  | none => exact ⟨_, rfl⟩
  | some st =>
    dsimp only
    cases hb : st.best with
    | none => exact ⟨_, rfl⟩
    | some c =>
      unfold ransacResult
      dsimp only
      rw [DQuat.toPose_unit (h2 st c rfl hb)]
      exact ⟨_, rfl⟩

/-- C91, the exhaustive search: without the prefilter, if enough measurements are good and the solver returns on exact data (see
C28 for when it does), the exhaustive search ends after as many samples as there are combinations, without an exception,
and succeeds.  By `C91_outliers` the calibration that it reports is the true one. -/
theorem C91_exhaustive (svd : Svd) (hsvd : ∀ T s V, svd T = .ok (s, V) → Spec.IsSVD T s V)
    (rng : ℕ → List ℕ) (cfg : HandEyeConfig) (hmode : cfg.ransac_inlier_classification = .scalarPartEquality) (tol : ℝ)
    (ht : cfg.ransac_sample_rejection_scalar_part_equality_tolerance = tol) (htol : 0 ≤ tol)
    (hex : cfg.enable_exhaustive_search = true) (hpre : cfg.prefilter_poses_enabled = false)
    (g X : DQuat) (hg : Spec.IsUnit g) (hX : Spec.IsUnit X) (hXw : X.rot.w ≠ 0)
    (bs ws : List DQuat) (hl : ws.length = bs.length) (hb : ∀ a ∈ bs, Spec.IsUnit a) (hw : ∀ a ∈ ws, Spec.IsUnit a)
    (hvis : ∀ p ∈ bs.zip ws, Spec.Fits g X p → ∀ q ∈ bs.zip ws, Spec.Corresponds tol p q → Spec.Fits g X q)
    (hfew : ∀ p ∈ bs.zip ws, ¬ Spec.Fits g X p → Spec.number (Spec.Corresponds tol p) (bs.zip ws) < cfg.min_num_inliers)
    (h2 : Spec.TurnsAboutTwoAxes (Spec.handsOf (Spec.Fits g X) (bs.zip ws)))
    (hmin : cfg.min_num_inliers ≤ Spec.number (Spec.Fits g X) (bs.zip ws))
    (hsize : 0 < cfg.ransac_sample_size) (hgood : cfg.ransac_sample_size ≤ Spec.number (Spec.Fits g X) (bs.zip ws))
    (hn : cfg.ransac_sample_size < ws.length)
    (hsolve : ∀ B W, Spec.Exact B W X → (∀ b ∈ B, Spec.IsUnit b) → Spec.TwoAxes B → B.head? = some ⟨⟨0, 0, 0, 1⟩, ⟨0, 0, 0, 0⟩⟩ →
      ∃ r, computeHandEyeCalibration svd B W cfg.hand_eye_calibration_scalar_part_equality_tolerance = .ok r) :
    ∃ r, ransac svd rng cfg bs ws (ws.length.choose cfg.ransac_sample_size) = .ok (some r) ∧ r.success = true := by
  classical
  have hf : filteredPoses cfg bs ws = .ok (bs, ws) := by
    unfold filteredPoses
    rw [hpre]
    rfl
  have hout := fun s hs => sample_outcome hsvd hmode ht htol hg hX hXw hl hb hw hvis hfew h2 hmin hsolve hsize (s := s) hs
  have hab : ∀ k, ∃ b, earlyAbort cfg k = .ok b := by
    intro k
    unfold earlyAbort
    rw [if_neg (by rw [hex]; simp)]
    exact ⟨false, rfl⟩
  set rng' : ℕ → List ℕ := fun _ => List.range cfg.ransac_sample_size with hrng'
  have hr' : ∀ k, Spec.IsSample ws.length cfg.ransac_sample_size (rng' k) := by
    intro k
    refine ⟨by simp [hrng'], List.nodup_range, fun i hi => ?_⟩
    have := List.mem_range.mp hi
    omega
  rw [C39_deterministic svd rng rng' cfg bs ws _ hex]
  obtain ⟨o, ho⟩ := ransac_ok hl hn hf hn.le hr' (fun s hs => (hout s hs).imp fun _ h => h.1) hab
    (ws.length.choose cfg.ransac_sample_size)
  cases o with
  | none =>
    exfalso
    refine C39_terminates svd rng' cfg bs ws _ hex ?_ ho
    intro bf wf h
    rw [hf] at h
    cases h
    exact le_rfl
  | some r =>
    refine ⟨r, ho, ?_⟩
    -- the good measurements contain a sample
    obtain ⟨s, s1, s2, s3, s4⟩ : ∃ s : List ℕ, s.Pairwise (· < ·) ∧ (∀ i ∈ s, i < ws.length) ∧ s.length = cfg.ransac_sample_size ∧
        Spec.AllFit g X bs ws s := by
      set G := (List.range ws.length).filter fun i => decide (∃ q, (bs.zip ws)[i]? = some q ∧ Spec.Fits g X q) with hG
      have hlenz : (bs.zip ws).length = ws.length := by rw [List.length_zip]; omega
      have hGl : G.length = Spec.number (Spec.Fits g X) (bs.zip ws) := by
        unfold Spec.number
        have e : bs.zip ws = (List.range ws.length).map fun i => ((bs.zip ws)[i]?).getD (0, 0) := by
          apply List.ext_getElem?
          intro i
          rw [List.getElem?_map]
          by_cases hi : i < ws.length
          · rw [List.getElem?_range hi, Option.map_some, List.getElem?_eq_getElem (by omega)]
            rfl
          · rw [List.getElem?_eq_none (by omega), List.getElem?_eq_none (by simpa using hi)]
            rfl
        conv_rhs => rw [e]
        rw [List.countP_map, hG, ← List.countP_eq_length_filter]
        apply List.countP_congr
        intro i hi
        have hi' := List.mem_range.mp hi
        simp only [Function.comp, decide_eq_true_eq]
        rw [List.getElem?_eq_getElem (by omega)]
        simp
      refine ⟨G.take cfg.ransac_sample_size, ?_, ?_, ?_, ?_⟩
      · exact (List.pairwise_lt_range.sublist List.filter_sublist).sublist (List.take_sublist _ _)
      · intro i hi
        exact List.mem_range.mp (List.mem_filter.mp (List.mem_of_mem_take hi)).1
      · rw [List.length_take, hGl]; omega
      · intro i hi q hq
        have hfit := (List.mem_filter.mp (List.mem_of_mem_take hi)).2
        simp only [decide_eq_true_eq] at hfit
        obtain ⟨q', h1, h2⟩ := hfit
        rw [hq] at h1
        cases h1
        exact h2
    obtain ⟨bf, wf, samples, outs, k1, k2, -, -, k5⟩ := C39_exhaustive svd rng' cfg bs ws _ r hex ho
    obtain ⟨bf', wf', samples', outs', m1, m2, m3, -⟩ := C38_success_iff svd rng' cfg bs ws _ r ho
    rw [hf] at k1 m1
    cases k1
    cases m1
    obtain ⟨rfl, rfl⟩ := course_unique k2 m2
    rw [m3]
    have hmem := (k5 s).mpr ⟨s1, s2, s3⟩
    obtain ⟨n, hn'⟩ := List.getElem?_of_mem hmem
    obtain ⟨hlt, hns⟩ := List.getElem?_eq_some_iff.mp hn'
    have hz := List.forall₂_iff_get.mp k2.outcomes
    have hev := hz.2 n hlt (by rw [← hz.1]; exact hlt)
    simp only [List.get_eq_getElem] at hev
    rw [hns] at hev
    obtain ⟨o, o1, o2⟩ := hout s ⟨s3, s1.imp (fun h => ne_of_lt h), s2⟩
    obtain ⟨c, rfl⟩ := o2 s4
    rw [hev] at o1
    exact ⟨c, by rw [← Except.ok.inj o1]; exact List.getElem_mem _⟩

open Classical in
/-- The random search ends when enough samples have become candidates. -/
theorem loop_ends {svd : Svd} {cfg : HandEyeConfig} {rng : ℕ → List ℕ} {bs ws bf wf : List DQuat}
    (hex : cfg.enable_exhaustive_search = false) (G : List ℕ → Prop)
    (hfl : cfg.ransac_sample_size ≤ wf.length)
    (hev : ∀ k, ∃ o, evaluateSample svd cfg bs ws bf wf (rng k) = .ok o ∧ (G (rng k) → ∃ c, o = .candidate c))
    (hab : ∀ k, ∃ b, earlyAbort cfg k = .ok b) (fuel : ℕ) (st : LoopState)
    (hst : cfg.ransac_max_number_iterations ≤
      st.full_iterations + (List.range fuel).countP fun j => decide (G (rng (st.sample_number + j)))) :
    ∃ st', ransacLoop svd cfg rng bs ws bf wf fuel st = .ok (some st') := by
  induction fuel generalizing st with
  | zero =>
    rw [ransacLoop, if_neg]
    · exact ⟨_, rfl⟩
    · unfold loopCondition
      rw [hex]
      simpa using hst
  | succ fuel ih =>
    rw [ransacLoop]
    split
    · obtain ⟨o, o1, o2⟩ := hev st.sample_number
      have hd : drawSample cfg rng wf.length st.sample_number = .ok (rng st.sample_number) := by
        unfold drawSample
        rw [hex, if_neg (by simp), if_neg (by omega)]
      rw [List.range_succ_eq_map, List.countP_cons, List.countP_map, Nat.add_zero] at hst
      have hsh : ((fun j => decide (G (rng (st.sample_number + j)))) ∘ Nat.succ) =
          fun j => decide (G (rng (st.sample_number + 1 + j))) := by
        funext j
        simp only [Function.comp]
        rw [show st.sample_number + j.succ = st.sample_number + 1 + j by omega]
      rw [hsh] at hst
      dsimp only
      unfold ransacStep
      rw [hd, Py.ok_bind]
      dsimp only
      rw [o1, Py.ok_bind]
      have hno : (∀ c, o ≠ .candidate c) → ¬ G (rng st.sample_number) := by
        intro h hG
        obtain ⟨c, hc⟩ := o2 hG
        exact h c hc
      cases o with
      | prerejected =>
        rw [if_neg (by simpa using hno (by simp))] at hst
        dsimp only
        rw [Py.pure_eq, Py.ok_bind]
        exact ih _ (by simpa using hst)
      | rejected =>
        rw [if_neg (by simpa using hno (by simp))] at hst
        dsimp only
        rw [Py.pure_eq, Py.ok_bind]
        exact ih _ (by simpa using hst)
      | candidate c =>
        dsimp only
        obtain ⟨b, hb⟩ := hab (st.full_iterations + 1)
        rw [hb, Py.ok_bind, Py.pure_eq, Py.ok_bind]
        cases b with
        | true => exact ⟨_, rfl⟩
        | false =>
          refine ih _ ?_
          dsimp only
          split at hst <;> omega
    · exact ⟨_, rfl⟩

open Classical in
/-- C91, the random search: without the prefilter, if `ransac_max_number_iterations` of the samples that are drawn consist of good
measurements, the search ends (by then at the latest), without an exception, and succeeds; more generally every random search
that ends succeeds.  By `C91_outliers` the calibration that it reports is the true one. -/
theorem C91_random (svd : Svd) (hsvd : ∀ T s V, svd T = .ok (s, V) → Spec.IsSVD T s V)
    (rng : ℕ → List ℕ) (cfg : HandEyeConfig) (hmode : cfg.ransac_inlier_classification = .scalarPartEquality) (tol : ℝ)
    (ht : cfg.ransac_sample_rejection_scalar_part_equality_tolerance = tol) (htol : 0 ≤ tol)
    (hex : cfg.enable_exhaustive_search = false) (hpre : cfg.prefilter_poses_enabled = false)
    (hmax : 0 < cfg.ransac_max_number_iterations)
    (ho : 0 < cfg.ransac_outlier_probability) (ho' : cfg.ransac_outlier_probability < 1)
    (hp' : cfg.ransac_success_probability_threshold < 1)
    (g X : DQuat) (hg : Spec.IsUnit g) (hX : Spec.IsUnit X) (hXw : X.rot.w ≠ 0)
    (bs ws : List DQuat) (hl : ws.length = bs.length) (hb : ∀ a ∈ bs, Spec.IsUnit a) (hw : ∀ a ∈ ws, Spec.IsUnit a)
    (hvis : ∀ p ∈ bs.zip ws, Spec.Fits g X p → ∀ q ∈ bs.zip ws, Spec.Corresponds tol p q → Spec.Fits g X q)
    (hfew : ∀ p ∈ bs.zip ws, ¬ Spec.Fits g X p → Spec.number (Spec.Corresponds tol p) (bs.zip ws) < cfg.min_num_inliers)
    (h2 : Spec.TurnsAboutTwoAxes (Spec.handsOf (Spec.Fits g X) (bs.zip ws)))
    (hmin : cfg.min_num_inliers ≤ Spec.number (Spec.Fits g X) (bs.zip ws))
    (hsize : 0 < cfg.ransac_sample_size) (hn : cfg.ransac_sample_size < ws.length)
    (hsolve : ∀ B W, Spec.Exact B W X → (∀ b ∈ B, Spec.IsUnit b) → Spec.TwoAxes B → B.head? = some ⟨⟨0, 0, 0, 1⟩, ⟨0, 0, 0, 0⟩⟩ →
      ∃ r, computeHandEyeCalibration svd B W cfg.hand_eye_calibration_scalar_part_equality_tolerance = .ok r)
    (hrng : ∀ k, Spec.IsSample ws.length cfg.ransac_sample_size (rng k)) (fuel : ℕ) :
    (cfg.ransac_max_number_iterations ≤ ((List.range fuel).countP fun k => decide (Spec.AllFit g X bs ws (rng k))) →
      ∃ r, ransac svd rng cfg bs ws fuel = .ok (some r)) ∧
    (∃ o, ransac svd rng cfg bs ws fuel = .ok o) ∧
    ∀ r, ransac svd rng cfg bs ws fuel = .ok (some r) → r.success = true := by
  have hf : filteredPoses cfg bs ws = .ok (bs, ws) := by
    unfold filteredPoses
    rw [hpre]
    rfl
  have hout := fun s hs => sample_outcome hsvd hmode ht htol hg hX hXw hl hb hw hvis hfew h2 hmin hsolve hsize (s := s) hs
  have hab := fun k => earlyAbort_ok cfg k ho ho' hp' hsize
  obtain ⟨o, hr⟩ := ransac_ok (rng := rng) hl hn hf hn.le hrng (fun s hs => (hout s hs).imp fun _ h => h.1) hab fuel
  refine ⟨fun hcount => ?_, ⟨o, hr⟩, fun r h => ?_⟩
  · obtain ⟨st, hst⟩ := loop_ends (bs := bs) (ws := ws) (svd := svd) hex (Spec.AllFit g X bs ws) (wf := ws) (bf := bs) hn.le
      (fun k => hout _ (hrng k)) hab fuel {} (by simpa using hcount)
    cases o with
    | some r => exact ⟨r, hr⟩
    | none =>
      exfalso
      unfold ransac at hr
      rw [pyAssert_pos hl, Py.ok_bind, pyAssert_pos hn, Py.ok_bind, hf, Py.ok_bind] at hr
      dsimp only at hr
      rw [hst, Py.ok_bind] at hr
      dsimp only at hr
      obtain ⟨_, -, hr⟩ := Py.bind_eq_ok.mp hr
      cases hr
  · obtain ⟨bf, wf, samples, outs, -, m2, m3, -⟩ := C38_success_iff svd rng cfg bs ws _ r h
    rw [m3]
    rcases m2.stops with hst | ⟨-, c, hc⟩
    · unfold Spec.Exhausted at hst
      rw [hex, if_neg (by simp)] at hst
      have hpos : 0 < (outs.filter fun o => match o with
          | .candidate _ => true
          | _ => false).length := lt_of_lt_of_le hmax hst
      obtain ⟨o, ho⟩ := List.exists_mem_of_length_pos hpos
      obtain ⟨o1, o2⟩ := List.mem_filter.mp ho
      cases o with
      | prerejected => cases o2
      | rejected => cases o2
      | candidate c => exact ⟨c, o1⟩
    · exact ⟨c, List.mem_of_getLast? hc⟩

end HandEye
