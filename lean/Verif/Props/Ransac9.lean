import Verif.Lemmas.Classic

/-! # Property C103, continued: RANSAC with the classification by pose errors succeeds -/

namespace HandEye

/-- The data seen from the k-th measurement. -/
theorem seen_data {bs ws : List DQuat} (hb : ∀ a ∈ bs, Spec.IsUnit a) (hw : ∀ a ∈ ws, Spec.IsUnit a)
    {n : ℕ} {p : DQuat × DQuat} (hp : (bs.zip ws)[n]? = some p) :
    Spec.IsUnit p.1 ∧ Spec.IsUnit p.2 ∧
    (∀ a ∈ (turned bs ws n).map fun q => rebase p.1.conj true q.1, Spec.IsUnit a) ∧
    (∀ a ∈ (turned bs ws n).map fun q => rebase p.2.conj true q.2, Spec.IsUnit a) ∧
    ((turned bs ws n).map fun q => rebase p.1.conj true q.1)[0]? = some DQuat.identity ∧
    ((turned bs ws n).map fun q => rebase p.2.conj true q.2)[0]? = some DQuat.identity := by
  have hpm := List.mem_of_getElem? hp
  have hp1 := hb _ (List.of_mem_zip hpm).1
  have hp2 := hw _ (List.of_mem_zip hpm).2
  have h0 : (turned bs ws n)[0]? = some p := by rw [← List.head?_eq_getElem?]; exact head_turned hp
  refine ⟨hp1, hp2, ?_, ?_, ?_, ?_⟩
  · intro a ha
    obtain ⟨q, hq, rfl⟩ := List.mem_map.mp ha
    exact rebase_unit (DQuat.isUnit_conj hp1) (hb _ (List.of_mem_zip (mem_turned.mp hq)).1) true
  · intro a ha
    obtain ⟨q, hq, rfl⟩ := List.mem_map.mp ha
    exact rebase_unit (DQuat.isUnit_conj hp2) (hw _ (List.of_mem_zip (mem_turned.mp hq)).2) true
  · rw [List.getElem?_map, h0, Option.map_some, rebase_self hp1]
  · rw [List.getElem?_map, h0, Option.map_some, rebase_self hp2]

/-- The classification by pose errors raises no exception. -/
theorem classic_returns {svd : Svd} {cfg : HandEyeConfig} {tol : ℝ} (ht : cfg.ransac_sample_rejection_scalar_part_equality_tolerance = tol)
    (htol : 0 ≤ tol) (hsize : 2 ≤ cfg.ransac_sample_size) (hot : 0 < cfg.ransac_orientation_error_threshold_deg)
    (hpt : 0 < cfg.ransac_position_error_threshold_m) {aB aW : List DQuat} (hb : ∀ a ∈ aB, Spec.IsUnit a)
    (hw : ∀ a ∈ aW, Spec.IsUnit a) (hl : aW.length = aB.length) (hb0 : aB[0]? = some DQuat.identity)
    (hw0 : aW[0]? = some DQuat.identity) (sB sW : List DQuat) :
    ∃ o, classifyByRmse svd cfg sB sW aB aW = .ok o := by
  classical
  subst ht
  unfold classifyByRmse
  rw [pyAssert_pos hsize, Py.ok_bind]
  cases htry : tryCalibration svd cfg.hand_eye_calibration_scalar_part_equality_tolerance sB sW with
  | none => exact ⟨_, rfl⟩
  | some c =>
    obtain ⟨Y', pB, pW, rp, ro, fl, -, h1, h2, -, h4, -⟩ := evaluation_flags (fun a ha => DQuat.IsUnit.rot (hb a ha)) hw hl hb0 hw0
      (tryCalibration_rot htry) cfg.ransac_orientation_error_threshold_deg cfg.ransac_position_error_threshold_m
    have hn : aB.mapM DQuat.normalize = .ok aB := by
      rw [Py.mapM_ok (f := DQuat.normalize) (g := fun a => a) fun a ha => normalize_of_unit (hb a ha), List.map_id']
    dsimp only
    rw [h1, Py.ok_bind]
    dsimp only
    rw [hn, Py.ok_bind, h2, Py.ok_bind]
    dsimp only
    rw [pyAt_eq_ok.mpr (h4 hot hpt), Py.ok_bind, pyAssert_pos rfl, Py.ok_bind, samplesMatch_eq htol, Py.ok_bind]
    exact ⟨_, rfl⟩

/-- Nor does what follows. -/
theorem build_returns {svd : Svd} {cfg : HandEyeConfig} {tol : ℝ} (ht : cfg.ransac_sample_rejection_scalar_part_equality_tolerance = tol)
    (htol : 0 ≤ tol) {aB aW sB sW : List DQuat} (hb : ∀ a ∈ aB, Spec.IsUnit a)
    (hw : ∀ a ∈ aW, Spec.IsUnit a) (hl : aW.length = aB.length) (hb0 : aB[0]? = some DQuat.identity)
    (hw0 : aW[0]? = some DQuat.identity) {k : Classified} (hk : classifyByRmse svd cfg sB sW aB aW = .ok (some k)) (s : List ℕ) :
    ∃ o, buildCandidate svd cfg s k aW = .ok o ∧
      (cfg.min_num_inliers ≤ (compress aB k.inlier_flags).length →
        (∃ c, refine svd cfg k.initial (compress aB k.inlier_flags) (compress aW k.inlier_flags) = some c) → ∃ c, o = some c) := by
  obtain ⟨k1, k2, -, c, pB, pW, rp, ro, k4, k5, -⟩ := classifyByRmse_some ht htol hb hk
  have hhead : ∀ (l : List DQuat), l[0]? = some DQuat.identity → (compress l k.inlier_flags)[0]? = some DQuat.identity := by
    intro l h
    cases l with
    | nil => cases h
    | cons a l =>
      cases hf : k.inlier_flags with
      | nil => rw [hf] at k2; cases k2
      | cons f fl =>
        rw [hf] at k2
        rw [Option.some.inj k2, compress, if_pos rfl]
        exact h
  have hlen : (compress aB k.inlier_flags).length = (compress aW k.inlier_flags).length := by
    have : ∀ (a b : List DQuat) (f : List Bool), a.length = b.length → (compress a f).length = (compress b f).length := by
      intro a
      induction a with
      | nil => intro b f h; rw [List.length_eq_zero_iff.mp h.symm]
      | cons x a ih =>
        intro b f h
        cases b with
        | nil => cases h
        | cons y b =>
          cases f with
          | nil => rfl
          | cons f fs =>
            have := ih b fs (by simpa using h)
            rw [compress, compress]
            cases f <;> simpa using this
    exact this _ _ _ hl.symm
  unfold buildCandidate
  dsimp only
  rw [k1, pyAssert_pos hlen, Py.ok_bind]
  split
  · next hlt => exact ⟨_, rfl, fun h => by omega⟩
  · cases href : refine svd cfg k.initial (compress aB k.inlier_flags) (compress aW k.inlier_flags) with
    | none => exact ⟨_, rfl, fun _ ⟨c, hc⟩ => by cases hc⟩
    | some c' =>
      have hc' : c'.dq_H_E.rot.dot c'.dq_H_E.rot = 1 := by
        unfold refine at href
        rw [k4] at href
        split at href
        · next _ _ h => rw [← Option.some.inj href, ← Option.some.inj h]; exact tryCalibration_rot k5
        · exact tryCalibration_rot href
      dsimp only
      have hin : ∃ pB pW rp ro fl, (if cfg.ransac_evaluate_refined_model_on_inliers_only then
          getAlignedPoses (compress aB k.inlier_flags) (compress aW k.inlier_flags) c'.dq_H_E
        else getAlignedPoses aB aW c'.dq_H_E) = .ok (pB, pW) ∧
          evaluateAlignment cfg.ransac_orientation_error_threshold_deg cfg.ransac_position_error_threshold_m pB pW = .ok (rp, ro, fl) := by
        split
        · exact evaluation_returns (fun a ha => DQuat.IsUnit.rot (hb a ((compress_sublist _ _).subset ha)))
            (fun a ha => hw a ((compress_sublist _ _).subset ha)) hlen.symm (hhead _ hb0) (hhead _ hw0) hc' _ _
        · exact evaluation_returns (fun a ha => DQuat.IsUnit.rot (hb a ha)) hw hl hb0 hw0 hc' _ _
      obtain ⟨pB, pW, rp, ro, fl, h1, h2⟩ := hin
      by_cases hi : cfg.ransac_evaluate_refined_model_on_inliers_only = true
      · rw [if_pos hi] at h1 ⊢
        rw [h1, Py.ok_bind]
        dsimp only
        rw [h2, Py.ok_bind]
        exact ⟨_, rfl, fun _ _ => ⟨_, rfl⟩⟩
      · rw [if_neg hi] at h1 ⊢
        rw [h1, Py.ok_bind]
        dsimp only
        rw [h2, Py.ok_bind]
        exact ⟨_, rfl, fun _ _ => ⟨_, rfl⟩⟩

open Classical in
/-- The early test of a sample, and the sample seen from its first measurement. -/
theorem sampleTest_seen {cfg : HandEyeConfig} {tol : ℝ} (ht : cfg.ransac_sample_rejection_scalar_part_equality_tolerance = tol)
    (htol : 0 ≤ tol) (hsize : 2 ≤ cfg.ransac_sample_size)
    {bs ws : List DQuat} (hl : ws.length = bs.length) (hb : ∀ a ∈ bs, Spec.IsUnit a) (hw : ∀ a ∈ ws, Spec.IsUnit a)
    {i0 : ℕ} {s : List ℕ} (hs : Spec.IsSample ws.length cfg.ransac_sample_size (i0 :: s)) {p : DQuat × DQuat}
    (hp : (bs.zip ws)[i0]? = some p) :
    ∃ good M, sampleTest cfg bs ws (i0 :: s) = .ok (good, ((p :: M).map (seen p)).map Prod.fst, ((p :: M).map (seen p)).map Prod.snd) ∧
      (∀ q ∈ p :: M, ∃ i ∈ i0 :: s, (bs.zip ws)[i]? = some q) ∧
      (p :: M).map Prod.fst = ((i0 :: s).filterMap fun i => bs[i]?) ∧
      ((∀ q ∈ p :: M, Spec.Corresponds tol p q) → good = true) := by
  subst ht
  set f : ℕ → DQuat × DQuat := fun n => (bs.getD n 0, ws.getD n 0) with hf
  have key : ∀ i ∈ i0 :: s, (bs.zip ws)[i]? = some (f i) ∧ bs[i]? = some (f i).1 := by
    intro i hi
    have := hs.2.2 i hi
    rw [List.getElem?_zip_eq_some, hf]
    dsimp only
    rw [List.getD_eq_getElem?_getD, List.getD_eq_getElem?_getD, List.getElem?_eq_getElem (by omega),
      List.getElem?_eq_getElem (by omega)]
    exact ⟨⟨rfl, rfl⟩, rfl⟩
  have hfp : f i0 = p := by
    have := (key i0 List.mem_cons_self).1
    rw [hp] at this
    exact (Option.some.inj this).symm
  have hM : (i0 :: s).map f = p :: s.map f := by rw [List.map_cons, hfp]
  have hmem : ∀ q ∈ p :: s.map f, ∃ i ∈ i0 :: s, (bs.zip ws)[i]? = some q := by
    intro q hq
    rw [← hM] at hq
    obtain ⟨i, hi, rfl⟩ := List.mem_map.mp hq
    exact ⟨i, hi, (key i hi).1⟩
  set SB := (p :: s.map f).map Prod.fst with hSB
  set SW := (p :: s.map f).map Prod.snd with hSW
  have hz : SB.zip SW = p :: s.map f := by
    rw [hSB, hSW, List.zip_map']
    exact List.map_id' _
  have hub : ∀ a ∈ SB, Spec.IsUnit a := by
    intro a ha
    obtain ⟨q, hq, rfl⟩ := List.mem_map.mp ha
    obtain ⟨i, -, hi⟩ := hmem q hq
    exact hb _ (List.of_mem_zip (List.mem_of_getElem? hi)).1
  have huw : ∀ a ∈ SW, Spec.IsUnit a := by
    intro a ha
    obtain ⟨q, hq, rfl⟩ := List.mem_map.mp ha
    obtain ⟨i, -, hi⟩ := hmem q hq
    exact hw _ (List.of_mem_zip (List.mem_of_getElem? hi)).2
  obtain ⟨e1, e2⟩ := align_measurements (by simp [hSB, hSW]) hub huw (k := 0) (p := p) (by rw [hz]; rfl)
  have ht0 : turned SB SW 0 = p :: s.map f := by
    unfold turned
    rw [List.rotate_zero, hz]
  rw [ht0] at e1 e2
  have hB : (i0 :: s).map (fun n => bs.getD n 0) = SB := by
    rw [hSB, ← hM, List.map_map]
    rfl
  have hW : (i0 :: s).map (fun n => ws.getD n 0) = SW := by
    rw [hSW, ← hM, List.map_map]
    rfl
  refine ⟨decide (∀ q ∈ p :: s.map f, Spec.Corresponds cfg.ransac_sample_rejection_scalar_part_equality_tolerance p q), s.map f, ?_, hmem, ?_, ?_⟩
  · unfold sampleTest
    rw [mapM_pyAt 0 hs.2.2, Py.ok_bind, mapM_pyAt 0 (by rw [← hl]; exact hs.2.2), Py.ok_bind, hB, hW,
      pyAssert_pos (by rw [← hW, List.length_map]; exact hs.1), Py.ok_bind, if_pos (by omega)]
    have e1' : alignPathsAtIndex SB = .ok _ := e1
    have e2' : alignPathsAtIndex SW = .ok _ := e2
    rw [e1', Py.ok_bind, e2', Py.ok_bind, samplesMatch_eq htol, Py.ok_bind, Py.pure_eq, List.map_map, List.map_map]
    congr 2
    rw [decide_eq_decide, List.zip_map', List.forall_mem_map]
    exact forall₂_congr fun q _ => corresponds_iff.symm
  · rw [← hM, List.map_map, ← List.filterMap_eq_map]
    exact List.filterMap_congr fun i hi => ((key i hi).2).symm
  · exact fun h => decide_eq_true h

/-- Which measurements are flagged, with the true calibration, seen from a good one: the good ones. -/
theorem good_flags {g X : DQuat} (hg : Spec.IsUnit g) (hX : Spec.IsUnit X)
    {p q : DQuat × DQuat} (hp : Spec.IsUnit p.1 ∧ Spec.IsUnit p.2) (hq : Spec.IsUnit q.1 ∧ Spec.IsUnit q.2) (hpf : Spec.Fits g X p)
    {ot pt : ℝ} (hot : 0 < ot) (hpt : 0 < pt) (hclear : ¬ Spec.Fits g X q → Spec.ClearlyWrong ot pt X p q)
    {Y Y' : DQuat} (hY : Y = X ∨ Y = -X) (hi : Y.inverse = .ok Y') {d : DQuat} {e : ℝ × ℝ}
    (hd : d = Y * (seen p q).2 * Y' ∨ d = -(Y * (seen p q).2 * Y')) (hdu : d.rot.dot d.rot = 1)
    (he : computePoseError (unitPose (seen p q).1) (unitPose d) = .ok e) : (e.1 < pt ∧ e.2 < ot) ↔ Spec.Fits g X q := by
  have hY' : Y' = X.conj ∨ Y' = -X.conj := by
    rcases hY with rfl | rfl
    · rw [DQuat.inverse_unit hX] at hi
      exact Or.inl (Except.ok.inj hi).symm
    · rw [DQuat.inverse_unit (DQuat.isUnit_neg hX)] at hi
      right
      rw [← Except.ok.inj hi]
      exact DQuat.ext' (by simp) (by simp)
  have hw2 : (seen p q).2 = p.2.conj * q.2 ∨ (seen p q).2 = -(p.2.conj * q.2) := rebase_eq_or p.2.conj q.2 true
  have hb2 : (seen p q).1 = p.1.conj * q.1 ∨ (seen p q).1 = -(p.1.conj * q.1) := rebase_eq_or p.1.conj q.1 true
  have hbu : Spec.IsUnit (seen p q).1 := rebase_unit (DQuat.isUnit_conj hp.1) hq.1 true
  have hdE : d = X * (p.2.conj * q.2) * X.conj ∨ d = -(X * (p.2.conj * q.2) * X.conj) :=
    pm_trans hd (pm_mul (pm_mul hY hw2) hY')
  constructor
  · intro hfl
    by_contra hnf
    obtain ⟨a, a1, a2⟩ := unitPose_error (DQuat.IsUnit.rot hbu) hdu hb2 hdE
    rw [he] at a1
    rw [Except.ok.inj a1] at hfl
    rcases hclear hnf with h | ⟨h, h'⟩
    · exact absurd hfl.1 (not_lt.mpr h)
    · rcases a2 with a2 | a2
      · dsimp only at hfl
        rw [a2] at hfl
        exact absurd hfl.2 (not_lt.mpr h)
      · exact absurd h' (not_lt.mpr a2)
  · intro hqf
    have hE : X * (p.2.conj * q.2) * X.conj = p.1.conj * q.1 := by
      rw [fits_iff.mp hpf, fits_iff.mp hqf, DQuat.conj_mul_rev, DQuat.conj_mul_rev]
      calc X * (X.conj * (p.1.conj * g.conj) * (g * q.1 * X)) * X.conj
          = (X * X.conj) * p.1.conj * (g.conj * g) * q.1 * (X * X.conj) := by simp only [mul_assoc]
        _ = p.1.conj * q.1 := by rw [DQuat.mul_conj_unit hX, DQuat.conj_mul_unit hg, one_mul, mul_one, mul_one]
    rw [hE] at hdE
    have hsame : d = (seen p q).1 ∨ d = -(seen p q).1 := by
      refine pm_trans hdE ?_
      rcases hb2 with h | h
      · exact Or.inl h.symm
      · right; rw [h, neg_neg]
    rw [unitPose_same (DQuat.IsUnit.rot hbu) hsame] at he
    rw [← Except.ok.inj he]
    exact ⟨hpt, hot⟩

/-- On a group of good measurements with two axes the solver finds the mounting. -/
theorem solve_group {svd : Svd} (hsvd : ∀ T s V, svd T = .ok (s, V) → Spec.IsSVD T s V) {tol : ℝ}
    {g X : DQuat} (hg : Spec.IsUnit g) (hX : Spec.IsUnit X) (hXw : X.rot.w ≠ 0)
    (hsolve : ∀ B W, Spec.Exact B W X → (∀ b ∈ B, Spec.IsUnit b) → Spec.TwoAxes B → B.head? = some ⟨⟨0, 0, 0, 1⟩, ⟨0, 0, 0, 0⟩⟩ →
      ∃ r, computeHandEyeCalibration svd B W tol = .ok r)
    {p : DQuat × DQuat} {S : List (DQuat × DQuat)} (hu : ∀ q ∈ p :: S, Spec.IsUnit q.1 ∧ Spec.IsUnit q.2)
    (hfit : ∀ q ∈ p :: S, Spec.Fits g X q) (h2 : Spec.TurnsAboutTwoAxes ((p :: S).map Prod.fst)) :
    ∃ c, tryCalibration svd tol (((p :: S).map (seen p)).map Prod.fst) (((p :: S).map (seen p)).map Prod.snd) = some c ∧
      (c.dq_H_E = X ∨ c.dq_H_E = -X) := by
  obtain ⟨a1, a2, a3, a4, a5⟩ := group_exact hg hX hu hfit h2
  obtain ⟨r, hr⟩ := hsolve _ _ a1 a2 a5 a4
  have hrec := sameUpToSign_iff.mp (C27_exact_recovery svd hsvd _ _ X hX a1 a5 (Or.inl hXw) _ _ r hr).1
  have hru : Spec.IsUnit r.dq_H_E := by
    rcases hrec with h | h <;> rw [h]
    · exact hX
    · exact DQuat.isUnit_neg hX
  refine ⟨{ r with dq_H_E := r.dq_H_E }, ?_, hrec⟩
  unfold tryCalibration
  rw [hr]
  simp only [Py.ok_bind, normalize_of_unit hru, Py.pure_eq]

open Classical in
/-- The classification with the true calibration, seen from a good measurement: the good measurements are the inliers. -/
theorem classify_good {svd : Svd} {cfg : HandEyeConfig} {tol : ℝ} (ht : cfg.ransac_sample_rejection_scalar_part_equality_tolerance = tol)
    (htol : 0 ≤ tol) (hsize : 2 ≤ cfg.ransac_sample_size) (hot : 0 < cfg.ransac_orientation_error_threshold_deg)
    (hpt : 0 < cfg.ransac_position_error_threshold_m)
    {g X : DQuat} (hg : Spec.IsUnit g) (hX : Spec.IsUnit X)
    {bs ws : List DQuat} (hb : ∀ a ∈ bs, Spec.IsUnit a) (hw : ∀ a ∈ ws, Spec.IsUnit a)
    {n : ℕ} {p : DQuat × DQuat} (hp : (bs.zip ws)[n]? = some p) (hpf : Spec.Fits g X p)
    (hclear : ∀ q ∈ bs.zip ws, ¬ Spec.Fits g X q →
      Spec.ClearlyWrong cfg.ransac_orientation_error_threshold_deg cfg.ransac_position_error_threshold_m X p q)
    {sB sW : List DQuat} {c : Calibration}
    (hc : tryCalibration svd cfg.hand_eye_calibration_scalar_part_equality_tolerance sB sW = some c)
    (hcX : c.dq_H_E = X ∨ c.dq_H_E = -X) :
    classifyByRmse svd cfg sB sW ((turned bs ws n).map fun q => rebase p.1.conj true q.1)
      ((turned bs ws n).map fun q => rebase p.2.conj true q.2) = .ok (some ⟨some c,
        (turned bs ws n).map fun q => rebase p.1.conj true q.1, (turned bs ws n).map fun q => decide (Spec.Fits g X q)⟩) := by
  subst ht
  obtain ⟨hp1, hp2, d1, d2, d3, d4⟩ := seen_data hb hw hp
  set T := turned bs ws n with hT
  have hTm : ∀ q ∈ T, q ∈ bs.zip ws ∧ Spec.IsUnit q.1 ∧ Spec.IsUnit q.2 := by
    intro q hq
    have := mem_turned.mp hq
    exact ⟨this, hb _ (List.of_mem_zip this).1, hw _ (List.of_mem_zip this).2⟩
  obtain ⟨Y', pB, pW, rp, ro, fl, h0, h1, h2, h3, h4, h5⟩ := evaluation_flags (fun a ha => DQuat.IsUnit.rot (d1 a ha)) d2 (by simp) d3 d4
    (tryCalibration_rot hc) cfg.ransac_orientation_error_threshold_deg cfg.ransac_position_error_threshold_m
  have hfl : fl = T.map fun q => decide (Spec.Fits g X q) := by
    apply List.ext_getElem
    · rw [h3, List.length_map, List.length_map]
    · intro j j1 j2
      have jT : j < T.length := by simpa using j2
      have hq := hTm _ (List.getElem_mem jT)
      obtain ⟨d, e, k1, k2, k3, k4⟩ := h5 j (seen p T[j]).1 (seen p T[j]).2
        (by rw [List.getElem?_map, List.getElem?_eq_getElem jT]; rfl) (by rw [List.getElem?_map, List.getElem?_eq_getElem jT]; rfl)
      rw [good_flags hg hX ⟨hp1, hp2⟩ hq.2 hpf hot hpt (hclear _ hq.1) hcX h0 k1 k2 k3, List.getElem?_eq_getElem j1] at k4
      rw [List.getElem_map]
      by_cases hf : Spec.Fits g X T[j]
      · rw [decide_eq_true hf]
        exact Option.some.inj (k4.mpr hf)
      · rw [decide_eq_false hf]
        by_contra hne
        exact hf (k4.mp (by rw [Bool.eq_true_of_not_eq_false hne]))
  have hn : (T.map fun q => rebase p.1.conj true q.1).mapM DQuat.normalize = .ok (T.map fun q => rebase p.1.conj true q.1) := by
    rw [Py.mapM_ok (f := DQuat.normalize) (g := fun a => a) fun a ha => normalize_of_unit (d1 a ha), List.map_id']
  unfold classifyByRmse
  rw [pyAssert_pos hsize, Py.ok_bind, hc]
  dsimp only
  rw [h1, Py.ok_bind]
  dsimp only
  rw [hn, Py.ok_bind, h2, Py.ok_bind]
  dsimp only
  rw [pyAt_eq_ok.mpr (h4 hot hpt), Py.ok_bind, pyAssert_pos rfl, Py.ok_bind, samplesMatch_eq htol, Py.ok_bind, Py.pure_eq, hfl]
  congr 1
  rw [if_pos]
  apply decide_eq_true
  rw [compress_map, compress_map, List.zip_map', List.forall_mem_map]
  intro q hq
  obtain ⟨q1, q2⟩ := List.mem_filter.mp hq
  exact corresponds_iff.mp (fits_agree htol hg hX hp1 (hTm q q1).2.1 hpf (of_decide_eq_true q2))

/-- Without the prefilter, no sample raises an exception, and a sample of good measurements with two axes becomes a candidate. -/
theorem classic_outcome {svd : Svd} (hsvd : ∀ T s V, svd T = .ok (s, V) → Spec.IsSVD T s V)
    {cfg : HandEyeConfig} (hmode : cfg.ransac_inlier_classification = .rmseThreshold)
    (href : cfg.ransac_model_refinement = true) {tol : ℝ}
    (ht : cfg.ransac_sample_rejection_scalar_part_equality_tolerance = tol) (htol : 0 ≤ tol)
    (hsize : 2 ≤ cfg.ransac_sample_size) (hot : 0 < cfg.ransac_orientation_error_threshold_deg)
    (hpt : 0 < cfg.ransac_position_error_threshold_m)
    {g X : DQuat} (hg : Spec.IsUnit g) (hX : Spec.IsUnit X) (hXw : X.rot.w ≠ 0)
    {bs ws : List DQuat} (hl : ws.length = bs.length) (hb : ∀ a ∈ bs, Spec.IsUnit a) (hw : ∀ a ∈ ws, Spec.IsUnit a)
    (h2 : Spec.TurnsAboutTwoAxes (Spec.handsOf (Spec.Fits g X) (bs.zip ws)))
    (hmin : cfg.min_num_inliers ≤ Spec.number (Spec.Fits g X) (bs.zip ws))
    (hclear : ∀ p ∈ bs.zip ws, Spec.Fits g X p → ∀ q ∈ bs.zip ws, ¬ Spec.Fits g X q →
      Spec.ClearlyWrong cfg.ransac_orientation_error_threshold_deg cfg.ransac_position_error_threshold_m X p q)
    (hsolve : ∀ B W, Spec.Exact B W X → (∀ b ∈ B, Spec.IsUnit b) → Spec.TwoAxes B → B.head? = some ⟨⟨0, 0, 0, 1⟩, ⟨0, 0, 0, 0⟩⟩ →
      ∃ r, computeHandEyeCalibration svd B W cfg.hand_eye_calibration_scalar_part_equality_tolerance = .ok r)
    {s : List ℕ} (hs : Spec.IsSample ws.length cfg.ransac_sample_size s) :
    ∃ o, evaluateSample svd cfg bs ws bs ws s = .ok o ∧ (Spec.TellingSample g X bs ws s → ∃ c, o = .candidate c) := by
  classical
  obtain ⟨i0, s', rfl⟩ : ∃ i0 s', s = i0 :: s' := by
    cases s with
    | nil => simp [Spec.IsSample] at hs; omega
    | cons a l => exact ⟨a, l, rfl⟩
  have hi0 : i0 < ws.length := hs.2.2 i0 List.mem_cons_self
  obtain ⟨p, hp⟩ : ∃ p, (bs.zip ws)[i0]? = some p := ⟨_, List.getElem?_eq_getElem (by rw [List.length_zip]; omega)⟩
  have hpm := List.mem_of_getElem? hp
  obtain ⟨hp1, hp2, d1, d2, d3, d4⟩ := seen_data hb hw hp
  obtain ⟨good, M, t1, t2, t3, t4⟩ := sampleTest_seen ht htol hsize hl hb hw hs hp
  obtain ⟨b1, b2⟩ := align_measurements hl hb hw hp
  have hunit : ∀ q ∈ bs.zip ws, Spec.IsUnit q.1 ∧ Spec.IsUnit q.2 := fun q hq => ⟨hb _ (List.of_mem_zip hq).1, hw _ (List.of_mem_zip hq).2⟩
  have hall : Spec.AllFit g X bs ws (i0 :: s') → (∀ q ∈ p :: M, Spec.Fits g X q) ∧ good = true := by
    intro h
    have hf : ∀ q ∈ p :: M, Spec.Fits g X q := by
      intro q hq
      obtain ⟨i, hi, hiq⟩ := t2 q hq
      exact h i hi q hiq
    refine ⟨hf, t4 fun q hq => ?_⟩
    obtain ⟨i, -, hiq⟩ := t2 q hq
    exact fits_agree htol hg hX hp1 (hunit q (List.mem_of_getElem? hiq)).1 (hf p List.mem_cons_self) (hf q hq)
  unfold evaluateSample
  rw [t1, Py.ok_bind]
  dsimp only
  cases good with
  | false => exact ⟨_, rfl, fun h => absurd (hall h.1).2 (by simp)⟩
  | true =>
    have hat : pyAt (i0 :: s') 0 = .ok i0 := rfl
    rw [if_pos rfl, hat, Py.ok_bind, b1, Py.ok_bind, b2, Py.ok_bind]
    unfold classify
    rw [hmode]
    dsimp only
    obtain ⟨o, ho⟩ := classic_returns (svd := svd) ht htol hsize hot hpt d1 d2 (by simp) d3 d4 (((p :: M).map (seen p)).map Prod.fst)
      (((p :: M).map (seen p)).map Prod.snd)
    have hgood : Spec.TellingSample g X bs ws (i0 :: s') → Spec.Fits g X p ∧ ∃ c, o = some ⟨some c,
        (turned bs ws i0).map fun q => rebase p.1.conj true q.1, (turned bs ws i0).map fun q => decide (Spec.Fits g X q)⟩ := by
      rintro ⟨h, h2'⟩
      obtain ⟨hf, -⟩ := hall h
      obtain ⟨c, c1, c2⟩ := solve_group hsvd hg hX hXw hsolve (fun q hq => by
        obtain ⟨i, -, hiq⟩ := t2 q hq
        exact hunit q (List.mem_of_getElem? hiq)) hf (by rw [t3]; exact h2')
      have hpf := hf p List.mem_cons_self
      have := classify_good ht htol hsize hot hpt hg hX hb hw hp hpf (hclear p hpm hpf) c1 c2
      rw [ho] at this
      exact ⟨hpf, c, Except.ok.inj this⟩
    rw [ho, Py.ok_bind]
    cases o with
    | none => exact ⟨_, rfl, fun h => by obtain ⟨-, c, hc⟩ := hgood h; cases hc⟩
    | some k =>
      dsimp only
      obtain ⟨oc, o1, o2⟩ := build_returns ht htol d1 d2 (by simp) d3 d4 ho (i0 :: s')
      rw [o1, Py.ok_bind]
      cases oc with
      | some c => exact ⟨_, rfl, fun _ => ⟨c, rfl⟩⟩
      | none =>
        refine ⟨_, rfl, fun h => ?_⟩
        exfalso
        obtain ⟨hpf, c, hc⟩ := hgood h
        cases hc
        obtain ⟨L, hL⟩ : ∃ L, turned bs ws i0 = p :: L := by
          have := head_turned hp
          cases h : turned bs ws i0 with
          | nil => rw [h] at this; cases this
          | cons a l =>
            rw [h] at this
            exact ⟨l, by rw [Option.some.inj this]⟩
        have hF : (turned bs ws i0).filter (fun q => decide (Spec.Fits g X q)) = p :: L.filter fun q => decide (Spec.Fits g X q) := by
          rw [hL, List.filter_cons, if_pos (decide_eq_true hpf)]
        have hfm : ∀ q ∈ p :: L.filter (fun q => decide (Spec.Fits g X q)), q ∈ bs.zip ws ∧ Spec.Fits g X q := by
          intro q hq
          rw [← hF] at hq
          obtain ⟨q1, q2⟩ := List.mem_filter.mp hq
          exact ⟨mem_turned.mp q1, of_decide_eq_true q2⟩
        have hturns : Spec.TurnsAboutTwoAxes ((p :: L.filter fun q => decide (Spec.Fits g X q)).map Prod.fst) := by
          obtain ⟨a, ha, b, hb', c', hc', hne⟩ := h2
          have tr : ∀ x ∈ Spec.handsOf (Spec.Fits g X) (bs.zip ws), x ∈ (p :: L.filter fun q => decide (Spec.Fits g X q)).map Prod.fst := by
            intro x hx
            obtain ⟨q, hq, rfl⟩ := List.mem_map.mp hx
            obtain ⟨q1, q2⟩ := List.mem_filter.mp hq
            rw [← hF]
            exact List.mem_map.mpr ⟨q, List.mem_filter.mpr ⟨mem_turned.mpr q1, q2⟩, rfl⟩
          exact ⟨a, tr a ha, b, tr b hb', c', tr c' hc', hne⟩
        obtain ⟨cal, r1, -⟩ := solve_group hsvd hg hX hXw hsolve (fun q hq => hunit q (hfm q hq).1) (fun q hq => (hfm q hq).2) hturns
        obtain ⟨x, hx⟩ := o2 (by
            dsimp only
            rw [compress_map, List.length_map, ← List.countP_eq_length_filter]
            refine le_trans hmin (le_of_eq ?_)
            exact ((List.rotate_perm _ _).countP_eq _).symm) ⟨cal, by
            dsimp only
            rw [compress_map, compress_map, hF]
            rw [List.map_map, List.map_map] at r1
            unfold refine
            rw [href]
            exact r1⟩
        cases hx

/-- C103, the exhaustive search: without the prefilter, if enough measurements are good, every outlier is clearly wrong seen from
every good measurement, some sample of good measurements turns about two axes, and the solver returns on exact data (see
C28 for when it does), the exhaustive search ends after as many samples as there are combinations, without an exception, and
succeeds: also the samples with outliers, whose calibrations may be anything, raise no exception.  By `C103_outliers` the
calibration that it reports is the true one. -/
theorem C103_exhaustive (svd : Svd) (hsvd : ∀ T s V, svd T = .ok (s, V) → Spec.IsSVD T s V)
    (rng : ℕ → List ℕ) (cfg : HandEyeConfig) (hmode : cfg.ransac_inlier_classification = .rmseThreshold)
    (href : cfg.ransac_model_refinement = true) (tol : ℝ)
    (ht : cfg.ransac_sample_rejection_scalar_part_equality_tolerance = tol) (htol : 0 ≤ tol)
    (hsize : 2 ≤ cfg.ransac_sample_size) (hot : 0 < cfg.ransac_orientation_error_threshold_deg)
    (hpt : 0 < cfg.ransac_position_error_threshold_m)
    (hex : cfg.enable_exhaustive_search = true) (hpre : cfg.prefilter_poses_enabled = false)
    (g X : DQuat) (hg : Spec.IsUnit g) (hX : Spec.IsUnit X) (hXw : X.rot.w ≠ 0)
    (bs ws : List DQuat) (hl : ws.length = bs.length) (hb : ∀ a ∈ bs, Spec.IsUnit a) (hw : ∀ a ∈ ws, Spec.IsUnit a)
    (h2 : Spec.TurnsAboutTwoAxes (Spec.handsOf (Spec.Fits g X) (bs.zip ws)))
    (hmin : cfg.min_num_inliers ≤ Spec.number (Spec.Fits g X) (bs.zip ws))
    (hclear : ∀ p ∈ bs.zip ws, Spec.Fits g X p → ∀ q ∈ bs.zip ws, ¬ Spec.Fits g X q →
      Spec.ClearlyWrong cfg.ransac_orientation_error_threshold_deg cfg.ransac_position_error_threshold_m X p q)
    (hn : cfg.ransac_sample_size < ws.length)
    (hsolve : ∀ B W, Spec.Exact B W X → (∀ b ∈ B, Spec.IsUnit b) → Spec.TwoAxes B → B.head? = some ⟨⟨0, 0, 0, 1⟩, ⟨0, 0, 0, 0⟩⟩ →
      ∃ r, computeHandEyeCalibration svd B W cfg.hand_eye_calibration_scalar_part_equality_tolerance = .ok r)
    (hgood : ∃ s, List.Pairwise (· < ·) s ∧ (∀ i ∈ s, i < ws.length) ∧ s.length = cfg.ransac_sample_size ∧ Spec.TellingSample g X bs ws s) :
    ∃ r, ransac svd rng cfg bs ws (ws.length.choose cfg.ransac_sample_size) = .ok (some r) ∧ r.success = true := by
  classical
  have hf : filteredPoses cfg bs ws = .ok (bs, ws) := by
    unfold filteredPoses
    rw [hpre]
    rfl
  have hout := fun s hs => classic_outcome hsvd hmode href ht htol hsize hot hpt hg hX hXw hl hb hw h2 hmin hclear hsolve (s := s) hs
  have hab : ∀ k, ∃ b, earlyAbort cfg k = .ok b := by
    intro k
    unfold earlyAbort
    rw [if_neg (by rw [hex]; simp)]
    exact ⟨false, rfl⟩
  set rng' : ℕ → List ℕ := fun _ => List.range cfg.ransac_sample_size with hrng'
  have hr' : ∀ k, Spec.IsSample ws.length cfg.ransac_sample_size (rng' k) := by
    intro k
    refine ⟨by simp [hrng'], List.nodup_range, fun i hi => ?_⟩
    have := List.mem_range.mp hi
    omega
  rw [C39_deterministic svd rng rng' cfg bs ws _ hex]
  obtain ⟨o, ho⟩ := ransac_ok hl hn hf hn.le hr' (fun s hs => (hout s hs).imp fun _ h => h.1) hab
    (ws.length.choose cfg.ransac_sample_size)
  cases o with
  | none =>
    exfalso
    refine C39_terminates svd rng' cfg bs ws _ hex ?_ ho
    intro bf wf h
    rw [hf] at h
    cases h
    exact le_rfl
  | some r =>
    refine ⟨r, ho, ?_⟩
    obtain ⟨s, s1, s2, s3, s4⟩ := hgood
    obtain ⟨bf, wf, samples, outs, k1, k2, -, -, k5⟩ := C39_exhaustive svd rng' cfg bs ws _ r hex ho
    obtain ⟨bf', wf', samples', outs', m1, m2, m3, -⟩ := C38_success_iff svd rng' cfg bs ws _ r ho
    rw [hf] at k1 m1
    cases k1
    cases m1
    obtain ⟨rfl, rfl⟩ := course_unique k2 m2
    rw [m3]
    have hmem := (k5 s).mpr ⟨s1, s2, s3⟩
    obtain ⟨n, hn'⟩ := List.getElem?_of_mem hmem
    obtain ⟨hlt, hns⟩ := List.getElem?_eq_some_iff.mp hn'
    have hz := List.forall₂_iff_get.mp k2.outcomes
    have hev := hz.2 n hlt (by rw [← hz.1]; exact hlt)
    simp only [List.get_eq_getElem] at hev
    rw [hns] at hev
    obtain ⟨o, o1, o2⟩ := hout s ⟨s3, s1.imp (fun h => ne_of_lt h), s2⟩
    obtain ⟨c, rfl⟩ := o2 s4
    rw [hev] at o1
    exact ⟨c, by rw [← Except.ok.inj o1]; exact List.getElem_mem _⟩

open Classical in
/-- C103, the random search: without the prefilter, if `ransac_max_number_iterations` of the samples that are drawn consist of good
measurements that turn about two axes, the search ends (by then at the latest); it raises no exception, whatever is drawn, and if it
ends, it succeeds.  By `C103_outliers` the calibration that it reports is the true one. -/
theorem C103_random (svd : Svd) (hsvd : ∀ T s V, svd T = .ok (s, V) → Spec.IsSVD T s V)
    (rng : ℕ → List ℕ) (cfg : HandEyeConfig) (hmode : cfg.ransac_inlier_classification = .rmseThreshold)
    (href : cfg.ransac_model_refinement = true) (tol : ℝ)
    (ht : cfg.ransac_sample_rejection_scalar_part_equality_tolerance = tol) (htol : 0 ≤ tol)
    (hsize : 2 ≤ cfg.ransac_sample_size) (hot : 0 < cfg.ransac_orientation_error_threshold_deg)
    (hpt : 0 < cfg.ransac_position_error_threshold_m)
    (hex : cfg.enable_exhaustive_search = false) (hpre : cfg.prefilter_poses_enabled = false)
    (hmax : 0 < cfg.ransac_max_number_iterations)
    (ho : 0 < cfg.ransac_outlier_probability) (ho' : cfg.ransac_outlier_probability < 1)
    (hp' : cfg.ransac_success_probability_threshold < 1)
    (g X : DQuat) (hg : Spec.IsUnit g) (hX : Spec.IsUnit X) (hXw : X.rot.w ≠ 0)
    (bs ws : List DQuat) (hl : ws.length = bs.length) (hb : ∀ a ∈ bs, Spec.IsUnit a) (hw : ∀ a ∈ ws, Spec.IsUnit a)
    (h2 : Spec.TurnsAboutTwoAxes (Spec.handsOf (Spec.Fits g X) (bs.zip ws)))
    (hmin : cfg.min_num_inliers ≤ Spec.number (Spec.Fits g X) (bs.zip ws))
    (hclear : ∀ p ∈ bs.zip ws, Spec.Fits g X p → ∀ q ∈ bs.zip ws, ¬ Spec.Fits g X q →
      Spec.ClearlyWrong cfg.ransac_orientation_error_threshold_deg cfg.ransac_position_error_threshold_m X p q)
    (hn : cfg.ransac_sample_size < ws.length)
    (hsolve : ∀ B W, Spec.Exact B W X → (∀ b ∈ B, Spec.IsUnit b) → Spec.TwoAxes B → B.head? = some ⟨⟨0, 0, 0, 1⟩, ⟨0, 0, 0, 0⟩⟩ →
      ∃ r, computeHandEyeCalibration svd B W cfg.hand_eye_calibration_scalar_part_equality_tolerance = .ok r)
    (hrng : ∀ k, Spec.IsSample ws.length cfg.ransac_sample_size (rng k)) (fuel : ℕ) :
    (cfg.ransac_max_number_iterations ≤ ((List.range fuel).countP fun k => decide (Spec.TellingSample g X bs ws (rng k))) →
      ∃ r, ransac svd rng cfg bs ws fuel = .ok (some r)) ∧
    (∃ o, ransac svd rng cfg bs ws fuel = .ok o) ∧
    ∀ r, ransac svd rng cfg bs ws fuel = .ok (some r) → r.success = true := by
  have hf : filteredPoses cfg bs ws = .ok (bs, ws) := by
    unfold filteredPoses
    rw [hpre]
    rfl
  have hout := fun s hs => classic_outcome hsvd hmode href ht htol hsize hot hpt hg hX hXw hl hb hw h2 hmin hclear hsolve (s := s) hs
  have hab := fun k => earlyAbort_ok cfg k ho ho' hp' (by omega)
  obtain ⟨o, hr⟩ := ransac_ok (rng := rng) hl hn hf hn.le hrng (fun s hs => (hout s hs).imp fun _ h => h.1) hab fuel
  refine ⟨fun hcount => ?_, ⟨o, hr⟩, fun r h => ?_⟩
  · obtain ⟨st, hst⟩ := loop_ends (bs := bs) (ws := ws) (svd := svd) hex (Spec.TellingSample g X bs ws) (wf := ws) (bf := bs) hn.le
      (fun k => hout _ (hrng k)) hab fuel {} (by simpa using hcount)
    cases o with
    | some r => exact ⟨r, hr⟩
    | none =>
      exfalso
      unfold ransac at hr
      rw [pyAssert_pos hl, Py.ok_bind, pyAssert_pos hn, Py.ok_bind, hf, Py.ok_bind] at hr
      dsimp only at hr
      rw [hst, Py.ok_bind] at hr
      dsimp only at hr
      obtain ⟨_, -, hr⟩ := Py.bind_eq_ok.mp hr
      cases hr
  · obtain ⟨bf, wf, samples, outs, -, m2, m3, -⟩ := C38_success_iff svd rng cfg bs ws _ r h
    rw [m3]
    rcases m2.stops with hst | ⟨-, c, hc⟩
    · unfold Spec.Exhausted at hst
      rw [hex, if_neg (by simp)] at hst
      have hpos : 0 < (outs.filter fun o => match o with
          | .candidate _ => true
          | _ => false).length := lt_of_lt_of_le hmax hst
      obtain ⟨o, ho⟩ := List.exists_mem_of_length_pos hpos
      obtain ⟨o1, o2⟩ := List.mem_filter.mp ho
      cases o with
      | prerejected => cases o2
      | rejected => cases o2
      | candidate c => exact ⟨c, o1⟩
    · exact ⟨c, List.mem_of_getLast? hc⟩

end HandEye
