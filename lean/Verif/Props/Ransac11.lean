import Verif.Props.Ransac9
import Verif.Props.Ransac10
import Verif.Props.NoisySolver
import Verif.Spec.Groups

/-! # Property C107: RANSAC raises no exception on rigid motions, and when it succeeds; property C106 for the samples of RANSAC -/

namespace HandEye

theorem rebase_relative (a b : DQuat) : rebase a.conj true b = Spec.relative a b := by
  unfold rebase Spec.relative
  simp

theorem agreeing_group (tol : ℝ) (bs ws : List DQuat) {k : ℕ} {p : DQuat × DQuat} (hp : (bs.zip ws)[k]? = some p) :
    agreeing tol bs ws k p = Spec.group tol (bs.zip ws) k p := by
  have hk := (List.getElem?_eq_some_iff.mp hp).1
  unfold agreeing Spec.group turned
  rw [List.rotate_eq_drop_append_take hk.le]
  simp only [rebase_relative]

open Classical in
/-- Enough inliers by scalar parts: whatever the solver returns, its evaluation raises no exception. -/
theorem build_any {svd : Svd} {cfg : HandEyeConfig} {tol : ℝ} (ht : 0 ≤ tol) {bs ws : List DQuat}
    (hb : ∀ a ∈ bs, Spec.IsUnit a) (hw : ∀ a ∈ ws, Spec.IsUnit a) {k : ℕ} {p : DQuat × DQuat} (hp : (bs.zip ws)[k]? = some p)
    (hmin : cfg.min_num_inliers ≤ Spec.number (Spec.Corresponds tol p) (bs.zip ws)) (s : List ℕ) :
    ∃ oc, buildCandidate svd cfg s ⟨none, (turned bs ws k).map fun q => rebase p.1.conj true q.1,
      (turned bs ws k).map fun q => decide (Spec.Corresponds tol p q)⟩
      ((turned bs ws k).map fun q => rebase p.2.conj true q.2) = .ok oc ∧
      ((∃ c, oc = some c) ↔ ∃ r, computeHandEyeCalibration svd ((agreeing tol bs ws k p).map Prod.fst) ((agreeing tol bs ws k p).map Prod.snd)
        cfg.hand_eye_calibration_scalar_part_equality_tolerance = .ok r) := by
  obtain ⟨c1, c2⟩ := agreeing_inliers tol bs ws k p
  obtain ⟨hp1, hp2, d1, d2, d3, d4⟩ := seen_data hb hw hp
  have hlen := agreeing_length tol bs ws k p
  have hself := corresponds_self ht hp1 hp2
  have hhead : (agreeing tol bs ws k p)[0]? = some (DQuat.identity, DQuat.identity) := by
    unfold agreeing
    have h0 := head_turned hp
    cases hT : turned bs ws k with
    | nil => rw [hT] at h0; cases h0
    | cons q l =>
      rw [hT] at h0
      cases h0
      rw [List.filter_cons, if_pos (by simpa using hself), List.map_cons, List.getElem?_cons_zero, rebase_self hp1, rebase_self hp2]
  have hmem : ∀ q ∈ agreeing tol bs ws k p, Spec.IsUnit q.1 ∧ Spec.IsUnit q.2 := by
    intro q hq
    unfold agreeing at hq
    obtain ⟨m, hm, rfl⟩ := List.mem_map.mp hq
    have hm := (List.mem_filter.mp hm).1
    exact ⟨d1 _ (List.mem_map_of_mem hm), d2 _ (List.mem_map_of_mem hm)⟩
  unfold buildCandidate
  dsimp only
  rw [c1, c2, pyAssert_pos (by simp), Py.ok_bind, if_neg (by rw [List.length_map, hlen]; omega)]
  have href : refine svd cfg none ((agreeing tol bs ws k p).map Prod.fst) ((agreeing tol bs ws k p).map Prod.snd) =
      tryCalibration svd cfg.hand_eye_calibration_scalar_part_equality_tolerance ((agreeing tol bs ws k p).map Prod.fst)
        ((agreeing tol bs ws k p).map Prod.snd) := by
    unfold refine
    cases cfg.ransac_model_refinement <;> rfl
  rw [href]
  set IB := (agreeing tol bs ws k p).map Prod.fst with hIB
  set IW := (agreeing tol bs ws k p).map Prod.snd with hIW
  have uB : ∀ a ∈ IB, Spec.IsUnit a := by
    intro a ha
    obtain ⟨q, hq, rfl⟩ := List.mem_map.mp ha
    exact (hmem q hq).1
  have uW : ∀ a ∈ IW, Spec.IsUnit a := by
    intro a ha
    obtain ⟨q, hq, rfl⟩ := List.mem_map.mp ha
    exact (hmem q hq).2
  cases htry : tryCalibration svd cfg.hand_eye_calibration_scalar_part_equality_tolerance IB IW with
  | none =>
    refine ⟨none, rfl, ?_⟩
    simp only [reduceCtorEq, exists_false, false_iff]
    rintro ⟨r, hr⟩
    have hn := Quat.norm_eq_one.mp (C29_returned_calibration svd _ _ _ _ r hr).1
    unfold tryCalibration at htry
    rw [hr] at htry
    simp only [Py.ok_bind, DQuat.normalize_unit hn, Py.pure_eq] at htry
    cases htry
  | some cal =>
    obtain ⟨c0, t1, -⟩ := tryCalibration_some htry
    dsimp only
    have hin : ∃ pB pW rp ro fl, (if cfg.ransac_evaluate_refined_model_on_inliers_only then getAlignedPoses IB IW cal.dq_H_E
        else getAlignedPoses ((turned bs ws k).map fun q => rebase p.1.conj true q.1)
          ((turned bs ws k).map fun q => rebase p.2.conj true q.2) cal.dq_H_E) = .ok (pB, pW) ∧
        evaluateAlignment cfg.ransac_orientation_error_threshold_deg cfg.ransac_position_error_threshold_m pB pW = .ok (rp, ro, fl) := by
      split
      · exact evaluation_returns (fun a ha => DQuat.IsUnit.rot (uB a ha)) uW (by simp [hIB, hIW])
          (by rw [hIB, List.getElem?_map, hhead]; rfl) (by rw [hIW, List.getElem?_map, hhead]; rfl) (tryCalibration_rot htry) _ _
      · exact evaluation_returns (fun a ha => DQuat.IsUnit.rot (d1 a ha)) d2 (by simp) d3 d4 (tryCalibration_rot htry) _ _
    obtain ⟨pB, pW, rp, ro, fl, h1, h2⟩ := hin
    by_cases hi : cfg.ransac_evaluate_refined_model_on_inliers_only = true
    · rw [if_pos hi] at h1 ⊢
      rw [h1, Py.ok_bind]
      dsimp only
      rw [h2, Py.ok_bind]
      exact ⟨_, rfl, fun _ => ⟨c0, t1⟩, fun _ => ⟨_, rfl⟩⟩
    · rw [if_neg hi] at h1 ⊢
      rw [h1, Py.ok_bind]
      dsimp only
      rw [h2, Py.ok_bind]
      exact ⟨_, rfl, fun _ => ⟨c0, t1⟩, fun _ => ⟨_, rfl⟩⟩

open Classical in
/-- The early test, exactly. -/
theorem sampleTest_exact {cfg : HandEyeConfig} {tol : ℝ} (ht : cfg.ransac_sample_rejection_scalar_part_equality_tolerance = tol)
    (htol : 0 ≤ tol) {bs ws : List DQuat} (hl : ws.length = bs.length) (hb : ∀ a ∈ bs, Spec.IsUnit a) (hw : ∀ a ∈ ws, Spec.IsUnit a)
    {i0 : ℕ} {s : List ℕ} (hs : Spec.IsSample ws.length cfg.ransac_sample_size (i0 :: s)) {p : DQuat × DQuat}
    (hp : (bs.zip ws)[i0]? = some p) :
    ∃ x y, sampleTest cfg bs ws (i0 :: s) =
      .ok (decide (∀ i ∈ i0 :: s, ∀ q, (bs.zip ws)[i]? = some q → Spec.Corresponds tol p q), x, y) := by
  have hpm := List.mem_of_getElem? hp
  subst ht
  set SB := (i0 :: s).map fun n => bs.getD n 0 with hSB
  set SW := (i0 :: s).map fun n => ws.getD n 0 with hSW
  have key : ∀ i ∈ i0 :: s, (bs.zip ws)[i]? = some (bs.getD i 0, ws.getD i 0) := by
    intro i hi
    have := hs.2.2 i hi
    rw [List.getElem?_zip_eq_some, List.getD_eq_getElem?_getD, List.getD_eq_getElem?_getD, List.getElem?_eq_getElem (by omega),
      List.getElem?_eq_getElem (by omega)]
    exact ⟨rfl, rfl⟩
  have hz : SB.zip SW = (i0 :: s).map fun n => (bs.getD n 0, ws.getD n 0) := by rw [hSB, hSW, List.zip_map']
  unfold sampleTest
  rw [mapM_pyAt 0 hs.2.2, Py.ok_bind, mapM_pyAt 0 (by rw [← hl]; exact hs.2.2), Py.ok_bind, ← hSB, ← hSW,
    pyAssert_pos (by rw [hSW, List.length_map]; exact hs.1), Py.ok_bind]
  split
  · have hp0 : (SB.zip SW)[0]? = some p := by
      rw [hz, List.map_cons, List.getElem?_cons_zero, ← key i0 List.mem_cons_self, hp]
    have hub : ∀ a ∈ SB, Spec.IsUnit a := by
      intro a ha
      obtain ⟨i, hi, rfl⟩ := List.mem_map.mp ha
      exact hb _ (List.of_mem_zip (List.mem_of_getElem? (key i hi))).1
    have huw : ∀ a ∈ SW, Spec.IsUnit a := by
      intro a ha
      obtain ⟨i, hi, rfl⟩ := List.mem_map.mp ha
      exact hw _ (List.of_mem_zip (List.mem_of_getElem? (key i hi))).2
    obtain ⟨e1, e2⟩ := align_measurements (by simp [hSB, hSW]) hub huw hp0
    have e1' : alignPathsAtIndex SB = .ok _ := e1
    have e2' : alignPathsAtIndex SW = .ok _ := e2
    rw [e1', Py.ok_bind, e2', Py.ok_bind, samplesMatch_eq htol, Py.ok_bind]
    refine ⟨_, _, congrArg Except.ok (Prod.ext ?_ rfl)⟩
    dsimp only
    rw [decide_eq_decide, List.zip_map', List.forall_mem_map]
    constructor
    · intro h i hi q hq
      rw [corresponds_iff]
      refine h q (mem_turned.mpr ?_)
      rw [hz]
      rw [key i hi] at hq
      cases hq
      exact List.mem_map_of_mem hi
    · intro h m hm
      have hm := mem_turned.mp hm
      rw [hz] at hm
      obtain ⟨i, hi, rfl⟩ := List.mem_map.mp hm
      exact corresponds_iff.mp (h i hi _ (key i hi))
  · next h1 =>
    have hs1 : s = [] := by
      have := hs.1
      simp at this
      exact List.length_eq_zero_iff.mp (by omega)
    refine ⟨_, _, congrArg Except.ok (Prod.ext (Eq.symm (decide_eq_true ?_)) rfl)⟩
    intro i hi q hq
    rw [hs1, List.mem_singleton] at hi
    rw [hi, hp] at hq
    cases hq
    exact corresponds_self htol (hb _ (List.of_mem_zip hpm).1) (hw _ (List.of_mem_zip hpm).2)

/-- What becomes of a sample of the classification by scalar parts. -/
theorem scalar_outcome {svd : Svd} {cfg : HandEyeConfig} (hmode : cfg.ransac_inlier_classification = .scalarPartEquality) {tol : ℝ}
    (ht : cfg.ransac_sample_rejection_scalar_part_equality_tolerance = tol) (htol : 0 ≤ tol)
    {bs ws bf wf : List DQuat} (hl : ws.length = bs.length) (hb : ∀ a ∈ bs, Spec.IsUnit a) (hw : ∀ a ∈ ws, Spec.IsUnit a)
    (hlf : wf.length = bf.length) (hbf : ∀ a ∈ bf, Spec.IsUnit a) (hwf : ∀ a ∈ wf, Spec.IsUnit a) (hle : wf.length ≤ ws.length)
    (hsize : 0 < cfg.ransac_sample_size) {s : List ℕ} (hs : Spec.IsSample wf.length cfg.ransac_sample_size s) :
    ∃ o, evaluateSample svd cfg bs ws bf wf s = .ok o ∧
      ((∃ c, o = .candidate c) ↔ Spec.LeadsToCalibration svd cfg tol (bf.zip wf) (bs.zip ws) s) := by
  classical
  obtain ⟨i0, s', rfl⟩ : ∃ i0 s', s = i0 :: s' := by
    cases s with
    | nil => simp [Spec.IsSample] at hs; omega
    | cons a l => exact ⟨a, l, rfl⟩
  have hi0 : i0 < wf.length := hs.2.2 i0 List.mem_cons_self
  obtain ⟨f, hf⟩ : ∃ f, (bf.zip wf)[i0]? = some f := ⟨_, List.getElem?_eq_getElem (by rw [List.length_zip]; omega)⟩
  obtain ⟨p, hp⟩ : ∃ p, (bs.zip ws)[i0]? = some p := ⟨_, List.getElem?_eq_getElem (by rw [List.length_zip]; omega)⟩
  obtain ⟨x, y, t1⟩ := sampleTest_exact ht htol hlf hbf hwf hs hf
  obtain ⟨b1, b2⟩ := align_measurements hl hb hw hp
  have hU : Spec.LeadsToCalibration svd cfg tol (bf.zip wf) (bs.zip ws) (i0 :: s') ↔
      (∀ i ∈ i0 :: s', ∀ q, (bf.zip wf)[i]? = some q → Spec.Corresponds tol f q) ∧
      cfg.min_num_inliers ≤ Spec.number (Spec.Corresponds tol p) (bs.zip ws) ∧
      ∃ r, computeHandEyeCalibration svd ((agreeing tol bs ws i0 p).map Prod.fst) ((agreeing tol bs ws i0 p).map Prod.snd)
        cfg.hand_eye_calibration_scalar_part_equality_tolerance = .ok r := by
    rw [agreeing_group tol bs ws hp]
    constructor
    · rintro ⟨k, q, q', h1, h2, h3, h4⟩
      cases h1
      rw [hf] at h2
      rw [hp] at h3
      cases h2
      cases h3
      exact h4
    · intro h
      exact ⟨i0, f, p, rfl, hf, hp, h⟩
  rw [hU]
  unfold evaluateSample
  rw [t1, Py.ok_bind]
  dsimp only
  split
  · next hgood =>
    have hgood := of_decide_eq_true hgood
    have hat : pyAt (i0 :: s') 0 = .ok i0 := rfl
    rw [hat, Py.ok_bind, b1, Py.ok_bind, b2, Py.ok_bind, classify_measurements hmode ht htol, Py.ok_bind]
    dsimp only
    by_cases hmin : cfg.min_num_inliers ≤ Spec.number (Spec.Corresponds tol p) (bs.zip ws)
    · obtain ⟨oc, o1, o2⟩ := build_any (svd := svd) htol hb hw hp hmin (i0 :: s')
      rw [o1, Py.ok_bind]
      cases oc with
      | none =>
        refine ⟨_, rfl, ?_⟩
        rw [← o2]
        simp
      | some c =>
        refine ⟨_, rfl, fun _ => ⟨hgood, hmin, o2.mp ⟨c, rfl⟩⟩, fun _ => ⟨c, rfl⟩⟩
    · rw [build_few (by omega), Py.ok_bind]
      refine ⟨_, rfl, ?_⟩
      simp [hmin]
  · next hbad =>
    refine ⟨_, rfl, ?_⟩
    have hbad : ¬ _ := fun h => hbad (decide_eq_true h)
    constructor
    · rintro ⟨c, hc⟩; cases hc
    · exact fun h => absurd h.1 hbad

/-- No sample raises an exception in either mode of the classification. -/
theorem outcome_any {svd : Svd} {cfg : HandEyeConfig} {tol : ℝ}
    (hmode : cfg.ransac_inlier_classification = .scalarPartEquality ∧ 0 < cfg.ransac_sample_size ∨
      cfg.ransac_inlier_classification = .rmseThreshold ∧ 2 ≤ cfg.ransac_sample_size ∧
        0 < cfg.ransac_orientation_error_threshold_deg ∧ 0 < cfg.ransac_position_error_threshold_m)
    (ht : cfg.ransac_sample_rejection_scalar_part_equality_tolerance = tol) (htol : 0 ≤ tol)
    {bs ws bf wf : List DQuat} (hl : ws.length = bs.length) (hb : ∀ a ∈ bs, Spec.IsUnit a) (hw : ∀ a ∈ ws, Spec.IsUnit a)
    (hlf : wf.length = bf.length) (hbf : ∀ a ∈ bf, Spec.IsUnit a) (hwf : ∀ a ∈ wf, Spec.IsUnit a) (hle : wf.length ≤ ws.length)
    {s : List ℕ} (hs : Spec.IsSample wf.length cfg.ransac_sample_size s) :
    ∃ o, evaluateSample svd cfg bs ws bf wf s = .ok o := by
  classical
  rcases hmode with ⟨hmode, hsize⟩ | ⟨hmode, hsize, hot, hpt⟩
  · obtain ⟨o, ho, -⟩ := scalar_outcome (svd := svd) hmode ht htol hl hb hw hlf hbf hwf hle hsize hs
    exact ⟨o, ho⟩
  · obtain ⟨i0, s', rfl⟩ : ∃ i0 s', s = i0 :: s' := by
      cases s with
      | nil => simp [Spec.IsSample] at hs; omega
      | cons a l => exact ⟨a, l, rfl⟩
    have hi0 : i0 < wf.length := hs.2.2 i0 List.mem_cons_self
    obtain ⟨f, hf⟩ : ∃ f, (bf.zip wf)[i0]? = some f := ⟨_, List.getElem?_eq_getElem (by rw [List.length_zip]; omega)⟩
    obtain ⟨p, hp⟩ : ∃ p, (bs.zip ws)[i0]? = some p := ⟨_, List.getElem?_eq_getElem (by rw [List.length_zip]; omega)⟩
    obtain ⟨x, y, t1⟩ := sampleTest_exact ht htol hlf hbf hwf hs hf
    obtain ⟨b1, b2⟩ := align_measurements hl hb hw hp
    obtain ⟨-, -, d1, d2, d3, d4⟩ := seen_data hb hw hp
    unfold evaluateSample
    rw [t1, Py.ok_bind]
    dsimp only
    split
    · have hat : pyAt (i0 :: s') 0 = .ok i0 := rfl
      rw [hat, Py.ok_bind, b1, Py.ok_bind, b2, Py.ok_bind]
      have hcl : ∀ sB sW aB aW, classify svd cfg sB sW aB aW = classifyByRmse svd cfg sB sW aB aW := by
        intro sB sW aB aW
        unfold classify
        rw [hmode]
      rw [hcl]
      obtain ⟨o, ho⟩ := classic_returns (svd := svd) ht htol hsize hot hpt d1 d2 (by simp) d3 d4 x y
      rw [ho, Py.ok_bind]
      cases o with
      | none => exact ⟨_, rfl⟩
      | some k =>
        obtain ⟨oc, hoc, -⟩ := build_returns ht htol d1 d2 (by simp) d3 d4 ho (i0 :: s')
        dsimp only
        rw [hoc, Py.ok_bind]
        cases oc <;> exact ⟨_, rfl⟩
    · exact ⟨_, rfl⟩

theorem unfiltered {cfg : HandEyeConfig} (hpre : cfg.prefilter_poses_enabled = false) (bs ws : List DQuat) :
    filteredPoses cfg bs ws = .ok (bs, ws) := by
  unfold filteredPoses
  rw [hpre]
  rfl

/-- The prefilter fails its assertion or makes a selection. -/
theorem filtered_cases (cfg : HandEyeConfig) {bs ws : List DQuat} (hl : ws.length = bs.length) (hb : ∀ a ∈ bs, Spec.IsUnit a)
    (hw : ∀ a ∈ ws, Spec.IsUnit a) :
    (cfg.prefilter_poses_enabled = true ∧ filteredPoses cfg bs ws = .error .assertion) ∨
    ∃ bf wf, filteredPoses cfg bs ws = .ok (bf, wf) ∧ wf.length = bf.length ∧ (bf.zip wf).Sublist (bs.zip ws) ∧
      (∀ a ∈ bf, Spec.IsUnit a) ∧ (∀ a ∈ wf, Spec.IsUnit a) ∧ wf.length ≤ ws.length := by
  cases hpre : cfg.prefilter_poses_enabled with
  | false => exact Or.inr ⟨bs, ws, unfiltered hpre bs ws, hl, List.Sublist.refl _, hb, hw, le_rfl⟩
  | true =>
    unfold filteredPoses
    rw [if_pos hpre]
    rcases C32_unit_trajectories bs ws cfg.prefilter_dot_product_threshold hl.symm hb hw with ⟨bf, wf, h1, h2, -, h4, h5, h6⟩ | h
    · rw [h1, Py.ok_bind, pyAssert_pos h2.symm, Py.ok_bind, Py.pure_eq]
      exact Or.inr ⟨bf, wf, rfl, h2.symm, h6, fun a ha => hb a (h4.subset ha), fun a ha => hw a (h5.subset ha), h5.length_le⟩
    · rw [h]
      exact Or.inl ⟨rfl, rfl⟩

theorem filtered_facts {cfg : HandEyeConfig} {bs ws bf wf : List DQuat} (hl : ws.length = bs.length) (hb : ∀ a ∈ bs, Spec.IsUnit a)
    (hw : ∀ a ∈ ws, Spec.IsUnit a) (hf : filteredPoses cfg bs ws = .ok (bf, wf)) :
    wf.length = bf.length ∧ (∀ a ∈ bf, Spec.IsUnit a) ∧ (∀ a ∈ wf, Spec.IsUnit a) ∧ wf.length ≤ ws.length := by
  rcases filtered_cases cfg hl hb hw with ⟨-, h⟩ | ⟨bf', wf', h1, h2, -, h3⟩
  · rw [hf] at h; cases h
  · rw [hf] at h1; cases h1; exact ⟨h2, h3⟩

/-- Fewer poses than a sample needs. -/
theorem ransac_too_few {svd : Svd} {rng : ℕ → List ℕ} {cfg : HandEyeConfig} {bs ws bf wf : List DQuat} (hl : ws.length = bs.length)
    (hn : cfg.ransac_sample_size < ws.length) (hf : filteredPoses cfg bs ws = .ok (bf, wf)) (hlt : wf.length < cfg.ransac_sample_size) (fuel : ℕ) :
    (cfg.enable_exhaustive_search = true → ∃ r, ransac svd rng cfg bs ws fuel = .ok (some r) ∧ r.success = false) ∧
    (cfg.enable_exhaustive_search = false → 0 < cfg.ransac_max_number_iterations → ransac svd rng cfg bs ws (fuel + 1) = .error .value) := by
  constructor
  · intro hex
    have hc : (combinations (List.range wf.length) cfg.ransac_sample_size).length = 0 := by
      rw [combinations_length, List.length_range, Nat.choose_eq_zero_of_lt hlt]
    unfold ransac
    rw [pyAssert_pos hl, Py.ok_bind, pyAssert_pos hn, Py.ok_bind, hf, Py.ok_bind]
    dsimp only
    rw [ransacLoop.eq_def]
    dsimp only
    rw [if_neg (by unfold loopCondition; rw [hex, hc]; simp), Py.ok_bind]
    exact ⟨_, rfl, rfl⟩
  · intro hex hmax
    unfold ransac
    rw [pyAssert_pos hl, Py.ok_bind, pyAssert_pos hn, Py.ok_bind, hf, Py.ok_bind]
    dsimp only
    rw [ransacLoop, if_pos (by unfold loopCondition; rw [hex]; simpa using hmax)]
    dsimp only
    unfold ransacStep drawSample
    rw [hex, if_neg (by simp), if_pos hlt]
    rfl

/-- **C107**: on poses that are rigid motions, whatever they are, RANSAC raises an exception in two cases only: the prefilter leaves fewer than two poses
(AssertionError), or it leaves fewer than a random sample needs (ValueError of `random.sample`).  Otherwise it raises none, in both modes of the classification,
with the random and with the exhaustive search, whatever is drawn and whatever the linear algebra library returns or raises. -/
theorem C107_no_exception (svd : Svd) (rng : ℕ → List ℕ) (cfg : HandEyeConfig)
    (hmode : cfg.ransac_inlier_classification = .scalarPartEquality ∧ 0 < cfg.ransac_sample_size ∨
      cfg.ransac_inlier_classification = .rmseThreshold ∧ 2 ≤ cfg.ransac_sample_size ∧
        0 < cfg.ransac_orientation_error_threshold_deg ∧ 0 < cfg.ransac_position_error_threshold_m)
    (htol : 0 ≤ cfg.ransac_sample_rejection_scalar_part_equality_tolerance)
    (ho : 0 < cfg.ransac_outlier_probability) (ho' : cfg.ransac_outlier_probability < 1)
    (hp : cfg.ransac_success_probability_threshold < 1) (hmax : 0 < cfg.ransac_max_number_iterations)
    (bs ws : List DQuat) (hl : ws.length = bs.length) (hb : ∀ a ∈ bs, Spec.IsUnit a) (hw : ∀ a ∈ ws, Spec.IsUnit a)
    (hn : cfg.ransac_sample_size < ws.length) (fuel : ℕ) :
    (cfg.prefilter_poses_enabled = true ∧ filteredPoses cfg bs ws = .error .assertion ∧ ransac svd rng cfg bs ws (fuel + 1) = .error .assertion) ∨
    ∃ bf wf, filteredPoses cfg bs ws = .ok (bf, wf) ∧ wf.length = bf.length ∧ (bf.zip wf).Sublist (bs.zip ws) ∧
      (cfg.prefilter_poses_enabled = false → bf = bs ∧ wf = ws) ∧
      (wf.length < cfg.ransac_sample_size → cfg.enable_exhaustive_search = false → ransac svd rng cfg bs ws (fuel + 1) = .error .value) ∧
      (cfg.ransac_sample_size ≤ wf.length ∨ cfg.enable_exhaustive_search = true →
        (∀ k, Spec.IsSample wf.length cfg.ransac_sample_size (rng k)) ∨ cfg.enable_exhaustive_search = true →
        ∃ o, ransac svd rng cfg bs ws (fuel + 1) = .ok o) := by
  rcases filtered_cases cfg hl hb hw with ⟨h0, h⟩ | ⟨bf, wf, h1, h2, h3, h4, h5, h6⟩
  · refine Or.inl ⟨h0, h, ?_⟩
    unfold ransac
    rw [pyAssert_pos hl, Py.ok_bind, pyAssert_pos hn, Py.ok_bind, h]
    rfl
  · refine Or.inr ⟨bf, wf, h1, h2, h3, fun hpre => ?_, fun hlt hex => (ransac_too_few hl hn h1 hlt fuel).2 hex hmax, fun hc hr => ?_⟩
    · rw [unfiltered hpre] at h1
      cases h1
      exact ⟨rfl, rfl⟩
    · rcases lt_or_ge wf.length cfg.ransac_sample_size with hlt | hge
      · obtain ⟨r, hr, -⟩ := (ransac_too_few (svd := svd) (rng := rng) hl hn h1 hlt (fuel + 1)).1 (hc.resolve_left (not_le.mpr hlt))
        exact ⟨_, hr⟩
      · have hev := fun s hs => outcome_any (svd := svd) hmode rfl htol hl hb hw h2 h4 h5 h6 (s := s) hs
        have hab := fun k => earlyAbort_ok cfg k ho ho' hp (by rcases hmode with h | h <;> omega)
        rcases hr with hr | hex
        · exact ransac_ok hl hn h1 hge hr hev hab (fuel + 1)
        · rw [C39_deterministic svd rng (fun _ => List.range cfg.ransac_sample_size) cfg bs ws _ hex]
          refine ransac_ok hl hn h1 hge (fun k => ⟨by simp, List.nodup_range, fun i hi => ?_⟩) hev hab (fuel + 1)
          have := List.mem_range.mp hi
          omega

/-- **C107**, the exhaustive search with the classification by scalar parts: it ends after as many samples as there are combinations, and it succeeds exactly
if one of the combinations leads to a calibration. -/
theorem C107_exhaustive (svd : Svd) (rng : ℕ → List ℕ) (cfg : HandEyeConfig) (hmode : cfg.ransac_inlier_classification = .scalarPartEquality)
    (tol : ℝ) (ht : cfg.ransac_sample_rejection_scalar_part_equality_tolerance = tol) (htol : 0 ≤ tol)
    (hex : cfg.enable_exhaustive_search = true)
    (bs ws bf wf : List DQuat) (hl : ws.length = bs.length) (hb : ∀ a ∈ bs, Spec.IsUnit a) (hw : ∀ a ∈ ws, Spec.IsUnit a)
    (hf : filteredPoses cfg bs ws = .ok (bf, wf)) (hsize : 0 < cfg.ransac_sample_size) (hn : cfg.ransac_sample_size < ws.length) :
    ∃ r, ransac svd rng cfg bs ws (wf.length.choose cfg.ransac_sample_size) = .ok (some r) ∧
      (r.success = true ↔ ∃ s : List ℕ, s.Pairwise (· < ·) ∧ (∀ i ∈ s, i < wf.length) ∧ s.length = cfg.ransac_sample_size ∧
        Spec.LeadsToCalibration svd cfg tol (bf.zip wf) (bs.zip ws) s) := by
  obtain ⟨hlf, hbf, hwf, hle⟩ := filtered_facts hl hb hw hf
  rcases lt_or_ge wf.length cfg.ransac_sample_size with hlt | hfl
  · obtain ⟨r, r1, r2⟩ := (ransac_too_few (svd := svd) (rng := rng) hl hn hf hlt _).1 hex
    refine ⟨r, r1, ?_⟩
    rw [r2]
    simp only [Bool.false_eq_true, false_iff]
    rintro ⟨s, s1, s2, s3, -⟩
    have hnd : s.Nodup := s1.imp fun h => ne_of_lt h
    have : s.length ≤ wf.length := by
      have := (List.subperm_of_subset hnd (fun i hi => List.mem_range.mpr (s2 i hi))).length_le
      rwa [List.length_range] at this
    omega
  have hout := fun s hs => scalar_outcome (svd := svd) hmode ht htol hl hb hw hlf hbf hwf hle hsize (s := s) hs
  have hab : ∀ k, ∃ b, earlyAbort cfg k = .ok b := by
    intro k
    unfold earlyAbort
    rw [if_neg (by rw [hex]; simp)]
    exact ⟨false, rfl⟩
  set rng' : ℕ → List ℕ := fun _ => List.range cfg.ransac_sample_size with hrng'
  have hr' : ∀ k, Spec.IsSample wf.length cfg.ransac_sample_size (rng' k) := by
    intro k
    refine ⟨by simp [hrng'], List.nodup_range, fun i hi => ?_⟩
    have := List.mem_range.mp hi
    omega
  rw [C39_deterministic svd rng rng' cfg bs ws _ hex]
  obtain ⟨o, ho⟩ := ransac_ok hl hn hf hfl hr' (fun s hs => (hout s hs).imp fun _ h => h.1) hab
    (wf.length.choose cfg.ransac_sample_size)
  cases o with
  | none =>
    exfalso
    refine C39_terminates svd rng' cfg bs ws _ hex ?_ ho
    intro bf wf h
    rw [hf] at h
    cases h
    exact le_rfl
  | some r =>
    refine ⟨r, ho, ?_⟩
    obtain ⟨bf, wf, samples, outs, k1, k2, -, -, k5⟩ := C39_exhaustive svd rng' cfg bs ws _ r hex ho
    obtain ⟨bf', wf', samples', outs', m1, m2, m3, -⟩ := C38_success_iff svd rng' cfg bs ws _ r ho
    rw [hf] at k1 m1
    cases k1
    cases m1
    obtain ⟨rfl, rfl⟩ := course_unique k2 m2
    rw [m3]
    have hz := List.forall₂_iff_get.mp k2.outcomes
    constructor
    · rintro ⟨c, hc⟩
      obtain ⟨n, hn'⟩ := List.getElem?_of_mem hc
      obtain ⟨hlt, hns⟩ := List.getElem?_eq_some_iff.mp hn'
      have hev := hz.2 n (by rw [hz.1]; exact hlt) hlt
      simp only [List.get_eq_getElem] at hev
      rw [hns] at hev
      have hmem : samples[n]'(by rw [hz.1]; exact hlt) ∈ samples := List.getElem_mem _
      obtain ⟨s1, s2, s3⟩ := (k5 _).mp hmem
      obtain ⟨o, o1, o2⟩ := hout _ ⟨s3, s1.imp (fun h => ne_of_lt h), s2⟩
      rw [hev] at o1
      exact ⟨_, s1, s2, s3, o2.mp ⟨c, (Except.ok.inj o1).symm⟩⟩
    · rintro ⟨s, s1, s2, s3, s4⟩
      have hmem := (k5 s).mpr ⟨s1, s2, s3⟩
      obtain ⟨n, hn'⟩ := List.getElem?_of_mem hmem
      obtain ⟨hlt, hns⟩ := List.getElem?_eq_some_iff.mp hn'
      have hev := hz.2 n hlt (by rw [← hz.1]; exact hlt)
      simp only [List.get_eq_getElem] at hev
      rw [hns] at hev
      obtain ⟨o, o1, o2⟩ := hout s ⟨s3, s1.imp (fun h => ne_of_lt h), s2⟩
      obtain ⟨c, rfl⟩ := o2.mpr s4
      rw [hev] at o1
      exact ⟨c, by rw [← Except.ok.inj o1]; exact List.getElem_mem _⟩

/-- The random search goes on while no sample becomes a candidate. -/
theorem loop_stuck {svd : Svd} {cfg : HandEyeConfig} {rng : ℕ → List ℕ} {bs ws bf wf : List DQuat}
    (hex : cfg.enable_exhaustive_search = false) (hfl : cfg.ransac_sample_size ≤ wf.length) (fuel : ℕ) (st : LoopState)
    (hst : st.full_iterations < cfg.ransac_max_number_iterations)
    (hev : ∀ j < fuel, ∃ o, evaluateSample svd cfg bs ws bf wf (rng (st.sample_number + j)) = .ok o ∧ ∀ c, o ≠ .candidate c) :
    ransacLoop svd cfg rng bs ws bf wf fuel st = .ok none := by
  induction fuel generalizing st with
  | zero =>
    rw [ransacLoop, if_pos]
    unfold loopCondition
    rw [hex]
    simpa using hst
  | succ fuel ih =>
    rw [ransacLoop, if_pos (by unfold loopCondition; rw [hex]; simpa using hst)]
    obtain ⟨o, o1, o2⟩ := hev 0 (by omega)
    rw [Nat.add_zero] at o1
    have hd : drawSample cfg rng wf.length st.sample_number = .ok (rng st.sample_number) := by
      unfold drawSample
      rw [hex, if_neg (by simp), if_neg (by omega)]
    have hnext : ∀ st' : LoopState, st'.sample_number = st.sample_number + 1 → st'.full_iterations = st.full_iterations →
        ransacLoop svd cfg rng bs ws bf wf fuel st' = .ok none := by
      intro st' e1 e2
      refine ih st' (by omega) fun j hj => ?_
      rw [e1, show st.sample_number + 1 + j = st.sample_number + (j + 1) by omega]
      exact hev (j + 1) (by omega)
    dsimp only
    unfold ransacStep
    rw [hd, Py.ok_bind]
    dsimp only
    rw [o1, Py.ok_bind]
    cases o with
    | prerejected =>
      dsimp only
      rw [Py.pure_eq, Py.ok_bind]
      exact hnext _ rfl rfl
    | rejected =>
      dsimp only
      rw [Py.pure_eq, Py.ok_bind]
      exact hnext _ rfl rfl
    | candidate c => exact absurd rfl (o2 c)

open Classical in
/-- **C107**, the random search with the classification by scalar parts: whenever it ends, it succeeds; it has ended once `ransac_max_number_iterations` of the
drawn samples lead to a calibration; and without such a sample it does not end. -/
theorem C107_random (svd : Svd) (rng : ℕ → List ℕ) (cfg : HandEyeConfig) (hmode : cfg.ransac_inlier_classification = .scalarPartEquality)
    (tol : ℝ) (ht : cfg.ransac_sample_rejection_scalar_part_equality_tolerance = tol) (htol : 0 ≤ tol)
    (hex : cfg.enable_exhaustive_search = false) (hmax : 0 < cfg.ransac_max_number_iterations)
    (ho : 0 < cfg.ransac_outlier_probability) (ho' : cfg.ransac_outlier_probability < 1)
    (hp : cfg.ransac_success_probability_threshold < 1)
    (bs ws bf wf : List DQuat) (hl : ws.length = bs.length) (hb : ∀ a ∈ bs, Spec.IsUnit a) (hw : ∀ a ∈ ws, Spec.IsUnit a)
    (hf : filteredPoses cfg bs ws = .ok (bf, wf)) (hfl : cfg.ransac_sample_size ≤ wf.length)
    (hsize : 0 < cfg.ransac_sample_size) (hn : cfg.ransac_sample_size < ws.length)
    (hrng : ∀ k, Spec.IsSample wf.length cfg.ransac_sample_size (rng k)) (fuel : ℕ) :
    (∀ r, ransac svd rng cfg bs ws fuel = .ok (some r) → r.success = true) ∧
    (cfg.ransac_max_number_iterations ≤
        ((List.range fuel).countP fun k => decide (Spec.LeadsToCalibration svd cfg tol (bf.zip wf) (bs.zip ws) (rng k))) →
      ∃ r, ransac svd rng cfg bs ws fuel = .ok (some r)) ∧
    ((∀ k < fuel, ¬ Spec.LeadsToCalibration svd cfg tol (bf.zip wf) (bs.zip ws) (rng k)) → ransac svd rng cfg bs ws fuel = .ok none) := by
  obtain ⟨hlf, hbf, hwf, hle⟩ := filtered_facts hl hb hw hf
  have hout := fun s hs => scalar_outcome (svd := svd) hmode ht htol hl hb hw hlf hbf hwf hle hsize (s := s) hs
  have hab := fun k => earlyAbort_ok cfg k ho ho' hp hsize
  obtain ⟨o, hr⟩ := ransac_ok (rng := rng) hl hn hf hfl hrng (fun s hs => (hout s hs).imp fun _ h => h.1) hab fuel
  refine ⟨fun r h => ?_, fun hcount => ?_, fun hno => ?_⟩
  · obtain ⟨bf', wf', samples, outs, -, m2, m3, -⟩ := C38_success_iff svd rng cfg bs ws _ r h
    rw [m3]
    rcases m2.stops with hst | ⟨-, c, hc⟩
    · unfold Spec.Exhausted at hst
      rw [hex, if_neg (by simp)] at hst
      have hpos : 0 < (outs.filter fun o => match o with
          | .candidate _ => true
          | _ => false).length := lt_of_lt_of_le hmax hst
      obtain ⟨o, ho⟩ := List.exists_mem_of_length_pos hpos
      obtain ⟨o1, o2⟩ := List.mem_filter.mp ho
      cases o with
      | prerejected => cases o2
      | rejected => cases o2
      | candidate c => exact ⟨c, o1⟩
    · exact ⟨c, List.mem_of_getLast? hc⟩
  · obtain ⟨st, hst⟩ := loop_ends (bs := bs) (ws := ws) (svd := svd) hex (Spec.LeadsToCalibration svd cfg tol (bf.zip wf) (bs.zip ws)) (wf := wf) (bf := bf) hfl
      (fun k => by obtain ⟨o, o1, o2⟩ := hout _ (hrng k); exact ⟨o, o1, o2.mpr⟩) hab fuel {} (by simpa using hcount)
    cases o with
    | some r => exact ⟨r, hr⟩
    | none =>
      exfalso
      unfold ransac at hr
      rw [pyAssert_pos hl, Py.ok_bind, pyAssert_pos hn, Py.ok_bind, hf, Py.ok_bind] at hr
      dsimp only at hr
      rw [hst, Py.ok_bind] at hr
      dsimp only at hr
      obtain ⟨_, -, hr⟩ := Py.bind_eq_ok.mp hr
      cases hr
  · unfold ransac
    rw [pyAssert_pos hl, Py.ok_bind, pyAssert_pos hn, Py.ok_bind, hf, Py.ok_bind]
    dsimp only
    rw [loop_stuck (bs := bs) (ws := ws) (svd := svd) (bf := bf) (wf := wf) hex hfl fuel {} hmax fun j hj => ?_]
    · rfl
    · obtain ⟨o, o1, o2⟩ := hout _ (hrng j)
      dsimp only
      rw [Nat.zero_add]
      exact ⟨o, o1, fun c hc => hno j hj (o2.mp ⟨c, hc⟩)⟩

theorem relative_nonneg (a b : DQuat) : 0 ≤ (Spec.relative a b).rot.w := by
  unfold Spec.relative
  split
  · next h => rw [DQuat.neg_rot]; change 0 ≤ -(a.conj * b).rot.w; linarith
  · next h => exact not_lt.mp h

theorem relative_self {a : DQuat} (h : Spec.IsUnit a) : Spec.relative a a = DQuat.identity := by
  rw [← rebase_relative, rebase_self h]

/-- **C106** in RANSAC: if the measurements that correspond to p fit the mounting with an error of at most η, and this is small compared with the sixth singular value
for these measurements and the size of the true translation, then every sample of them that begins with p leads to a calibration, except for the one
possibility that the two halves of the seventh right-singular vector are exactly orthogonal (C106).  Partial because of this exception. -/
theorem C106_ransac_partial (svd : Svd) (cfg : HandEyeConfig) (tol : ℝ) (htol : 0 ≤ tol) (η : ℝ) (h0 : 0 ≤ η) (X : DQuat) (hX : Spec.IsUnit X)
    (ms : List (DQuat × DQuat)) (hu : ∀ q ∈ ms, Spec.IsUnit q.1 ∧ Spec.IsUnit q.2) (k : ℕ) (p : DQuat × DQuat) (hp : ms[k]? = some p)
    (hnoise : ∀ q ∈ ms, Spec.Corresponds tol p q → Spec.NoisyFit η X p q) (hmin : cfg.min_num_inliers ≤ Spec.number (Spec.Corresponds tol p) ms)
    (ht : 2 * η ≤ cfg.hand_eye_calibration_scalar_part_equality_tolerance) (h5 : 2 * η ≤ 0.05) :
    ∃ T, setupTMatrix ((Spec.group tol ms k p).map Prod.fst) ((Spec.group tol ms k p).map Prod.snd) = .ok T ∧
      ∀ sv V, svd T = .ok (sv, V) → Spec.IsSVD T sv V → ∀ σ : ℝ, sv[5]? = some σ → 0 < σ →
        4 * η * Real.sqrt (Spec.number (Spec.Corresponds tol p) ms) / σ * (2 + Spec.translationLength X ^ 2 / 4) ≤ 1 / 2 →
        ∑ i : Fin 4, V 6 (Fin.castAdd 4 i) * V 6 (Fin.natAdd 4 i) ≠ 0 →
        ∀ s : List ℕ, s.head? = some k → (∀ i ∈ s, ∀ q, ms[i]? = some q → Spec.Corresponds tol p q) → Spec.LeadsToCalibration svd cfg tol ms ms s := by
  classical
  have hk := (List.getElem?_eq_some_iff.mp hp).1
  obtain ⟨hp1, hp2⟩ := hu p (List.mem_of_getElem? hp)
  have hself := corresponds_self htol hp1 hp2
  set S := (ms.drop k ++ ms.take k).filter (fun q => decide (Spec.Corresponds tol p q)) with hS
  have hG : Spec.group tol ms k p = S.map (seen p) := by
    unfold Spec.group
    rw [← hS]
    refine List.map_congr_left fun q _ => ?_
    simp only [seen, rebase_relative]
  have hmem : ∀ q ∈ S, q ∈ ms ∧ Spec.Corresponds tol p q := by
    intro q hq
    obtain ⟨h1, h2⟩ := List.mem_filter.mp hq
    refine ⟨?_, of_decide_eq_true h2⟩
    rcases List.mem_append.mp h1 with h | h
    · exact List.mem_of_mem_drop h
    · exact List.mem_of_mem_take h
  obtain ⟨bs₀, ws₀, he, hm⟩ := noisy_group (p := p) S fun q hq => hnoise q (hmem q hq).1 (hmem q hq).2
  obtain ⟨S', hS'⟩ : ∃ S', S = p :: S' := by
    have hd : ms.drop k = p :: ms.drop (k + 1) := by
      rw [List.drop_eq_getElem_cons hk, (List.getElem?_eq_some_iff.mp hp).2]
    rw [hS, hd, List.cons_append, List.filter_cons, if_pos (by simpa using hself)]
    exact ⟨_, rfl⟩
  have hB : ((S.map (seen p)).map Prod.fst).head? = some DQuat.identity := by
    rw [hS']
    simp [seen, rebase_self hp1]
  have hW : ((S.map (seen p)).map Prod.snd).head? = some DQuat.identity := by
    rw [hS']
    simp [seen, rebase_self hp2]
  have hlen : ((S.map (seen p)).map Prod.fst).length = Spec.number (Spec.Corresponds tol p) ms := by
    rw [List.length_map, List.length_map, hS, Spec.number, ← List.countP_eq_length_filter]
    have : (ms.drop k ++ ms.take k).Perm ms := by
      rw [← List.rotate_eq_drop_append_take hk.le]
      exact List.rotate_perm _ _
    exact this.countP_eq _
  have hsign : enforceSameSign ((S.map (seen p)).map Prod.fst) ((S.map (seen p)).map Prod.snd) = .ok ((S.map (seen p)).map Prod.snd) := by
    refine enforceSameSign_nonneg (by simp) ?_ ?_ <;>
    · intro b hb
      rw [List.map_map] at hb
      obtain ⟨q, -, rfl⟩ := List.mem_map.mp hb
      simp only [Function.comp, seen, rebase_relative]
      exact relative_nonneg _ _
  rw [hG]
  obtain ⟨T, hT, h⟩ := noisy_outcome (svd := svd) h0 hX he hm hB hW ht h5 (by rw [if_pos rfl]; exact hsign)
  refine ⟨T, hT, fun sv V hs hIs σ h1 h2 h3 h4 s hs1 hs2 => ⟨k, p, p, hs1, hp, hp, hs2, hmin, ?_⟩⟩
  rw [hG]
  rw [hlen] at h
  obtain ⟨r, hr, -⟩ := (h sv V hs hIs σ h1 h2 h3).1 h4
  exact ⟨r, hr⟩

end HandEye
