import Verif.Lemmas.Ransac
import Verif.Spec.Ransac
import Verif.Props.Alignment
import Mathlib.Data.List.Sublists
import Mathlib.Data.Nat.Choose.Basic

/-! # Properties C37-C39: the result of RANSAC, and the exhaustive search -/

namespace HandEye

theorem combinations_length {α : Type} (l : List α) (k : ℕ) :
    (combinations l k).length = l.length.choose k := by
  induction l generalizing k with
  | nil => cases k <;> simp [combinations]
  | cons a l ih =>
    cases k with
    | zero => simp [combinations]
    | succ k =>
      rw [combinations, List.length_append, List.length_map, ih, ih, List.length_cons,
        Nat.choose_succ_succ]

theorem evaluated_eq (outs : List SampleOutcome) : outs.countP isCandidate = Spec.evaluated outs := by
  rw [List.countP_eq_length_filter, Spec.evaluated]
  congr 2

theorem loopCondition_eq {cfg : HandEyeConfig} {n : ℕ} {st : LoopState} :
    loopCondition cfg n st = false ↔ Spec.Exhausted cfg n st.sample_number st.full_iterations := by
  unfold loopCondition Spec.Exhausted
  rw [combinations_length, List.length_range]
  cases cfg.enable_exhaustive_search <;> simp

/-- A finished loop has followed the course of the specification. -/
theorem finished_course {svd : Svd} {cfg : HandEyeConfig} {rng : ℕ → List ℕ} {bs ws bf wf : List DQuat}
    {fuel : ℕ} {st : LoopState} (h : Finished svd cfg rng bs ws bf wf fuel {} st) :
    ∃ samples outs, Spec.Course cfg wf.length (drawSample cfg rng wf.length)
      (evaluateSample svd cfg bs ws bf wf) (earlyAbort cfg) samples outs ∧
      samples.length ≤ fuel ∧ st.best = outs.foldl upd none := by
  obtain ⟨samples, outs, i1, i2, i3, i4, i5, i6, i7, i8, i9⟩ := h
  have hl := i2.length_eq
  simp only [Nat.zero_add, evaluated_eq] at i1 i4 i6 i8 i9
  refine ⟨samples, outs, ⟨i1, i2, ?_, i9, ?_⟩, i3, i5⟩
  · intro j hj hx
    have := i8 j hj ⟨j, Spec.evaluated (outs.take j), 0, none⟩ rfl rfl
    rw [loopCondition_eq.mpr hx] at this
    cases this
  · rw [loopCondition_eq, i4, i6, hl] at i7
    exact i7

/-- The steps of a RANSAC run that returned. -/
theorem ransac_some {svd : Svd} {rng : ℕ → List ℕ} {cfg : HandEyeConfig} {bs ws : List DQuat} {fuel : ℕ}
    {r : CalibrationResult} (h : ransac svd rng cfg bs ws fuel = .ok (some r)) :
    ws.length = bs.length ∧ cfg.ransac_sample_size < ws.length ∧
    ∃ bf wf st, filteredPoses cfg bs ws = .ok (bf, wf) ∧
      Finished svd cfg rng bs ws bf wf fuel {} st ∧
      ransacResult wf.length st.best = .ok r := by
  unfold ransac at h
  obtain ⟨_, h1, h⟩ := Py.bind_eq_ok.mp h
  obtain ⟨_, h2, h⟩ := Py.bind_eq_ok.mp h
  obtain ⟨⟨bf, wf⟩, h3, h⟩ := Py.bind_eq_ok.mp h
  obtain ⟨o, h4, h⟩ := Py.bind_eq_ok.mp h
  refine ⟨pyAssert_eq_ok.mp h1, pyAssert_eq_ok.mp h2, bf, wf, ?_⟩
  cases o with
  | none => cases h
  | some st =>
    obtain ⟨r', h5, h⟩ := Py.bind_eq_ok.mp h
    cases h
    exact ⟨st, h3, ransacLoop_some _ _ _ _ _ _ _ h4, h5⟩

/-- The steps of `buildCandidate`. -/
theorem buildCandidate_some {svd : Svd} {cfg : HandEyeConfig} {s : List ℕ} {k : Classified} {aW : List DQuat}
    {c : Candidate} (h : buildCandidate svd cfg s k aW = .ok (some c)) :
    ∃ (cal : Calibration) (pB pW : List Pose) (fl : List Bool),
      refine svd cfg k.initial (compress k.aligned_dq_B_H k.inlier_flags) (compress aW k.inlier_flags) =
        some cal ∧
      (if cfg.ransac_evaluate_refined_model_on_inliers_only then
          getAlignedPoses (compress k.aligned_dq_B_H k.inlier_flags) (compress aW k.inlier_flags) cal.dq_H_E
        else getAlignedPoses k.aligned_dq_B_H aW cal.dq_H_E) = .ok (pB, pW) ∧
      evaluateAlignment cfg.ransac_orientation_error_threshold_deg cfg.ransac_position_error_threshold_m
        pB pW = .ok (c.rmse_position, c.rmse_orientation, fl) ∧
      c.sample_indices = s ∧ c.dq_H_E = cal.dq_H_E ∧
      c.num_inliers = (compress k.aligned_dq_B_H k.inlier_flags).length ∧
      cfg.min_num_inliers ≤ c.num_inliers ∧ c.singular_values = cal.singular_values ∧
      c.bad_singular_values = cal.bad_singular_values := by
  unfold buildCandidate at h
  obtain ⟨_, h1, h⟩ := Py.bind_eq_ok.mp h
  split at h
  · cases h
  · next hmin =>
    split at h
    · cases h
    · next cal hr =>
      by_cases hin : cfg.ransac_evaluate_refined_model_on_inliers_only = true
      · rw [if_pos hin] at h
        obtain ⟨⟨pB, pW⟩, h2, h⟩ := Py.bind_eq_ok.mp h
        obtain ⟨⟨rp, ro, fl⟩, h3, h⟩ := Py.bind_eq_ok.mp h
        cases h
        refine ⟨cal, pB, pW, fl, hr, ?_, h3, rfl, rfl, rfl, not_lt.mp hmin, rfl, rfl⟩
        rw [if_pos hin]; exact h2
      · rw [if_neg hin] at h
        obtain ⟨⟨pB, pW⟩, h2, h⟩ := Py.bind_eq_ok.mp h
        obtain ⟨⟨rp, ro, fl⟩, h3, h⟩ := Py.bind_eq_ok.mp h
        cases h
        refine ⟨cal, pB, pW, fl, hr, ?_, h3, rfl, rfl, rfl, not_lt.mp hmin, rfl, rfl⟩
        rw [if_neg hin]; exact h2

/-- The steps of a sample that became a candidate. -/
theorem evaluateSample_candidate {svd : Svd} {cfg : HandEyeConfig} {bs ws bf wf : List DQuat} {s : List ℕ}
    {c : Candidate} (h : evaluateSample svd cfg bs ws bf wf s = .ok (.candidate c)) :
    ∃ sB sW i0 aB aW k, sampleTest cfg bf wf s = .ok (true, sB, sW) ∧ s[0]? = some i0 ∧
      alignPathsAtIndex bs (i0 : ℕ) = .ok aB ∧ alignPathsAtIndex ws (i0 : ℕ) = .ok aW ∧
      classify svd cfg sB sW aB aW = .ok (some k) ∧
      buildCandidate svd cfg s k aW = .ok (some c) := by
  unfold evaluateSample at h
  obtain ⟨⟨good, sB, sW⟩, h1, h⟩ := Py.bind_eq_ok.mp h
  cases good with
  | false => cases h
  | true =>
    simp only [if_true] at h
    obtain ⟨i0, h2, h⟩ := Py.bind_eq_ok.mp h
    obtain ⟨aB, h3, h⟩ := Py.bind_eq_ok.mp h
    obtain ⟨aW, h4, h⟩ := Py.bind_eq_ok.mp h
    obtain ⟨o, h5, h⟩ := Py.bind_eq_ok.mp h
    cases o with
    | none => cases h
    | some k =>
      obtain ⟨o, h6, h⟩ := Py.bind_eq_ok.mp h
      cases o with
      | none => cases h
      | some c' =>
        cases h
        exact ⟨sB, sW, i0, aB, aW, k, h1, pyAt_eq_ok.mp h2, h3, h4, h5, h6⟩

theorem tryCalibration_some {svd : Svd} {tol : ℝ} {bs ws : List DQuat} {c : Calibration}
    (h : tryCalibration svd tol bs ws = some c) :
    ∃ c0, computeHandEyeCalibration svd bs ws tol = .ok c0 ∧ c0.dq_H_E.normalize = .ok c.dq_H_E ∧
      c.singular_values = c0.singular_values ∧ c.bad_singular_values = c0.bad_singular_values := by
  unfold tryCalibration at h
  split at h
  · next c' hc =>
    cases h
    obtain ⟨c0, h1, hc⟩ := Py.bind_eq_ok.mp hc
    obtain ⟨d, h2, hc⟩ := Py.bind_eq_ok.mp hc
    cases hc
    exact ⟨c0, h1, h2, rfl, rfl⟩
  · cases h

/-- Every candidate carries a normalised calibration. -/
theorem refine_rot {svd : Svd} {cfg : HandEyeConfig} {k : Classified} {sB sW aB aW b w : List DQuat}
    {c : Calibration} (hk : classify svd cfg sB sW aB aW = .ok (some k))
    (h : refine svd cfg k.initial b w = some c) : c.dq_H_E.rot.dot c.dq_H_E.rot = 1 := by
  have key : ∀ {tol : ℝ} {b w : List DQuat}, tryCalibration svd tol b w = some c →
      c.dq_H_E.rot.dot c.dq_H_E.rot = 1 := by
    intro tol b w h
    obtain ⟨c0, -, h2, -⟩ := tryCalibration_some h
    by_cases h0 : c0.dq_H_E.rot.dot c0.dq_H_E.rot = 0
    · rw [DQuat.normalize_error h0] at h2; cases h2
    · rw [DQuat.normalize_ok h0] at h2
      have hp := Quat.norm_pos h0
      rw [← Except.ok.inj h2]
      simp only [DQuat.smul_rot, Quat.smul_dot, Quat.dot_smul]
      rw [← Quat.norm_mul_self]
      field_simp
  unfold refine at h
  split at h
  · next c' h1 h2 =>
    cases h
    unfold classify at hk
    split at hk
    · unfold classifyByRmse at hk
      obtain ⟨_, _, hk⟩ := Py.bind_eq_ok.mp hk
      split at hk
      · cases hk
      · next cal hcal =>
        obtain ⟨⟨_, _⟩, _, hk⟩ := Py.bind_eq_ok.mp hk
        obtain ⟨_, _, hk⟩ := Py.bind_eq_ok.mp hk
        obtain ⟨⟨_, _, _⟩, _, hk⟩ := Py.bind_eq_ok.mp hk
        obtain ⟨_, _, hk⟩ := Py.bind_eq_ok.mp hk
        obtain ⟨_, _, hk⟩ := Py.bind_eq_ok.mp hk
        obtain ⟨ok, _, hk⟩ := Py.bind_eq_ok.mp hk
        cases ok with
        | false => cases hk
        | true =>
          cases hk
          cases h2
          exact key hcal
    · unfold classifyByScalar at hk
      obtain ⟨_, _, hk⟩ := Py.bind_eq_ok.mp hk
      cases hk
      cases h2
    · cases hk
  · exact key h

/-- C37: if a RANSAC run returns success then, with `outs` the outcomes of all samples that it drew: the reported errors, calibration and inlier count are those of one of
these outcomes, none of them has strictly smaller errors in both respects, and the inlier count is
at least `min_num_inliers`. -/
theorem C37_best_candidate (svd : Svd) (rng : ℕ → List ℕ) (cfg : HandEyeConfig) (bs ws : List DQuat)
    (fuel : ℕ) (r : CalibrationResult) (h : ransac svd rng cfg bs ws fuel = .ok (some r))
    (hs : r.success = true) :
    ∃ bf wf samples outs c, filteredPoses cfg bs ws = .ok (bf, wf) ∧
      Spec.Course cfg wf.length (drawSample cfg rng wf.length) (evaluateSample svd cfg bs ws bf wf)
        (earlyAbort cfg) samples outs ∧
      SampleOutcome.candidate c ∈ outs ∧
      r.dq_H_E = some c.dq_H_E ∧ r.rmse = some (c.rmse_position, c.rmse_orientation) ∧
      r.num_inliers = c.num_inliers ∧ cfg.min_num_inliers ≤ c.num_inliers ∧
      r.singular_values = some c.singular_values ∧ r.bad_singular_values = c.bad_singular_values ∧
      ∀ c', SampleOutcome.candidate c' ∈ outs → ¬ Spec.Better c' c := by
  obtain ⟨-, -, bf, wf, st, h1, hfin, h3⟩ := ransac_some h
  obtain ⟨samples, outs, hcourse, -, i5⟩ := finished_course hfin
  obtain ⟨-, f2⟩ := foldl_upd outs none
  cases hb : st.best with
  | none =>
    rw [hb] at h3
    simp only [ransacResult, Except.ok.injEq] at h3
    rw [← h3] at hs
    cases hs
  | some c =>
    rw [hb] at h3
    rw [hb] at i5
    obtain ⟨g1, -, g3⟩ := f2 c i5.symm
    have hmem : SampleOutcome.candidate c ∈ outs := by simpa using g1
    obtain ⟨n, hn⟩ := List.getElem?_of_mem hmem
    obtain ⟨s, -, he⟩ : ∃ s ∈ samples, evaluateSample svd cfg bs ws bf wf s = .ok (.candidate c) := by
      have hz := (List.forall₂_iff_get.mp hcourse.outcomes)
      have hlt : n < outs.length := (List.getElem?_eq_some_iff.mp hn).1
      have := hz.2 n (by rw [hz.1]; exact hlt) hlt
      refine ⟨_, List.get_mem samples ⟨n, by rw [hz.1]; exact hlt⟩, ?_⟩
      rw [this]
      rw [List.getElem?_eq_some_iff] at hn
      rw [← hn.2]; rfl
    obtain ⟨sB, sW, i0, aB, aW, k, -, -, -, -, e5, e6⟩ := evaluateSample_candidate he
    obtain ⟨cal, pB, pW, fl, b1, -, -, -, b5, -, b7, -, -⟩ := buildCandidate_some e6
    have hrot := refine_rot e5 b1
    rw [← b5] at hrot
    unfold ransacResult at h3
    dsimp only at h3
    rw [DQuat.toPose_unit hrot] at h3
    cases h3
    exact ⟨bf, wf, samples, outs, c, h1, hcourse, hmem, rfl, rfl, rfl, b7, rfl, rfl, g3⟩

/-- C37: what a candidate is.  Its errors are those that `evaluate_alignment` computes for its
calibration on the trajectories re-based at the first sampled index (all poses, or the inliers if the
configuration says so), and its calibration is normalised.  With the classification
"scalar_part_equality" the inliers are the poses with matching scalar parts. -/
theorem C37_candidate (svd : Svd) (cfg : HandEyeConfig) (bs ws bf wf : List DQuat) (s : List ℕ)
    (c : Candidate) (h : evaluateSample svd cfg bs ws bf wf s = .ok (.candidate c)) :
    ∃ (i0 : ℕ) (aB aW : List DQuat) (k : Classified), s[0]? = some i0 ∧ alignPathsAtIndex bs (i0 : ℕ) = .ok aB ∧
      alignPathsAtIndex ws (i0 : ℕ) = .ok aW ∧
      (k.aligned_dq_B_H = aB ∨ aB.mapM DQuat.normalize = .ok k.aligned_dq_B_H) ∧
      (∃ pB pW fl, getAlignedPoses
          (if cfg.ransac_evaluate_refined_model_on_inliers_only then compress k.aligned_dq_B_H k.inlier_flags
            else k.aligned_dq_B_H)
          (if cfg.ransac_evaluate_refined_model_on_inliers_only then compress aW k.inlier_flags else aW)
          c.dq_H_E = .ok (pB, pW) ∧
        evaluateAlignment cfg.ransac_orientation_error_threshold_deg cfg.ransac_position_error_threshold_m
          pB pW = .ok (c.rmse_position, c.rmse_orientation, fl)) ∧
      c.num_inliers = (compress k.aligned_dq_B_H k.inlier_flags).length ∧ c.sample_indices = s ∧
      c.dq_H_E.rot.dot c.dq_H_E.rot = 1 ∧
      (cfg.ransac_inlier_classification = .scalarPartEquality →
        0 ≤ cfg.ransac_sample_rejection_scalar_part_equality_tolerance →
        ∀ (i : ℕ) (w b : DQuat), aW[i]? = some w → aB[i]? = some b →
          (k.inlier_flags[i]? = some true ↔
            ScalarsClose cfg.ransac_sample_rejection_scalar_part_equality_tolerance w b)) := by
  obtain ⟨sB, sW, i0, aB, aW, k, e1, e2, e3, e4, e5, e6⟩ := evaluateSample_candidate h
  obtain ⟨cal, pB, pW, fl, b1, b2, b3, b4, b5, b6, -, -, -⟩ := buildCandidate_some e6
  have hrot := refine_rot e5 b1
  refine ⟨i0, aB, aW, k, e2, e3, e4, ?_, ⟨pB, pW, fl, ?_, b3⟩, b6, b4, by rw [b5]; exact hrot, ?_⟩
  · unfold classify at e5
    split at e5
    · unfold classifyByRmse at e5
      obtain ⟨_, _, e5⟩ := Py.bind_eq_ok.mp e5
      split at e5
      · cases e5
      · obtain ⟨⟨_, _⟩, _, e5⟩ := Py.bind_eq_ok.mp e5
        obtain ⟨aB', hn, e5⟩ := Py.bind_eq_ok.mp e5
        obtain ⟨⟨_, _, _⟩, _, e5⟩ := Py.bind_eq_ok.mp e5
        obtain ⟨_, _, e5⟩ := Py.bind_eq_ok.mp e5
        obtain ⟨_, _, e5⟩ := Py.bind_eq_ok.mp e5
        obtain ⟨ok, _, e5⟩ := Py.bind_eq_ok.mp e5
        cases ok with
        | false => cases e5
        | true => cases e5; exact Or.inr hn
    · unfold classifyByScalar at e5
      obtain ⟨_, _, e5⟩ := Py.bind_eq_ok.mp e5
      cases e5
      exact Or.inl rfl
    · cases e5
  · rw [b5]
    split at b2
    · next hin => simp only [hin, if_true]; exact b2
    · next hin => simp only [hin, Bool.false_eq_true, if_false]; exact b2
  · intro hcl htol i w b hw hb
    unfold classify at e5
    rw [hcl] at e5
    unfold classifyByScalar at e5
    obtain ⟨flags, hf, e5⟩ := Py.bind_eq_ok.mp e5
    cases e5
    rw [Py.mapM_ok (fun p _ => scalarPartsMatch_eq htol p.1 p.2)] at hf
    rw [← Except.ok.inj hf, List.getElem?_map, List.getElem?_zip_eq_some (z := (w, b)) |>.mpr ⟨hw, hb⟩]
    simp

/-- C38: a run that returns reports success iff one of the samples it drew became a candidate; and
otherwise it returns `(False, None, (inf, inf), 0, number of filtered poses, ..., None, True)`. -/
theorem C38_success_iff (svd : Svd) (rng : ℕ → List ℕ) (cfg : HandEyeConfig) (bs ws : List DQuat)
    (fuel : ℕ) (r : CalibrationResult) (h : ransac svd rng cfg bs ws fuel = .ok (some r)) :
    ∃ bf wf samples outs, filteredPoses cfg bs ws = .ok (bf, wf) ∧
      Spec.Course cfg wf.length (drawSample cfg rng wf.length) (evaluateSample svd cfg bs ws bf wf)
        (earlyAbort cfg) samples outs ∧
      (r.success = true ↔ ∃ c, SampleOutcome.candidate c ∈ outs) ∧
      (r.success = false → r = ⟨false, none, none, 0, wf.length, none, true⟩) ∧
      r.num_poses_after_filtering = wf.length := by
  obtain ⟨-, -, bf, wf, st, h1, hfin, h3⟩ := ransac_some h
  obtain ⟨samples, outs, hcourse, -, i5⟩ := finished_course hfin
  obtain ⟨f1, f2⟩ := foldl_upd outs none
  refine ⟨bf, wf, samples, outs, h1, hcourse, ?_⟩
  cases hb : st.best with
  | none =>
    rw [hb] at h3 i5
    simp only [ransacResult, Except.ok.injEq] at h3
    rw [← h3]
    have := (f1.mp i5.symm).2
    refine ⟨⟨fun hc => ?_, fun ⟨c, hc⟩ => absurd hc (this c)⟩, fun _ => rfl, rfl⟩
    cases hc
  | some c =>
    rw [hb] at h3 i5
    have hmem : SampleOutcome.candidate c ∈ outs := by simpa using (f2 c i5.symm).1
    unfold ransacResult at h3
    obtain ⟨⟨_, _⟩, _, h3⟩ := Py.bind_eq_ok.mp h3
    cases h3
    refine ⟨⟨fun _ => ⟨c, hmem⟩, fun _ => rfl⟩, fun hc => ?_, rfl⟩
    cases hc

/-- The course of a run is determined by what is drawn, how samples are evaluated and the abort rule: no
two lists of samples can both be what the run drew. -/
theorem course_unique {cfg : HandEyeConfig} {n : ℕ} {draw : ℕ → Py (List ℕ)}
    {eval : List ℕ → Py SampleOutcome} {abort : ℕ → Py Bool} {s s' : List (List ℕ)}
    {o o' : List SampleOutcome} (h : Spec.Course cfg n draw eval abort s o)
    (h' : Spec.Course cfg n draw eval abort s' o') : s = s' ∧ o = o' := by
  have hpre : ∀ {s s' : List (List ℕ)} {o o' : List SampleOutcome},
      Spec.Course cfg n draw eval abort s o → Spec.Course cfg n draw eval abort s' o' →
      o.length ≤ o'.length → o = o'.take o.length ∧ s = s'.take s.length := by
    intro s s' o o' h h' hle
    have hz := List.forall₂_iff_get.mp h.outcomes
    have hz' := List.forall₂_iff_get.mp h'.outcomes
    have hs : ∀ k (hk : k < s.length) (hk' : k < s'.length), s[k] = s'[k] := by
      intro k hk hk'
      have h1 := h.drawn k _ (List.getElem?_eq_getElem hk)
      have h2 := h'.drawn k _ (List.getElem?_eq_getElem hk')
      rw [h1] at h2
      exact Except.ok.inj h2
    have hsl : s.length ≤ s'.length := by rw [hz.1, hz'.1]; exact hle
    constructor
    · apply List.ext_getElem
      · rw [List.length_take]; omega
      · intro k hk hk'
        rw [List.getElem_take]
        have hks : k < s.length := by rw [hz.1]; exact hk
        have h1 := hz.2 k hks hk
        have h2 := hz'.2 k (by omega) (by omega)
        simp only [List.get_eq_getElem] at h1 h2
        rw [hs k hks (by omega)] at h1
        rw [h1] at h2
        exact Except.ok.inj h2
    · apply List.ext_getElem
      · rw [List.length_take]; omega
      · intro k hk hk'
        rw [List.getElem_take]
        exact hs k hk (by omega)
  have hnlt : ∀ {s s' : List (List ℕ)} {o o' : List SampleOutcome},
      Spec.Course cfg n draw eval abort s o → Spec.Course cfg n draw eval abort s' o' →
      ¬ o.length < o'.length := by
    intro s s' o o' h h' hlt
    obtain ⟨ho, -⟩ := hpre h h' hlt.le
    rcases h.stops with hx | ⟨ha, c, hc⟩
    · have := h'.goes_on o.length hlt
      rw [← ho] at this
      exact this hx
    · have hne : o ≠ [] := by rintro rfl; simp at hc
      have hpos : 0 < o.length := List.length_pos_of_ne_nil hne
      rw [List.getLast?_eq_getElem?] at hc
      have hc' : o'[o.length - 1]? = some (.candidate c) := by
        rw [← hc]
        conv => rhs; rw [ho]
        rw [List.getElem?_take, List.length_take, if_pos (by omega)]
        congr 1; omega
      have := h'.no_abort (o.length - 1) c hc' (by omega)
      rw [Nat.sub_add_cancel hpos, ← ho, ha] at this
      simp at this
  have hlen : o.length = o'.length := le_antisymm (not_lt.mp (hnlt h' h)) (not_lt.mp (hnlt h h'))
  obtain ⟨h1, h2⟩ := hpre h h' hlen.le
  have hs := h.outcomes.length_eq
  have hs' := h'.outcomes.length_eq
  refine ⟨?_, ?_⟩
  · rw [h2, List.take_of_length_le (by omega)]
  · rw [h1, List.take_of_length_le (by omega)]

theorem combinations_mem {α : Type} (l : List α) (k : ℕ) (s : List α) :
    s ∈ combinations l k ↔ s.Sublist l ∧ s.length = k := by
  induction l generalizing k s with
  | nil =>
    cases k with
    | zero => simp [combinations]
    | succ k => simp only [combinations, List.not_mem_nil, List.sublist_nil, false_iff]; rintro ⟨rfl, h⟩; simp at h
  | cons a l ih =>
    cases k with
    | zero =>
      simp only [combinations, List.mem_singleton, List.length_eq_zero_iff]
      constructor
      · rintro rfl; simp
      · exact fun h => h.2
    | succ k =>
      rw [combinations, List.mem_append, List.mem_map, ih]
      constructor
      · rintro (⟨t, ht, rfl⟩ | ⟨h1, h2⟩)
        · obtain ⟨h1, h2⟩ := (ih k t).mp ht
          exact ⟨h1.cons_cons a, by simp [h2]⟩
        · exact ⟨h1.cons a, h2⟩
      · rintro ⟨h1, h2⟩
        cases h1 with
        | cons _ h => exact Or.inr ⟨h, h2⟩
        | cons_cons _ h =>
          rename_i t
          exact Or.inl ⟨t, (ih k t).mpr ⟨h, by simpa using h2⟩, rfl⟩

theorem combinations_nodup {α : Type} (l : List α) (hl : l.Nodup) (k : ℕ) : (combinations l k).Nodup := by
  induction l generalizing k with
  | nil => cases k <;> simp [combinations]
  | cons a l ih =>
    cases k with
    | zero => simp [combinations]
    | succ k =>
      obtain ⟨ha, hl⟩ := List.nodup_cons.mp hl
      rw [combinations, List.nodup_append]
      refine ⟨(ih hl k).map (fun _ _ h => (List.cons.inj h).2), ih hl _, ?_⟩
      intro s hs t ht hst
      obtain ⟨u, -, rfl⟩ := List.mem_map.mp hs
      rw [combinations_mem, ← hst] at ht
      exact ha (ht.1.subset List.mem_cons_self)

/-- The subsets of `range n`, as strictly increasing lists. -/
theorem sublist_range {n : ℕ} {s : List ℕ} :
    s.Sublist (List.range n) ↔ s.Pairwise (· < ·) ∧ ∀ i ∈ s, i < n := by
  constructor
  · intro h
    exact ⟨List.pairwise_lt_range.sublist h, fun i hi => List.mem_range.mp (h.subset hi)⟩
  · rintro ⟨h1, h2⟩
    exact List.sublist_of_subperm_of_pairwise (r := (· < ·))
      ((List.subperm_of_subset (h1.imp (fun h => h.ne)) fun i hi => List.mem_range.mpr (h2 i hi))) h1
      List.pairwise_lt_range

/-- C39: an exhaustive search that is given enough passes never needs more, and it draws every set of
`sample_size` indices of the filtered poses (as an increasing list) exactly once, in a fixed order, which
makes `binomial(n, sample_size)` draws. -/
theorem C39_exhaustive (svd : Svd) (rng : ℕ → List ℕ) (cfg : HandEyeConfig) (bs ws : List DQuat)
    (fuel : ℕ) (r : CalibrationResult) (he : cfg.enable_exhaustive_search = true)
    (h : ransac svd rng cfg bs ws fuel = .ok (some r)) :
    ∃ bf wf samples outs, filteredPoses cfg bs ws = .ok (bf, wf) ∧
      Spec.Course cfg wf.length (drawSample cfg rng wf.length) (evaluateSample svd cfg bs ws bf wf)
        (earlyAbort cfg) samples outs ∧
      samples.Nodup ∧ samples.length = wf.length.choose cfg.ransac_sample_size ∧
      (∀ s, s ∈ samples ↔ s.Pairwise (· < ·) ∧ (∀ i ∈ s, i < wf.length) ∧ s.length = cfg.ransac_sample_size) := by
  obtain ⟨-, -, bf, wf, st, h1, hfin, h3⟩ := ransac_some h
  obtain ⟨samples, outs, hcourse, -, i5⟩ := finished_course hfin
  have hl := hcourse.outcomes.length_eq
  have hd : ∀ (k : ℕ) (s : List ℕ), samples[k]? = some s →
      (combinations (List.range wf.length) cfg.ransac_sample_size)[k]? = some s := by
    intro k s hk
    have := hcourse.drawn k s hk
    unfold drawSample at this
    rw [if_pos he] at this
    exact pyAt_eq_ok.mp this
  have hcl : (combinations (List.range wf.length) cfg.ransac_sample_size).length =
      wf.length.choose cfg.ransac_sample_size := by rw [combinations_length, List.length_range]
  have hlen : samples.length = wf.length.choose cfg.ransac_sample_size := by
    apply le_antisymm
    · by_contra hc
      push Not at hc
      have := hcourse.goes_on (wf.length.choose cfg.ransac_sample_size) (by rw [← hl]; exact hc)
      apply this
      unfold Spec.Exhausted
      rw [if_pos he]
    · rcases hcourse.stops with hx | ⟨ha, -⟩
      · unfold Spec.Exhausted at hx
        rw [if_pos he] at hx
        rw [hl]; exact hx
      · unfold earlyAbort at ha
        rw [if_neg (by rw [he]; simp)] at ha
        cases ha
  have heq : samples = combinations (List.range wf.length) cfg.ransac_sample_size := by
    apply List.ext_getElem
    · rw [hlen, hcl]
    · intro k hk hk'
      have := hd k _ (List.getElem?_eq_getElem hk)
      rw [List.getElem?_eq_getElem hk'] at this
      exact (Option.some.inj this).symm
  refine ⟨bf, wf, samples, outs, h1, hcourse, ?_, hlen, ?_⟩
  · rw [heq]; exact combinations_nodup _ List.nodup_range _
  · intro s
    rw [heq, combinations_mem, sublist_range, and_assoc]

/-- C39: `binomial(n, sample_size)` passes are enough. -/
theorem C39_terminates (svd : Svd) (rng : ℕ → List ℕ) (cfg : HandEyeConfig) (bs ws : List DQuat)
    (fuel : ℕ) (he : cfg.enable_exhaustive_search = true)
    (hf : ∀ bf wf, filteredPoses cfg bs ws = .ok (bf, wf) → wf.length.choose cfg.ransac_sample_size ≤ fuel) :
    ransac svd rng cfg bs ws fuel ≠ .ok none := by
  intro h
  unfold ransac at h
  obtain ⟨_, h1, h⟩ := Py.bind_eq_ok.mp h
  obtain ⟨_, h2, h⟩ := Py.bind_eq_ok.mp h
  obtain ⟨⟨bf, wf⟩, h3, h⟩ := Py.bind_eq_ok.mp h
  obtain ⟨o, h4, h⟩ := Py.bind_eq_ok.mp h
  cases o with
  | some st => obtain ⟨_, _, h⟩ := Py.bind_eq_ok.mp h; cases h
  | none =>
    obtain ⟨samples, outs, i1, i2, i3, st', i4, i5, i6⟩ := ransacLoop_none _ _ _ _ _ _ _ h4
    have hx : ¬ Spec.Exhausted cfg wf.length st'.sample_number st'.full_iterations := by
      intro hx
      rw [← loopCondition_eq] at hx
      rw [hx] at i6
      cases i6
    apply hx
    unfold Spec.Exhausted
    rw [if_pos he, i4, i3]
    simpa using hf bf wf h3

theorem ransacLoop_rng {svd : Svd} {cfg : HandEyeConfig} (rng rng' : ℕ → List ℕ) {bs ws bf wf : List DQuat}
    (he : cfg.enable_exhaustive_search = true) (fuel : ℕ) (st : LoopState) :
    ransacLoop svd cfg rng bs ws bf wf fuel st = ransacLoop svd cfg rng' bs ws bf wf fuel st := by
  have hd : ∀ n k, drawSample cfg rng n k = drawSample cfg rng' n k := by
    intro n k
    unfold drawSample
    rw [if_pos he, if_pos he]
  induction fuel generalizing st with
  | zero => rw [ransacLoop, ransacLoop]
  | succ fuel ih =>
    have hs : ransacStep svd cfg rng bs ws bf wf st = ransacStep svd cfg rng' bs ws bf wf st := by
      unfold ransacStep; rw [hd]
    rw [ransacLoop, ransacLoop, hs]
    simp only [ih]

/-- C39: the exhaustive search does not depend on the random generator. -/
theorem C39_deterministic (svd : Svd) (rng rng' : ℕ → List ℕ) (cfg : HandEyeConfig) (bs ws : List DQuat)
    (fuel : ℕ) (he : cfg.enable_exhaustive_search = true) :
    ransac svd rng cfg bs ws fuel = ransac svd rng' cfg bs ws fuel := by
  unfold ransac
  simp only [ransacLoop_rng rng rng' he]

/-- All pairs out of four poses. -/
example : combinations (List.range 4) 2 = [[0, 1], [0, 2], [0, 3], [1, 2], [1, 3], [2, 3]] := rfl

end HandEye
