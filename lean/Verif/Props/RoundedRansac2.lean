import Verif.Props.RoundedRansac

/-! # Property C117, continued: the prefilter, and RANSAC without rounding -/

namespace HandEye

/-! ## The prefilter keeps pairs -/

theorem zip_eraseIdx_both {α β : Type} : ∀ (l : List α) (m : List β) (i : ℕ), (l.eraseIdx i).zip (m.eraseIdx i) = (l.zip m).eraseIdx i := by
  intro l
  induction l with
  | nil => intro m i; simp
  | cons a l ih =>
    intro m i
    cases m with
    | nil => simp
    | cons b m =>
      cases i with
      | zero => rfl
      | succ i => simp [ih]

theorem prefilterInner_keeps (threshold : ℝ) (aw ab : Vec3) (j : ℕ) (we bh : List DQuat) (r : List DQuat × List DQuat)
    (h : prefilterInner threshold aw ab j we bh = .ok r) (hl : we.length = bh.length) :
    r.1.length = r.2.length ∧ (r.1.zip r.2).Sublist (we.zip bh) := by
  induction hn : we.length - j using Nat.strong_induction_on generalizing j we bh with
  | _ n ih =>
  rw [prefilterInner] at h
  split at h
  case isFalse => cases h; exact ⟨hl, List.Sublist.refl _⟩
  case isTrue hj =>
    have h1 : (we.eraseIdx j).length = we.length - 1 := List.length_eraseIdx_of_lt hj
    have h2 : (bh.eraseIdx j).length = bh.length - 1 := List.length_eraseIdx_of_lt (by omega)
    have key : prefilterInner threshold aw ab j (we.eraseIdx j) (bh.eraseIdx j) = .ok r → r.1.length = r.2.length ∧ (r.1.zip r.2).Sublist (we.zip bh) := by
      intro hh
      obtain ⟨k1, k2⟩ := ih _ (by omega) j _ _ hh (by omega) rfl
      rw [zip_eraseIdx_both] at k2
      exact ⟨k1, k2.trans (List.eraseIdx_sublist _ _)⟩
    obtain ⟨b, _, h⟩ := Py.bind_eq_ok.mp h
    obtain ⟨o, _, h⟩ := Py.bind_eq_ok.mp h
    cases o with
    | none => exact key h
    | some a =>
      obtain ⟨a1, a2⟩ := a
      dsimp only at h
      split_ifs at h
      · exact key h
      · exact key h
      · exact ih _ (by omega) (j + 1) we bh h hl rfl

theorem prefilterOuter_keeps (threshold : ℝ) (i : ℕ) (we bh : List DQuat) (r : ℕ × List DQuat × List DQuat)
    (h : prefilterOuter threshold i we bh = .ok r) (hl : we.length = bh.length) :
    r.2.1.length = r.2.2.length ∧ (r.2.1.zip r.2.2).Sublist (we.zip bh) := by
  induction hn : we.length - i using Nat.strong_induction_on generalizing i we bh with
  | _ n ih =>
  rw [prefilterOuter] at h
  split at h
  case isFalse => cases h; exact ⟨hl, List.Sublist.refl _⟩
  case isTrue hj =>
    have h1 : (we.eraseIdx i).length = we.length - 1 := List.length_eraseIdx_of_lt hj
    have h2 : (bh.eraseIdx i).length = bh.length - 1 := List.length_eraseIdx_of_lt (by omega)
    obtain ⟨b, _, h⟩ := Py.bind_eq_ok.mp h
    obtain ⟨o, _, h⟩ := Py.bind_eq_ok.mp h
    cases o with
    | none =>
      obtain ⟨k1, k2⟩ := ih _ (by omega) i _ _ h (by omega) rfl
      rw [zip_eraseIdx_both] at k2
      exact ⟨k1, k2.trans (List.eraseIdx_sublist _ _)⟩
    | some a =>
      obtain ⟨a1, a2⟩ := a
      dsimp only at h
      split at h
      · cases h
      · rename_i q hq
        obtain ⟨k1, k2⟩ := prefilterInner_keeps _ _ _ _ _ _ _ hq hl
        have := prefilterInner_length _ _ _ _ _ _ _ hq
        obtain ⟨k3, k4⟩ := ih _ (by omega) (i + 1) _ _ h k1 rfl
        exact ⟨k3, k4.trans k2⟩

/-- **C117**: the prefilter of the code keeps some of the pairs, in their order, whatever the poses are. -/
theorem C117_prefilter (cfg : HandEyeConfig) : Spec.KeepsPairs (filteredPoses cfg) := by
  intro bs ws r hl h
  unfold filteredPoses at h
  split at h
  · obtain ⟨q, h1, h⟩ := Py.bind_eq_ok.mp h
    obtain ⟨_, _, h⟩ := Py.bind_eq_ok.mp h
    cases h
    unfold prefilterUsingScrewAxis at h1
    obtain ⟨⟨i, we, bh⟩, h2, h1⟩ := Py.bind_eq_ok.mp h1
    obtain ⟨_, _, h1⟩ := Py.bind_eq_ok.mp h1
    cases h1
    obtain ⟨k1, k2⟩ := prefilterOuter_keeps _ _ _ _ _ h2 hl.symm
    exact ⟨k1.symm, k2⟩
  · cases h
    exact ⟨hl, List.Sublist.refl _⟩

/-! ## Without rounding -/

theorem exact_scalarMatch (tol : ℝ) (w b : DQuat) : exactArith.scalarMatch tol w b = scalarPartsMatch tol w b := rfl

theorem exact_allMatch (tol : ℝ) : ∀ ws bs : List DQuat, exactArith.allMatch tol ws bs = samplesMatch tol ws bs := by
  intro ws
  induction ws with
  | nil => intro bs; rfl
  | cons w ws ih =>
    intro bs
    cases bs with
    | nil => rfl
    | cons b bs => rw [Arith.allMatch, samplesMatch, exact_scalarMatch, ih]

theorem exact_sampleTest (cfg : HandEyeConfig) (bf wf : List DQuat) (is : List ℕ) : exactArith.sampleTest cfg bf wf is = sampleTest cfg bf wf is := by
  unfold Arith.sampleTest sampleTest
  simp only [exact_alignPaths_at, exact_allMatch]

theorem exact_evaluate {o p : ℝ} {bs ws : List DQuat} {X : DQuat} {as cs : List Pose} {rp ro : ℝ} {flags : List Bool}
    (h1 : getAlignedPoses bs ws X = .ok (as, cs)) (h2 : evaluateAlignment o p as cs = .ok (rp, ro, flags)) :
    exactArith.evaluate o p as cs = .ok (rp, some ro, flags) := (C97_exact_arithmetic o p bs ws X as cs rp ro flags h1 h2).1

theorem exact_classify {svd : Svd} {cfg : HandEyeConfig} {sb sw ab aw : List DQuat} {r : Option Classified}
    (h : classify svd cfg sb sw ab aw = .ok r) : exactArith.classify svd cfg sb sw ab aw = .ok r := by
  unfold classify at h
  unfold Arith.classify
  cases hc : cfg.ransac_inlier_classification with
  | other => rw [hc] at h; cases h
  | scalarPartEquality => rw [hc] at h; exact h
  | rmseThreshold =>
    rw [hc] at h
    dsimp only at h ⊢
    unfold classifyByRmse at h
    unfold Arith.classifyByRmse
    rw [exact_tryCalibrate]
    obtain ⟨_, a1, h⟩ := Py.bind_eq_ok.mp h
    rw [a1, Py.ok_bind]
    cases ht : tryCalibration svd cfg.hand_eye_calibration_scalar_part_equality_tolerance sb sw with
    | none => rw [ht] at h; exact h
    | some c =>
      rw [ht] at h
      dsimp only at h ⊢
      obtain ⟨⟨p1, p2⟩, a2, h⟩ := Py.bind_eq_ok.mp h
      obtain ⟨ab', a3, h⟩ := Py.bind_eq_ok.mp h
      obtain ⟨⟨rp, ro, fl⟩, a4, h⟩ := Py.bind_eq_ok.mp h
      rw [exact_getAlignedPoses, a2, Py.ok_bind]
      rw [show exactArith.dqNormalize = DQuat.normalize from funext exact_dqNormalize, a3, Py.ok_bind]
      dsimp only
      rw [exact_evaluate a2 a4, Py.ok_bind]
      simp only [exact_allMatch]
      exact h

/-- The candidates of the two models. -/
structure SameCandidate (c : Candidate) (f : FloatCandidate) : Prop where
  sample : f.sample_indices = c.sample_indices
  dq : f.calibration.dq_H_E = c.dq_H_E
  position : f.rmse_position = c.rmse_position
  orientation : f.rmse_orientation = some c.rmse_orientation
  inliers : f.num_inliers = c.num_inliers
  values : f.calibration.singular_values = c.singular_values
  bad : f.calibration.bad_singular_values = c.bad_singular_values

/-- The same for what may be missing. -/
def SameBest : Option Candidate → Option FloatCandidate → Prop
  | none, none => True
  | some c, some f => SameCandidate c f
  | _, _ => False

theorem exact_buildCandidate {svd : Svd} {cfg : HandEyeConfig} {is : List ℕ} {k : Classified} {aw : List DQuat} {r : Option Candidate}
    (h : buildCandidate svd cfg is k aw = .ok r) : ∃ f, exactArith.buildCandidate svd cfg is k aw = .ok f ∧ SameBest r f := by
  unfold buildCandidate at h
  unfold Arith.buildCandidate
  obtain ⟨_, a1, h⟩ := Py.bind_eq_ok.mp h
  dsimp only
  rw [a1, Py.ok_bind]
  split at h
  · rename_i hn
    rw [if_pos hn]
    cases h
    exact ⟨none, rfl, trivial⟩
  rename_i hn
  rw [if_neg hn]
  have hr : exactArith.refine svd cfg k.initial (compress k.aligned_dq_B_H k.inlier_flags) (compress aw k.inlier_flags) =
      refine svd cfg k.initial (compress k.aligned_dq_B_H k.inlier_flags) (compress aw k.inlier_flags) := by
    unfold Arith.refine refine
    simp only [exact_tryCalibrate]
    cases cfg.ransac_model_refinement <;> cases k.initial <;> rfl
  rw [hr]
  cases hre : refine svd cfg k.initial (compress k.aligned_dq_B_H k.inlier_flags) (compress aw k.inlier_flags) with
  | none =>
    rw [hre] at h
    cases h
    exact ⟨none, rfl, trivial⟩
  | some c =>
    rw [hre] at h
    dsimp only at h ⊢
    unfold Arith.posesToEvaluate
    simp only [exact_getAlignedPoses]
    split at h <;> rename_i hf <;> simp only [hf, if_true, if_false, Bool.false_eq_true]
    all_goals
      obtain ⟨⟨p1, p2⟩, a2, h⟩ := Py.bind_eq_ok.mp h
      obtain ⟨⟨rp, ro, fl⟩, a3, h⟩ := Py.bind_eq_ok.mp h
      cases h
      rw [a2, Py.ok_bind]
      dsimp only
      rw [exact_evaluate a2 a3, Py.ok_bind]
      exact ⟨_, rfl, ⟨rfl, rfl, rfl, rfl, rfl, rfl, rfl⟩⟩

/-- The outcomes of the two models. -/
def SameOutcome : SampleOutcome → FloatOutcome → Prop
  | .prerejected, .prerejected => True
  | .rejected, .rejected => True
  | .candidate c, .candidate f => SameCandidate c f
  | _, _ => False

theorem exact_evaluateSample {svd : Svd} {cfg : HandEyeConfig} {bs ws bf wf : List DQuat} {is : List ℕ} {r : SampleOutcome}
    (h : evaluateSample svd cfg bs ws bf wf is = .ok r) : ∃ f, exactArith.evaluateSample svd cfg bs ws bf wf is = .ok f ∧ SameOutcome r f := by
  unfold evaluateSample at h
  unfold Arith.evaluateSample
  obtain ⟨⟨good, sb, sw⟩, a1, h⟩ := Py.bind_eq_ok.mp h
  rw [exact_sampleTest, a1, Py.ok_bind]
  dsimp only at h ⊢
  cases good with
  | false => cases h; exact ⟨_, rfl, trivial⟩
  | true =>
    simp only [if_true] at h ⊢
    obtain ⟨i0, a2, h⟩ := Py.bind_eq_ok.mp h
    obtain ⟨ab, a3, h⟩ := Py.bind_eq_ok.mp h
    obtain ⟨aw, a4, h⟩ := Py.bind_eq_ok.mp h
    obtain ⟨ok, a5, h⟩ := Py.bind_eq_ok.mp h
    rw [a2, Py.ok_bind, exact_alignPaths_at, a3, Py.ok_bind, exact_alignPaths_at, a4, Py.ok_bind, exact_classify a5, Py.ok_bind]
    cases ok with
    | none => cases h; exact ⟨_, rfl, trivial⟩
    | some k =>
      dsimp only at h ⊢
      obtain ⟨oc, a6, h⟩ := Py.bind_eq_ok.mp h
      obtain ⟨f, a7, a8⟩ := exact_buildCandidate a6
      rw [a7, Py.ok_bind]
      cases oc with
      | none =>
        cases h
        cases f with
        | none => exact ⟨_, rfl, trivial⟩
        | some f => exact absurd a8 id
      | some c =>
        cases h
        cases f with
        | none => exact absurd a8 id
        | some f => exact ⟨_, rfl, a8⟩

/-- The states of the two loops. -/
structure SameState (s : LoopState) (f : FloatState) : Prop where
  number : f.sample_number = s.sample_number
  full : f.full_iterations = s.full_iterations
  rejected : f.prerejected_samples = s.prerejected_samples
  best : SameBest s.best f.best

theorem exact_updateBest {b : Option Candidate} {c : Candidate} {b' : Option FloatCandidate} {c' : FloatCandidate} (hb : SameBest b b')
    (hc : SameCandidate c c') : SameBest (updateBest b c) (updateBestFloat b' c') := by
  unfold updateBest updateBestFloat
  cases b with
  | none =>
    cases b' with
    | some f => exact absurd hb id
    | none =>
      rw [if_pos (by simp [numLtOrInf, hc.orientation])]
      exact hc
  | some b =>
    cases b' with
    | none => exact absurd hb id
    | some f =>
      have e : (numLtOrInf (some c'.rmse_position) ((some f).map fun b => some b.rmse_position) &&
          numLtOrInf c'.rmse_orientation ((some f).map FloatCandidate.rmse_orientation)) = true ↔
          c.rmse_position < b.rmse_position ∧ c.rmse_orientation < b.rmse_orientation := by
        simp [numLtOrInf, numLt, hc.orientation, hc.position, hb.position, hb.orientation]
      dsimp only
      split_ifs with h1 h2 h2
      · exact hc
      · exact absurd (e.mpr h1) h2
      · exact absurd (e.mp h2) h1
      · exact hb

theorem exact_ransacStep {svd : Svd} {cfg : HandEyeConfig} {rng : ℕ → List ℕ} {bs ws bf wf : List DQuat} {st st' : LoopState} {stop : Bool} {f : FloatState}
    (hf : SameState st f) (h : ransacStep svd cfg rng bs ws bf wf st = .ok (st', stop)) :
    ∃ f', exactArith.ransacStep svd cfg rng (earlyAbort cfg) bs ws bf wf f = .ok (f', stop) ∧ SameState st' f' := by
  unfold ransacStep at h
  unfold Arith.ransacStep
  obtain ⟨is, a1, h⟩ := Py.bind_eq_ok.mp h
  obtain ⟨o, a2, h⟩ := Py.bind_eq_ok.mp h
  obtain ⟨o', a3, a4⟩ := exact_evaluateSample a2
  rw [hf.number, a1, Py.ok_bind]
  dsimp only
  rw [a3, Py.ok_bind]
  cases o with
  | prerejected =>
    cases h
    cases o' with
    | prerejected => exact ⟨_, rfl, ⟨rfl, hf.full, by dsimp only; rw [hf.rejected], hf.best⟩⟩
    | rejected => exact absurd a4 id
    | candidate _ => exact absurd a4 id
  | rejected =>
    cases h
    cases o' with
    | prerejected => exact absurd a4 id
    | rejected => exact ⟨_, rfl, ⟨rfl, hf.full, hf.rejected, hf.best⟩⟩
    | candidate _ => exact absurd a4 id
  | candidate c =>
    cases o' with
    | prerejected => exact absurd a4 id
    | rejected => exact absurd a4 id
    | candidate c' =>
      dsimp only at h ⊢
      obtain ⟨ab, a5, h⟩ := Py.bind_eq_ok.mp h
      cases h
      rw [hf.full, a5, Py.ok_bind]
      exact ⟨_, rfl, ⟨rfl, rfl, hf.rejected, exact_updateBest hf.best a4⟩⟩

theorem exact_ransacLoop {svd : Svd} {cfg : HandEyeConfig} {rng : ℕ → List ℕ} {bs ws bf wf : List DQuat} : ∀ {fuel : ℕ} {st : LoopState} {f : FloatState}
    {r : Option LoopState}, SameState st f → ransacLoop svd cfg rng bs ws bf wf fuel st = .ok r →
    ∃ r', exactArith.ransacLoop svd cfg rng (earlyAbort cfg) bs ws bf wf fuel f = .ok r' ∧
      ((r = none ∧ r' = none) ∨ ∃ s s', r = some s ∧ r' = some s' ∧ SameState s s') := by
  intro fuel
  induction fuel with
  | zero =>
    intro st f r hf h
    unfold ransacLoop at h
    unfold Arith.ransacLoop
    rw [show loopCondition cfg wf.length { sample_number := f.sample_number, full_iterations := f.full_iterations } = loopCondition cfg wf.length st by
      unfold loopCondition; rw [hf.number, hf.full]]
    split at h
    · rename_i hc
      rw [if_pos hc]
      cases h
      exact ⟨_, rfl, .inl ⟨rfl, rfl⟩⟩
    · rename_i hc
      rw [if_neg hc]
      cases h
      exact ⟨_, rfl, .inr ⟨_, _, rfl, rfl, hf⟩⟩
  | succ fuel ih =>
    intro st f r hf h
    unfold ransacLoop at h
    unfold Arith.ransacLoop
    rw [show loopCondition cfg wf.length { sample_number := f.sample_number, full_iterations := f.full_iterations } = loopCondition cfg wf.length st by
      unfold loopCondition; rw [hf.number, hf.full]]
    split at h
    swap
    · rename_i hc
      rw [if_neg hc]
      cases h
      exact ⟨_, rfl, .inr ⟨_, _, rfl, rfl, hf⟩⟩
    rename_i hc
    rw [if_pos hc]
    dsimp only at h ⊢
    obtain ⟨⟨st1, stop⟩, a1, h⟩ := Py.bind_eq_ok.mp h
    obtain ⟨f1, a2, a3⟩ := exact_ransacStep hf a1
    rw [a2, Py.ok_bind]
    dsimp only at h ⊢
    cases stop with
    | true => cases h; exact ⟨_, rfl, .inr ⟨_, _, rfl, rfl, a3⟩⟩
    | false => exact ih a3 h

/-- **C117**: where the model over the real numbers returns, the model of this property without rounding returns the same: it finds a calibration in the same
cases, with the same dual quaternion, errors, number of inliers and singular values. -/
theorem C117_exact (svd : Svd) (rng : ℕ → List ℕ) (cfg : HandEyeConfig) (bs ws : List DQuat) (fuel : ℕ) (r : CalibrationResult)
    (h : ransac svd rng cfg bs ws fuel = .ok (some r)) :
    ∃ f, exactArith.ransac svd rng (earlyAbort cfg) cfg (filteredPoses cfg) bs ws fuel = .ok (some f) ∧
      f.map (fun c => c.calibration.dq_H_E) = r.dq_H_E ∧ f.map (fun c => c.calibration.singular_values) = r.singular_values ∧
      f.map (fun c => (c.rmse_position, c.rmse_orientation)) = r.rmse.map (fun e => (e.1, some e.2)) ∧
      ∀ c, f = some c → c.num_inliers = r.num_inliers ∧ c.calibration.bad_singular_values = r.bad_singular_values := by
  unfold ransac at h
  unfold Arith.ransac
  obtain ⟨_, a1, h⟩ := Py.bind_eq_ok.mp h
  obtain ⟨_, a2, h⟩ := Py.bind_eq_ok.mp h
  obtain ⟨⟨bf, wf⟩, a3, h⟩ := Py.bind_eq_ok.mp h
  obtain ⟨o, a4, h⟩ := Py.bind_eq_ok.mp h
  rw [a1, Py.ok_bind, a2, Py.ok_bind, a3, Py.ok_bind]
  dsimp only at a4 ⊢
  obtain ⟨o', a5, a6⟩ := exact_ransacLoop (st := {}) (f := {}) ⟨rfl, rfl, rfl, trivial⟩ a4
  rw [a5, Py.ok_bind]
  rcases a6 with ⟨rfl, rfl⟩ | ⟨st, st', rfl, rfl, a6⟩
  · cases h
  dsimp only at h ⊢
  obtain ⟨res, a7, h⟩ := Py.bind_eq_ok.mp h
  cases h
  have hb := a6.best
  unfold ransacResult at a7
  unfold Arith.ransacResult
  cases h1 : st.best with
  | none =>
    rw [h1] at a7 hb
    cases h2 : st'.best with
    | some f => rw [h2] at hb; exact absurd hb id
    | none =>
      cases a7
      exact ⟨none, rfl, rfl, rfl, rfl, fun c hc => by cases hc⟩
  | some b =>
    rw [h1] at a7 hb
    cases h2 : st'.best with
    | none => rw [h2] at hb; exact absurd hb id
    | some f =>
      rw [h2] at hb
      dsimp only at a7 ⊢
      obtain ⟨⟨p, dq⟩, a8, a7⟩ := Py.bind_eq_ok.mp a7
      cases a7
      have hn : b.dq_H_E.normalize = .ok dq := by
        unfold DQuat.toPose at a8
        obtain ⟨d, e1, e2⟩ := Py.bind_eq_ok.mp a8
        cases e2
        exact e1
      rw [hb.dq, exact_toPose, a8, exact_dqNormalize, hn]
      refine ⟨_, rfl, rfl, ?_, ?_, ?_⟩
      · simp [hb.values]
      · simp [hb.position, hb.orientation]
      · intro c hc
        cases hc
        exact ⟨hb.inliers, hb.bad⟩

end HandEye
