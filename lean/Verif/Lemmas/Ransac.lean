import Verif.Model.Ransac
import Verif.Lemmas.System

/-! # Lemmas about the RANSAC loop -/

namespace HandEye

/-- The tolerance test on the scalar parts of a pair of poses. -/
def ScalarsClose (tol : ℝ) (w b : DQuat) : Prop :=
  npIsclose w.rot.w b.rot.w tol ∧ npIsclose w.dual.w b.dual.w tol

open Classical in
theorem scalarPartsMatch_eq {tol : ℝ} (ht : 0 ≤ tol) (w b : DQuat) :
    scalarPartsMatch tol w b = .ok (decide (ScalarsClose tol w b)) := by
  unfold scalarPartsMatch
  rw [scalar_ok, Py.ok_bind, scalar_ok, Py.ok_bind, Py.pure_eq]
  congr 1
  rw [decide_eq_decide]
  have z : npIsclose 0 0 tol := npIsclose_self 0 ht
  constructor
  · rintro ⟨⟨-, -, -, h1⟩, -, -, -, h2⟩; exact ⟨h1, h2⟩
  · rintro ⟨h1, h2⟩; exact ⟨⟨z, z, z, h1⟩, z, z, z, h2⟩

open Classical in
theorem samplesMatch_eq {tol : ℝ} (ht : 0 ≤ tol) (ws bs : List DQuat) :
    samplesMatch tol ws bs = .ok (decide (∀ p ∈ ws.zip bs, ScalarsClose tol p.1 p.2)) := by
  induction ws generalizing bs with
  | nil => simp [samplesMatch]
  | cons w ws ih =>
    cases bs with
    | nil => simp [samplesMatch]
    | cons b bs =>
      rw [samplesMatch, scalarPartsMatch_eq ht, Py.ok_bind]
      by_cases h : ScalarsClose tol w b
      · simp only [h, decide_true, if_true]
        rw [ih]
        simp [h]
      · simp [h]

/-- The sign loop changes nothing on lists with non-negative scalar parts. -/
theorem enforceSameSign_nonneg {bs ws : List DQuat} (hl : bs.length ≤ ws.length)
    (hb : ∀ b ∈ bs, 0 ≤ b.rot.w) (hw : ∀ w ∈ ws, 0 ≤ w.rot.w) : enforceSameSign bs ws = .ok ws := by
  induction bs generalizing ws with
  | nil => rfl
  | cons b bs ih =>
    cases ws with
    | nil => simp at hl
    | cons w ws =>
      have h1 := hb b List.mem_cons_self
      have h2 := hw w List.mem_cons_self
      have : ¬ ((w.rot.w < 0 ∧ b.rot.w > 0) ∨ (w.rot.w > 0 ∧ b.rot.w < 0)) := by
        rintro (⟨h, _⟩ | ⟨_, h⟩) <;> linarith
      rw [enforceSameSign, ih (by simpa using hl) (fun x hx => hb x (List.mem_cons_of_mem _ hx))
        (fun x hx => hw x (List.mem_cons_of_mem _ hx))]
      simp only [if_neg this]
      rfl

section loop

variable (svd : Svd) (cfg : HandEyeConfig) (rng : ℕ → List ℕ) (bs ws bf wf : List DQuat)

/-- The effect of an outcome on the best candidate. -/
noncomputable def upd (best : Option Candidate) : SampleOutcome → Option Candidate
  | .candidate c => updateBest best c
  | _ => best

/-- The effect of an outcome on the number of full iterations. -/
def isCandidate : SampleOutcome → Bool
  | .candidate _ => true
  | _ => false

/-- What a finished loop has done: the samples it drew, their outcomes and the effect. -/
def Finished (fuel : ℕ) (st st' : LoopState) : Prop :=
    ∃ samples outs, (∀ (k : ℕ) (s : List ℕ), samples[k]? = some s →
        drawSample cfg rng wf.length (st.sample_number + k) = .ok s) ∧
      List.Forall₂ (fun s o => evaluateSample svd cfg bs ws bf wf s = .ok o) samples outs ∧
      samples.length ≤ fuel ∧
      st'.sample_number = st.sample_number + samples.length ∧
      st'.best = outs.foldl upd st.best ∧
      st'.full_iterations = st.full_iterations + outs.countP isCandidate ∧
      (loopCondition cfg wf.length st' = false ∨
        (earlyAbort cfg st'.full_iterations = .ok true ∧ ∃ c, outs.getLast? = some (.candidate c))) ∧
      (∀ j < outs.length, ∀ st'' : LoopState, st''.sample_number = st.sample_number + j →
        st''.full_iterations = st.full_iterations + (outs.take j).countP isCandidate →
        loopCondition cfg wf.length st'' = true) ∧
      (∀ (j : ℕ) (c : Candidate), outs[j]? = some (.candidate c) → j + 1 < outs.length →
        earlyAbort cfg (st.full_iterations + (outs.take (j + 1)).countP isCandidate) = .ok false)

/-- The loop condition depends on two counters only. -/
theorem loopCondition_congr {n : ℕ} {s t : LoopState} (h1 : s.sample_number = t.sample_number)
    (h2 : s.full_iterations = t.full_iterations) : loopCondition cfg n s = loopCondition cfg n t := by
  unfold loopCondition; rw [h1, h2]

/-- What an unfinished loop has done. -/
def Unfinished (fuel : ℕ) (st : LoopState) : Prop :=
    ∃ samples outs, (∀ (k : ℕ) (s : List ℕ), samples[k]? = some s →
        drawSample cfg rng wf.length (st.sample_number + k) = .ok s) ∧
      List.Forall₂ (fun s o => evaluateSample svd cfg bs ws bf wf s = .ok o) samples outs ∧
      samples.length = fuel ∧
      ∃ st' : LoopState, st'.sample_number = st.sample_number + samples.length ∧
      st'.full_iterations = st.full_iterations + outs.countP isCandidate ∧
      loopCondition cfg wf.length st' = true

/-- What a finished loop has done. -/
theorem ransacLoop_some {fuel : ℕ} {st st' : LoopState}
    (h : ransacLoop svd cfg rng bs ws bf wf fuel st = .ok (some st')) :
    Finished svd cfg rng bs ws bf wf fuel st st' := by
  induction fuel generalizing st with
  | zero =>
    rw [ransacLoop] at h
    split at h
    · cases h
    · next hc =>
      cases h
      exact ⟨[], [], by simp, .nil, le_rfl, by simp, rfl, by simp, Or.inl (by simpa using hc), by simp, by simp⟩
  | succ fuel ih =>
    rw [ransacLoop] at h
    split at h
    case isFalse hc =>
      cases h
      exact ⟨[], [], by simp, .nil, by simp, by simp, rfl, by simp, Or.inl (by simpa using hc), by simp, by simp⟩
    case isTrue hc =>
      dsimp only at h
      obtain ⟨⟨s1, stop⟩, hs, h⟩ := Py.bind_eq_ok.mp h
      unfold ransacStep at hs
      obtain ⟨sample, hd, hs⟩ := Py.bind_eq_ok.mp hs
      obtain ⟨o, ho, hs⟩ := Py.bind_eq_ok.mp hs
      -- the common part
      have key : ∀ (s1 : LoopState), s1.sample_number = st.sample_number + 1 →
          s1.best = upd st.best o → (isCandidate o = true → earlyAbort cfg s1.full_iterations = .ok false) → s1.full_iterations = st.full_iterations + (if isCandidate o then 1 else 0) →
          ransacLoop svd cfg rng bs ws bf wf fuel s1 = .ok (some st') →
          Finished svd cfg rng bs ws bf wf (fuel + 1) st st' := by
        intro s1 e1 e2 e4 e3 h
        obtain ⟨samples, outs, i1, i2, i3, i4, i5, i6, i7, i8, i9⟩ := ih h
        refine ⟨sample :: samples, o :: outs, ?_, .cons ho i2, by simpa using i3, ?_, ?_, ?_, ?_, ?_, ?_⟩
        · intro k s hk
          cases k with
          | zero => simp only [List.getElem?_cons_zero, Option.some.injEq] at hk; rw [← hk]; exact hd
          | succ k =>
            simp only [List.getElem?_cons_succ] at hk
            have := i1 k s hk
            rw [e1] at this
            rw [← this]; congr 1; ring
        · rw [i4, e1, List.length_cons]; ring
        · rw [i5, e2, List.foldl_cons]
        · rw [i6, e3, List.countP_cons]; ring
        · rcases i7 with i7 | ⟨i7, c, hc⟩
          · exact Or.inl i7
          · refine Or.inr ⟨i7, c, ?_⟩
            cases outs with
            | nil => simp at hc
            | cons o' outs => rw [List.getLast?_cons_cons]; exact hc
        · intro j hj st'' g1 g2
          cases j with
          | zero =>
            rw [← hc]
            exact loopCondition_congr cfg (by simpa using g1) (by simpa using g2)
          | succ j =>
            apply i8 j (by simpa using hj) st''
            · rw [g1, e1]; ring
            · rw [g2, e3, List.take_succ_cons, List.countP_cons]; ring
        · intro j c hj hlt
          cases j with
          | zero =>
            simp only [List.getElem?_cons_zero, Option.some.injEq] at hj
            have := e4 (by rw [hj]; rfl)
            rw [← this, e3, hj]
            simp [isCandidate]
          | succ j =>
            rw [← i9 j c (by simpa using hj) (by simpa using hlt), e3, List.take_succ_cons, List.countP_cons]
            congr 1; ring
      cases o with
      | prerejected =>
        cases hs
        simp only [Bool.false_eq_true, if_false] at h
        refine key _ ?_ ?_ ?_ ?_ h <;> simp [upd, isCandidate]
      | rejected =>
        cases hs
        simp only [Bool.false_eq_true, if_false] at h
        refine key _ ?_ ?_ ?_ ?_ h <;> simp [upd, isCandidate]
      | candidate c =>
        obtain ⟨ab, hab, hs⟩ := Py.bind_eq_ok.mp hs
        cases hs
        cases stop with
        | false =>
          simp only [Bool.false_eq_true, if_false] at h
          refine key _ ?_ ?_ ?_ ?_ h
          · simp
          · simp [upd]
          · exact fun _ => hab
          · simp [isCandidate]
        | true =>
          cases h
          refine ⟨[sample], [.candidate c], ?hd, .cons ho .nil, by simp, by simp, rfl, by simp [isCandidate],
            Or.inr ⟨hab, c, rfl⟩, ?_, by simp⟩
          · intro k s hk
            cases k with
            | zero => simp only [List.getElem?_cons_zero, Option.some.injEq] at hk; rw [← hk]; exact hd
            | succ k => simp at hk
          · intro j hj st'' g1 g2
            obtain rfl : j = 0 := by simpa using hj
            rw [← hc]
            exact loopCondition_congr cfg (by simpa using g1) (by simpa using g2)

/-- What a loop that has not finished has done. -/
theorem ransacLoop_none {fuel : ℕ} {st : LoopState}
    (h : ransacLoop svd cfg rng bs ws bf wf fuel st = .ok none) :
    Unfinished svd cfg rng bs ws bf wf fuel st := by
  induction fuel generalizing st with
  | zero =>
    rw [ransacLoop] at h
    split at h
    · next hc => exact ⟨[], [], by simp, .nil, rfl, st, by simp, by simp, hc⟩
    · cases h
  | succ fuel ih =>
    rw [ransacLoop] at h
    split at h
    case isFalse hc => cases h
    case isTrue hc =>
      dsimp only at h
      obtain ⟨⟨s1, stop⟩, hs, h⟩ := Py.bind_eq_ok.mp h
      unfold ransacStep at hs
      obtain ⟨sample, hd, hs⟩ := Py.bind_eq_ok.mp hs
      obtain ⟨o, ho, hs⟩ := Py.bind_eq_ok.mp hs
      have key : ∀ (s1 : LoopState), s1.sample_number = st.sample_number + 1 →
          s1.full_iterations = st.full_iterations + (if isCandidate o then 1 else 0) →
          ransacLoop svd cfg rng bs ws bf wf fuel s1 = .ok none →
          Unfinished svd cfg rng bs ws bf wf (fuel + 1) st := by
        intro s1 e1 e3 h
        obtain ⟨samples, outs, i1, i2, i3, st', i4, i6, i7⟩ := ih h
        refine ⟨sample :: samples, o :: outs, ?_, .cons ho i2, by simpa using i3, st', ?_, ?_, i7⟩
        · intro k s hk
          cases k with
          | zero => simp only [List.getElem?_cons_zero, Option.some.injEq] at hk; rw [← hk]; exact hd
          | succ k =>
            simp only [List.getElem?_cons_succ] at hk
            have := i1 k s hk
            rw [e1] at this
            rw [← this]; congr 1; ring
        · rw [i4, e1, List.length_cons]; ring
        · rw [i6, e3, List.countP_cons]; ring
      cases o with
      | prerejected =>
        cases hs
        simp only [Bool.false_eq_true, if_false] at h
        refine key _ ?_ ?_ h <;> simp [isCandidate]
      | rejected =>
        cases hs
        simp only [Bool.false_eq_true, if_false] at h
        refine key _ ?_ ?_ h <;> simp [isCandidate]
      | candidate c =>
        obtain ⟨ab, hab, hs⟩ := Py.bind_eq_ok.mp hs
        cases hs
        cases stop with
        | false =>
          simp only [Bool.false_eq_true, if_false] at h
          refine key _ ?_ ?_ h <;> simp [isCandidate]
        | true => cases h

/-- The best candidate of a list of outcomes. -/
theorem foldl_upd (outs : List SampleOutcome) (best : Option Candidate) :
    (outs.foldl upd best = none ↔ best = none ∧ ∀ c, .candidate c ∉ outs) ∧
    (∀ c, outs.foldl upd best = some c →
      (best = some c ∨ .candidate c ∈ outs) ∧
      (∀ b, best = some b → b = c ∨ (c.rmse_position < b.rmse_position ∧ c.rmse_orientation < b.rmse_orientation)) ∧
      (∀ c', .candidate c' ∈ outs →
        ¬ (c'.rmse_position < c.rmse_position ∧ c'.rmse_orientation < c.rmse_orientation))) := by
  induction outs generalizing best with
  | nil => exact ⟨by simp, fun c h => ⟨Or.inl h, fun b hb => by simp_all, by simp⟩⟩
  | cons o outs ih =>
    rw [List.foldl_cons]
    obtain ⟨i1, i2⟩ := ih (upd best o)
    cases o with
    | prerejected =>
      have hu : ∀ c : Candidate, SampleOutcome.candidate c ∈ SampleOutcome.prerejected :: outs ↔
          SampleOutcome.candidate c ∈ outs := by simp
      simp only [hu]
      exact ⟨i1, i2⟩
    | rejected =>
      have hu : ∀ c : Candidate, SampleOutcome.candidate c ∈ SampleOutcome.rejected :: outs ↔
          SampleOutcome.candidate c ∈ outs := by simp
      simp only [hu]
      exact ⟨i1, i2⟩
    | candidate d =>
      constructor
      · rw [i1]
        constructor
        · rintro ⟨h, _⟩
          cases best with
          | none => simp [upd, updateBest] at h
          | some b => simp only [upd, updateBest] at h; split at h <;> cases h
        · rintro ⟨_, h⟩
          exact absurd List.mem_cons_self (h d)
      · intro c hc
        obtain ⟨j1, j2, j3⟩ := i2 c hc
        -- c against the candidate d and the previous best
        have hd : ∃ e, upd best (.candidate d) = some e ∧ (best = some e ∨ e = d) ∧
            (∀ b, best = some b → b = e ∨ (e.rmse_position < b.rmse_position ∧ e.rmse_orientation < b.rmse_orientation)) ∧
            ¬ (d.rmse_position < e.rmse_position ∧ d.rmse_orientation < e.rmse_orientation) := by
          cases best with
          | none =>
            refine ⟨d, rfl, Or.inr rfl, fun b hb => (by cases hb), fun h => lt_irrefl _ h.1⟩
          | some b =>
            by_cases hlt : d.rmse_position < b.rmse_position ∧ d.rmse_orientation < b.rmse_orientation
            · refine ⟨d, by simp [upd, updateBest, hlt], Or.inr rfl, ?_, fun h => lt_irrefl _ h.1⟩
              rintro _ ⟨⟩
              exact Or.inr hlt
            · refine ⟨b, by simp only [upd, updateBest, if_neg hlt], Or.inl rfl, ?_, hlt⟩
              rintro _ ⟨⟩
              exact Or.inl rfl
        obtain ⟨e, he, hor, hb, hnd⟩ := hd
        have hce := j2 e he
        refine ⟨?_, ?_, ?_⟩
        · rcases j1 with h | h
          · rw [he] at h
            cases h
            rcases hor with h | h
            · exact Or.inl h
            · right; rw [h]; exact List.mem_cons_self
          · exact Or.inr (List.mem_cons_of_mem _ h)
        · intro b hb'
          rcases hb b hb' with h | h
          · rw [h]; exact hce
          · rcases hce with h' | h'
            · rw [← h']; exact Or.inr h
            · exact Or.inr ⟨h'.1.trans h.1, h'.2.trans h.2⟩
        · intro c' hc'
          rcases List.mem_cons.mp hc' with h | h
          · cases h
            rintro ⟨h1, h2⟩
            rcases hce with h' | h'
            · rw [← h'] at h1 h2; exact hnd ⟨h1, h2⟩
            · exact hnd ⟨h1.trans h'.1, h2.trans h'.2⟩
          · exact j3 c' h

end loop

end HandEye
