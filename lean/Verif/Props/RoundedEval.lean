import Verif.Model.RoundedEval
import Verif.Model.Ransac
import Verif.Props.Rounded3

/-! # Property C97: `nan` in the evaluation of calibrations -/

namespace HandEye

theorem evaluate_eq_ok {A : Arith} {o p : ℝ} {as bs : List Pose} {r : ℝ × Num × List Bool} (h : A.evaluate o p as bs = .ok r) :
    as.length = bs.length ∧ as ≠ [] ∧
      r = (A.rmse ((as.zip bs).map fun x => A.distance x.1.pos x.2.pos), A.rmseNan ((as.zip bs).map fun x => (A.orientationError x.1 x.2).toOption),
        (as.zip bs).map fun x => numLt (A.orientationError x.1 x.2).toOption (some o) && decide (A.distance x.1.pos x.2.pos < p)) := by
  unfold Arith.evaluate at h
  obtain ⟨_, h1, h⟩ := Py.bind_eq_ok.mp h
  obtain ⟨_, h2, h⟩ := Py.bind_eq_ok.mp h
  refine ⟨pyAssert_eq_ok.mp h1, ?_, ?_⟩
  · unfold Arith.evaluate.pyRequireSome at h2
    split_ifs at h2 with hn
    exact hn
  · have := Except.ok.inj h
    rw [← this]
    simp only [List.map_map]
    rfl

theorem evaluate_ok (A : Arith) (o p : ℝ) {as bs : List Pose} (hl : as.length = bs.length) (hn : as ≠ []) : ∃ r, A.evaluate o p as bs = .ok r := by
  unfold Arith.evaluate
  rw [pyAssert_pos hl, Py.ok_bind]
  unfold Arith.evaluate.pyRequireSome
  rw [if_neg hn, Py.ok_bind]
  exact ⟨_, rfl⟩

/-- **C97**: two lists of poses are always evaluated, and the error of the orientations is a number exactly if the angles of all pairs are; a pair whose angle
is not a number is no inlier. -/
theorem C97_nan_spreads (A : Arith) (o p : ℝ) (as bs : List Pose) (hl : as.length = bs.length) (hn : as ≠ []) :
    ∃ rp ro flags, A.evaluate o p as bs = .ok (rp, ro, flags) ∧ flags.length = as.length ∧
      (ro = none ↔ ∃ (i : ℕ) (a b : Pose), as[i]? = some a ∧ bs[i]? = some b ∧ ∃ e, A.orientationError a b = .error e) ∧
      ∀ (i : ℕ) (a b : Pose), as[i]? = some a → bs[i]? = some b → (∃ e, A.orientationError a b = .error e) → flags[i]? = some false := by
  obtain ⟨r, hr⟩ := evaluate_ok A o p hl hn
  obtain ⟨-, -, rfl⟩ := evaluate_eq_ok hr
  refine ⟨_, _, _, hr, by simp [hl], ?_, ?_⟩
  · unfold Arith.rmseNan
    split_ifs with h
    · refine ⟨fun _ => ?_, fun _ => rfl⟩
      obtain ⟨⟨a, b⟩, hm, he⟩ := List.mem_map.mp h
      obtain ⟨i, hi⟩ := List.getElem?_of_mem hm
      obtain ⟨h1, h2⟩ := List.getElem?_zip_eq_some.mp hi
      refine ⟨i, a, b, h1, h2, ?_⟩
      cases hc : A.orientationError a b with
      | error e => exact ⟨e, rfl⟩
      | ok x => dsimp only at he; rw [hc] at he; cases he
    · refine ⟨fun hh => (by cases hh), ?_⟩
      rintro ⟨i, a, b, h1, h2, e, he⟩
      refine absurd (List.mem_map.mpr ⟨(a, b), List.mem_of_getElem? (i := i) (List.getElem?_zip_eq_some (z := (a, b)).mpr ⟨h1, h2⟩), ?_⟩) h
      dsimp only
      rw [he]
      rfl
  · rintro i a b h1 h2 ⟨e, he⟩
    rw [List.getElem?_map, List.getElem?_zip_eq_some (z := (a, b)).mpr ⟨h1, h2⟩]
    simp only [Option.map_some, he]
    rfl

/-- One step of the selection: a candidate whose orientation error is no number changes nothing. -/
theorem updateBestNan_nan (best : Option NanCandidate) {c : NanCandidate} (h : c.rmse_orientation = none) : updateBestNan best c = best := by
  unfold updateBestNan
  rw [h]
  cases best with
  | none => rfl
  | some b => cases hb : b.rmse_orientation <;> simp [numLtOrInf, numLt]

theorem updateBestNan_first {c : NanCandidate} {x : ℝ} (h : c.rmse_orientation = some x) : updateBestNan none c = some c := by
  unfold updateBestNan
  rw [h]
  rfl

theorem updateBestNan_some (b c : NanCandidate) : updateBestNan (some b) c = some c ∧ c.rmse_position < b.rmse_position ∧
      (∃ x y, c.rmse_orientation = some x ∧ b.rmse_orientation = some y ∧ x < y) ∨
    updateBestNan (some b) c = some b ∧ ¬ (c.rmse_position < b.rmse_position ∧
      ∃ x y, c.rmse_orientation = some x ∧ b.rmse_orientation = some y ∧ x < y) := by
  unfold updateBestNan
  cases hb : b.rmse_orientation with
  | none => right; simp [numLtOrInf, numLt, hb]
  | some y =>
    cases hc : c.rmse_orientation with
    | none => right; simp [numLtOrInf, numLt]
    | some x =>
      simp only [numLtOrInf, numLt, Option.map_some, hb]
      by_cases h : c.rmse_position < b.rmse_position ∧ x < y
      · left
        simp [h.1, h.2]
      · right
        refine ⟨?_, ?_⟩
        · rw [if_neg]
          simpa using h
        · rintro ⟨h1, x', y', e1, e2, h2⟩
          cases e1; cases e2
          exact h ⟨h1, h2⟩

/-- **C97**, the selection: RANSAC has a result exactly if the orientation error of some candidate is a number.  The result is such a candidate, and none that was found
before it or after it is better in both respects. -/
theorem C97_selection (cs : List NanCandidate) :
    (bestNan cs = none ↔ ∀ c ∈ cs, c.rmse_orientation = none) ∧
    ∀ b, bestNan cs = some b → b ∈ cs ∧ ∃ y, b.rmse_orientation = some y ∧
      ∀ c ∈ cs, ∀ x, c.rmse_orientation = some x → ¬ (c.rmse_position < b.rmse_position ∧ x < y) := by
  induction cs using List.reverseRecOn with
  | nil => exact ⟨⟨fun _ c hc => absurd hc List.not_mem_nil, fun _ => rfl⟩, fun b hb => (by cases hb)⟩
  | append_singleton cs c ih =>
    have e : bestNan (cs ++ [c]) = updateBestNan (bestNan cs) c := by
      unfold bestNan
      rw [List.foldl_append]
      rfl
    rw [e]
    cases hc : c.rmse_orientation with
    | none =>
      rw [updateBestNan_nan _ hc]
      refine ⟨?_, ?_⟩
      · rw [ih.1]
        constructor
        · intro h d hd
          rcases List.mem_append.mp hd with h' | h'
          · exact h d h'
          · rw [List.mem_singleton.mp h', hc]
        · exact fun h d hd => h d (List.mem_append_left _ hd)
      · intro b hb
        obtain ⟨h1, y, h2, h3⟩ := ih.2 b hb
        refine ⟨List.mem_append_left _ h1, y, h2, ?_⟩
        intro d hd x hx
        rcases List.mem_append.mp hd with h' | h'
        · exact h3 d h' x hx
        · rw [List.mem_singleton.mp h', hc] at hx
          cases hx
    | some x =>
      cases hb : bestNan cs with
      | none =>
        rw [updateBestNan_first hc]
        refine ⟨⟨fun h => (by cases h), fun h => ?_⟩, ?_⟩
        · have := h c (by simp)
          rw [hc] at this
          cases this
        · intro b hb'
          cases hb'
          refine ⟨by simp, x, hc, ?_⟩
          intro d hd x' hx'
          rcases List.mem_append.mp hd with h' | h'
          · rw [ih.1.mp hb d h'] at hx'
            cases hx'
          · rw [List.mem_singleton.mp h']
            exact fun h => lt_irrefl _ h.1
      | some b =>
        obtain ⟨h1, y, h2, h3⟩ := ih.2 b hb
        rcases updateBestNan_some b c with ⟨e1, hp, x', y', ex, ey, hxy⟩ | ⟨e1, hno⟩
        · rw [e1]
          refine ⟨⟨fun h => (by cases h), fun h => ?_⟩, ?_⟩
          · have := h c (by simp)
            rw [hc] at this
            cases this
          · intro b' hb'
            cases hb'
            refine ⟨by simp, x', ex, ?_⟩
            rw [h2] at ey
            cases ey
            intro d hd z hz
            rcases List.mem_append.mp hd with h' | h'
            · exact fun h => h3 d h' z hz ⟨h.1.trans hp, h.2.trans hxy⟩
            · rw [List.mem_singleton.mp h']
              exact fun h => lt_irrefl _ h.1
        · rw [e1]
          refine ⟨⟨fun h => (by cases h), fun h => ?_⟩, ?_⟩
          · have := h b (List.mem_append_left _ h1)
            rw [h2] at this
            cases this
          · intro b' hb'
            cases hb'
            refine ⟨List.mem_append_left _ h1, y, h2, ?_⟩
            intro d hd z hz
            rcases List.mem_append.mp hd with h' | h'
            · exact h3 d h' z hz
            · rw [List.mem_singleton.mp h'] at hz ⊢
              exact fun h => hno ⟨h.1, z, y, hz, h2, h.2⟩

/-- Without `nan`, the selection is that of the model of RANSAC over the real numbers. -/
theorem C97_agrees (cs : List Candidate) :
    (bestNan (cs.map fun c => ⟨c.dq_H_E, c.rmse_position, some c.rmse_orientation⟩)) =
      (cs.foldl updateBest none).map fun c => ⟨c.dq_H_E, c.rmse_position, some c.rmse_orientation⟩ := by
  have key : ∀ (best : Option Candidate), (cs.map fun c => (⟨c.dq_H_E, c.rmse_position, some c.rmse_orientation⟩ : NanCandidate)).foldl updateBestNan
      (best.map fun c => ⟨c.dq_H_E, c.rmse_position, some c.rmse_orientation⟩) =
      (cs.foldl updateBest best).map fun c => ⟨c.dq_H_E, c.rmse_position, some c.rmse_orientation⟩ := by
    induction cs with
    | nil => exact fun best => rfl
    | cons c cs ih =>
      intro best
      rw [List.map_cons, List.foldl_cons, List.foldl_cons, ← ih]
      congr 1
      cases best with
      | none => rfl
      | some b =>
        simp only [updateBestNan, updateBest, numLtOrInf, numLt, Option.map_some]
        by_cases h : c.rmse_position < b.rmse_position ∧ c.rmse_orientation < b.rmse_orientation
        · rw [if_pos h]
          simp [h.1, h.2]
        · rw [if_neg h]
          have h' : (decide (c.rmse_position < b.rmse_position) && decide (c.rmse_orientation < b.rmse_orientation)) = false := by
            rw [Bool.eq_false_iff]
            simpa using h
          simp [h']
  exact key none

example : bestNan [⟨DQuat.identity, 0.001, none⟩, ⟨⟨⟨0, 1, 0, 0⟩, ⟨0, 0, 0, 0⟩⟩, 5, some 90⟩] = some ⟨⟨⟨0, 1, 0, 0⟩, ⟨0, 0, 0, 0⟩⟩, 5, some 90⟩ := by
  unfold bestNan
  rw [List.foldl_cons, updateBestNan_nan _ rfl, List.foldl_cons, updateBestNan_first rfl]
  rfl

end HandEye
