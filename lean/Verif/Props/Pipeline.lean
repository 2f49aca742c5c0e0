import Verif.Model.Pipeline
import Verif.Lemmas.TimeAlign
import Verif.Spec.Pipeline

/-!
# C55: cached pipeline steps are re-run after a crash

Not always: missing outputs are ignored as long as one output exists.
-/

namespace HandEye

open Spec

theorem lt_foldl_max (l : List ℝ) (x c : ℝ) : c < l.foldl max x ↔ ∃ y ∈ x :: l, c < y := by
  induction l generalizing x with
  | nil => simp
  | cons y l ih => rw [List.foldl_cons, ih]; simp [or_assoc]

theorem foldl_min_lt (l : List ℝ) (x c : ℝ) : l.foldl min x < c ↔ ∃ y ∈ x :: l, y < c := by
  induction l generalizing x with
  | nil => simp
  | cons y l ih => rw [List.foldl_cons, ih]; simp [or_assoc]

/-- `requiresUpdate` never fails; it answers yes if no output exists or some existing output is older than some
existing input. -/
theorem C55_value (fs : FileTimes) (inputs outputs : List String) :
    ∃ b, requiresUpdate fs inputs outputs = .ok b ∧
      (b = true ↔ (∀ o ∈ outputs, fs o = none) ∨
        ∃ i ∈ inputs, ∃ o ∈ outputs, ∃ s t, fs i = some s ∧ fs o = some t ∧ t < s) := by
  unfold requiresUpdate isOutdated
  by_cases ho : ∀ o ∈ outputs, fs o = none
  · have : getMTimes fs outputs = [] := List.filterMap_eq_nil_iff.mpr ho
    exact ⟨true, by simp [this], iff_of_true rfl (Or.inl ho)⟩
  · have hne : getMTimes fs outputs ≠ [] := fun h => ho (List.filterMap_eq_nil_iff.mp h)
    rw [if_neg (by simpa using hne)]
    have mem : ∀ (l : List String) (t : ℝ), t ∈ getMTimes fs l ↔ ∃ f ∈ l, fs f = some t := by
      intro l t; simp [getMTimes]
    cases hi : getMTimes fs inputs with
    | nil =>
      refine ⟨false, by simp, ?_⟩
      have hi' := List.filterMap_eq_nil_iff.mp hi
      simp only [Bool.false_eq_true, false_iff, not_or]
      refine ⟨ho, ?_⟩
      rintro ⟨i, hi1, o, _, s, t, hs, _⟩
      simp [hi' i hi1] at hs
    | cons x l =>
      cases hl : getMTimes fs outputs with
      | nil => exact absurd hl hne
      | cons y m =>
        refine ⟨decide (l.foldl max x > m.foldl min y), by simp [pyMax, pyMin, Py.ok_bind, Py.pure_eq], ?_⟩
        rw [decide_eq_true_iff, gt_iff_lt, lt_foldl_max, ← hi]
        simp only [foldl_min_lt, ← hl, mem]
        constructor
        · rintro ⟨s, ⟨i, hi1, his⟩, t, ⟨o, ho1, hot⟩, hlt⟩
          exact Or.inr ⟨i, hi1, o, ho1, s, t, his, hot, hlt⟩
        · rintro (h | ⟨i, hi1, o, ho1, s, t, his, hot, hlt⟩)
          · exact absurd h ho
          · exact ⟨s, ⟨i, hi1, his⟩, t, ⟨o, ho1, hot⟩, hlt⟩

/-- A step none of whose outputs is missing is re-run exactly if its outputs are not up to date.  (What is
missing for the property: the same with missing outputs.) -/
theorem C55_all_present_partial (fs : FileTimes) (inputs outputs : List String) (hne : outputs ≠ [])
    (hall : ∀ o ∈ outputs, fs o ≠ none) :
    ∃ b, requiresUpdate fs inputs outputs = .ok b ∧ (b = true ↔ ¬ UpToDate fs inputs outputs) := by
  obtain ⟨b, hb, hiff⟩ := C55_value fs inputs outputs
  refine ⟨b, hb, hiff.trans ?_⟩
  unfold UpToDate
  push Not
  constructor
  · rintro (h | ⟨i, hi, o, ho, s, t, his, hot, hlt⟩)
    · obtain ⟨o, ho⟩ := List.exists_mem_of_ne_nil _ hne
      exact absurd (h o ho) (hall o ho)
    · refine ⟨o, ho, fun t' ht' => ⟨i, hi, s, his, ?_⟩⟩
      rw [hot] at ht'; cases ht'; exact hlt
  · rintro ⟨o, ho, h⟩
    obtain ⟨t, ht⟩ := Option.ne_none_iff_exists'.mp (hall o ho)
    obtain ⟨i, hi, s, his, hlt⟩ := h t ht
    exact Or.inr ⟨i, hi, o, ho, s, t, his, ht, hlt⟩

/-- A completed step is not repeated, and a step that has not written anything yet is run. -/
theorem C55_extremes_partial (fs : FileTimes) (inputs outputs : List String) :
    (outputs ≠ [] → UpToDate fs inputs outputs → requiresUpdate fs inputs outputs = .ok false) ∧
    ((∀ o ∈ outputs, fs o = none) → requiresUpdate fs inputs outputs = .ok true) := by
  obtain ⟨b, hb, hiff⟩ := C55_value fs inputs outputs
  constructor
  · intro hne hup
    obtain ⟨b', hb', hiff'⟩ := C55_all_present_partial fs inputs outputs hne
      (fun o ho h => by obtain ⟨t, ht, _⟩ := hup o ho; rw [h] at ht; cases ht)
    rw [hb']
    cases b' with
    | false => rfl
    | true => exact absurd hup (hiff'.mp rfl)
  · intro h
    rw [hb, hiff.mpr (Or.inl h)]

/-- A crash while outdated outputs are being replaced is noticed: as long as one of the old ones is still there,
the step is re-run. -/
theorem C55_crash_outdated_partial (fs : FileTimes) (clock : String → ℝ) (inputs outputs : List String) (k : ℕ)
    (i o : String) (hi : i ∈ inputs) (hi' : i ∉ outputs) (ho : o ∈ outputs) (ho' : o ∉ outputs.take k)
    (s t : ℝ) (hs : fs i = some s) (ht : fs o = some t) (hlt : t < s) :
    requiresUpdate (writtenFirst fs clock outputs k) inputs outputs = .ok true := by
  obtain ⟨b, hb, hiff⟩ := C55_value (writtenFirst fs clock outputs k) inputs outputs
  rw [hb, hiff.mpr (Or.inr ⟨i, hi, o, ho, s, t, ?_, ?_, hlt⟩)]
  · unfold writtenFirst
    rw [if_neg fun h => hi' (List.mem_of_mem_take h), hs]
  · unfold writtenFirst
    rw [if_neg ho', ht]

/-- The first run of a step, crashed after some but not all outputs have been written: whatever the step, the
crash point and the times, the step is not re-run although its outputs are not up to date. -/
theorem C55_crash_refuted (fs : FileTimes) (clock : String → ℝ) (inputs outputs : List String) (k : ℕ)
    (hk : 0 < k) (hk' : k < outputs.length) (hnd : outputs.Nodup) (hdis : ∀ o ∈ outputs, o ∉ inputs)
    (hfirst : ∀ o ∈ outputs, fs o = none)
    (hclock : ∀ o ∈ outputs, ∀ i ∈ inputs, ∀ s, fs i = some s → s ≤ clock o) :
    requiresUpdate (writtenFirst fs clock outputs k) inputs outputs = .ok false ∧
      ¬ UpToDate (writtenFirst fs clock outputs k) inputs outputs := by
  constructor
  · obtain ⟨b, hb, hiff⟩ := C55_value (writtenFirst fs clock outputs k) inputs outputs
    rw [hb]
    cases b with
    | false => rfl
    | true =>
      exfalso
      rcases hiff.mp rfl with h | ⟨i, hi, o, ho, s, t, his, hot, hlt⟩
      · have hl : 0 < (outputs.take k).length := by rw [List.length_take]; omega
        have hm := List.getElem_mem hl
        have := h _ (List.mem_of_mem_take hm)
        unfold writtenFirst at this
        rw [if_pos hm] at this
        cases this
      · unfold writtenFirst at his hot
        rw [if_neg fun h => hdis i (List.mem_of_mem_take h) hi] at his
        split_ifs at hot with h
        · cases hot
          exact absurd (hclock o ho i hi s his) (not_le.mpr hlt)
        · rw [hfirst o ho] at hot
          cases hot
  · intro h
    have hm : outputs[k] ∈ outputs := List.getElem_mem hk'
    obtain ⟨t, ht, _⟩ := h _ hm
    unfold writtenFirst at ht
    rw [if_neg ?_, hfirst _ hm] at ht
    · cases ht
    · intro hmem
      obtain ⟨j, hj, hje⟩ := List.getElem_of_mem hmem
      rw [List.length_take] at hj
      rw [List.getElem_take] at hje
      have := (List.Nodup.getElem_inj_iff hnd).mp hje
      omega

/-- The consequence in `calibrateTwo`: if the first command crashed after its first output, no later run gets
past the second step, whose command fails for the missing file. -/
theorem C55_stuck_refuted (exec : PipelineStep → FileTimes → Py FileTimes) (group a_in b_in a b : String)
    (fs : FileTimes) (t : ℝ)
    (hexec : ∀ s g, (∃ i ∈ s.inputs, g i = none) → ∃ e, exec s g = .error e)
    (ha : fs (group ++ "/" ++ a ++ "_aligned.csv") = some t)
    (hb : fs (group ++ "/" ++ b ++ "_aligned.csv") = none)
    (hto : fs (group ++ "/" ++ "time_offset.csv") = none)
    (hp : fs (group ++ "/" ++ "pose.csv") = none)
    (hain : ∀ s, fs a_in = some s → s ≤ t) (hbin : ∀ s, fs b_in = some s → s ≤ t) :
    ∃ e, calibrateTwo exec group a_in b_in a b fs = .error e := by
  set A := group ++ "/" ++ a ++ "_aligned.csv" with hA
  set B := group ++ "/" ++ b ++ "_aligned.csv" with hB
  set T := group ++ "/" ++ "time_offset.csv" with hT
  set P := group ++ "/" ++ "pose.csv" with hP
  have h1 : requiresUpdate fs [a_in, b_in] [A, B, T] = .ok false := by
    obtain ⟨v, hv, hiff⟩ := C55_value fs [a_in, b_in] [A, B, T]
    rw [hv]
    cases v with
    | false => rfl
    | true =>
      exfalso
      rcases hiff.mp rfl with h | ⟨i, hi, o, ho, s, u, his, hou, hlt⟩
      · have := h A (by simp)
        rw [ha] at this; cases this
      · have hu : u = t := by
          simp only [List.mem_cons, List.not_mem_nil, or_false] at ho
          rcases ho with rfl | rfl | rfl
          · rw [ha] at hou; cases hou; rfl
          · rw [hb] at hou; cases hou
          · rw [hto] at hou; cases hou
        have hs : s ≤ t := by
          simp only [List.mem_cons, List.not_mem_nil, or_false] at hi
          rcases hi with rfl | rfl
          · exact hain s his
          · exact hbin s his
        rw [hu] at hlt
        exact absurd hs (not_le.mpr hlt)
  have h2 : requiresUpdate fs [A, B] [P] = .ok true :=
    (C55_extremes_partial fs [A, B] [P]).2 (by simpa using hp)
  obtain ⟨e, he⟩ := hexec ⟨[A, B], [P]⟩ fs ⟨B, by simp, hb⟩
  refine ⟨e, ?_⟩
  unfold calibrateTwo calibrateSteps
  simp only [runSteps, ← hA, ← hB, ← hT, ← hP, h1, h2, Py.ok_bind, he, if_true, Bool.false_eq_true, if_false]
  rfl

/-- Every file that a command of `calibrateTwo` writes, with every file from which the command makes it. -/
def madeFrom (group a_in b_in a b : String) : List (String × List String) :=
  let aligned := fun s => group ++ "/" ++ s ++ "_aligned.csv"
  let offset := group ++ "/" ++ "time_offset.csv"
  let pose := group ++ "/" ++ "pose.csv"
  let guess := group ++ "_init_guess.json"
  [(aligned a, [a_in, b_in]), (aligned b, [a_in, b_in]), (offset, [a_in, b_in]), (pose, [aligned a, aligned b]),
   (guess, [offset, pose]), (group ++ ".json", [a_in, b_in, guess])]

/-- No step forgets a dependency: if a file that is newer than one made from it exists, then the step that makes the
latter requires an update. -/
theorem C55_dependencies (fs : FileTimes) (group a_in b_in a b o i : String) (made : List String) (s t : ℝ)
    (ho : (o, made) ∈ madeFrom group a_in b_in a b) (hi : i ∈ made) (hs : fs i = some s) (ht : fs o = some t) (hlt : t < s) :
    ∃ step ∈ calibrateSteps group a_in b_in a b, o ∈ step.outputs ∧
      requiresUpdate fs step.inputs step.outputs = .ok true := by
  have key : ∃ step ∈ calibrateSteps group a_in b_in a b, o ∈ step.outputs ∧ i ∈ step.inputs := by
    unfold calibrateSteps
    simp only [madeFrom, List.mem_cons, Prod.mk.injEq, List.not_mem_nil, or_false] at ho
    rcases ho with ⟨rfl, rfl⟩ | ⟨rfl, rfl⟩ | ⟨rfl, rfl⟩ | ⟨rfl, rfl⟩ | ⟨rfl, rfl⟩ | ⟨rfl, rfl⟩
    · exact ⟨_, List.mem_cons_self, by simp, hi⟩
    · exact ⟨_, List.mem_cons_self, by simp, hi⟩
    · exact ⟨_, List.mem_cons_self, by simp, hi⟩
    · exact ⟨_, List.mem_cons_of_mem _ List.mem_cons_self, by simp, hi⟩
    · exact ⟨_, List.mem_cons_of_mem _ (List.mem_cons_of_mem _ List.mem_cons_self), by simp, hi⟩
    · exact ⟨_, List.mem_cons_of_mem _ (List.mem_cons_of_mem _ (List.mem_cons_of_mem _ List.mem_cons_self)), by simp, hi⟩
  obtain ⟨step, h1, h2, h3⟩ := key
  obtain ⟨v, hv, hiff⟩ := C55_value fs step.inputs step.outputs
  exact ⟨step, h1, h2, by rw [hv, hiff.mpr (Or.inr ⟨i, h3, o, h2, s, t, hs, ht, hlt⟩)]⟩

example : ∃ step ∈ calibrateSteps "0_1" "left.csv" "right.csv" "left" "right", "0_1_init_guess.json" ∈ step.outputs ∧
    requiresUpdate (fun f => if f = "0_1/time_offset.csv" then some 2 else if f = "0_1_init_guess.json" then some 1 else none)
      step.inputs step.outputs = .ok true :=
  C55_dependencies _ _ _ _ _ _ _ "0_1/time_offset.csv" ["0_1/time_offset.csv", "0_1/pose.csv"] 2 1 (by decide) (by simp)
    (by simp) (by simp) (by norm_num)

/-- A table of files as they are after such a crash. -/
noncomputable def crashedFiles : FileTimes := fun f =>
  if f = "left.csv" then some 1 else if f = "right.csv" then some 2
  else if f = "0_1/left_aligned.csv" then some 3 else none

example : requiresUpdate crashedFiles ["left.csv", "right.csv"]
    ["0_1/left_aligned.csv", "0_1/right_aligned.csv", "0_1/time_offset.csv"] = .ok false := by
  have h := C55_crash_refuted
    (fun f => if f = "left.csv" then some 1 else if f = "right.csv" then some 2 else none) (fun _ => 3)
    ["left.csv", "right.csv"] ["0_1/left_aligned.csv", "0_1/right_aligned.csv", "0_1/time_offset.csv"] 1
    (by norm_num) (by simp) (by decide) (by decide) (by simp) (by simp; norm_num)
  convert h.1 using 2
  funext f
  unfold crashedFiles writtenFirst
  by_cases h1 : f = "0_1/left_aligned.csv"
  · subst h1; simp
  · simp [h1]

example : ∃ e, calibrateTwo (fun _ _ => .error .os) "0_1" "left.csv" "right.csv" "left" "right" crashedFiles =
    .error e := by
  refine C55_stuck_refuted _ _ _ _ _ _ crashedFiles 3 (fun _ _ _ => ⟨_, rfl⟩) ?_ ?_ ?_ ?_ ?_ ?_
  all_goals simp [crashedFiles]
  norm_num

end HandEye
