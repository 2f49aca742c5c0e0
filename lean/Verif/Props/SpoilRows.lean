import Verif.Props.SpoilPlots

/-!
# C79: what the rows of one experiment say about the optimization and the loop
-/

namespace HandEye

open Spec

/-- An optimization that ended and left inliers. -/
def Spec.Optimized (r : Option OptimizerOutput) : Prop := ∃ o, r = some o ∧ o.num_inliers ≠ 0

theorem pairOutcome_spec {s : Spoiled} {r : Option OptimizerOutput} {o : PairOutcome} (h : pairOutcome s r = .ok o) :
    o.spoiled = s ∧ (o.optimization_success = true ↔ Spec.Optimized r) ∧
    (∀ out, r = some out → o.rmse = out.rmse ∧ o.runtime = out.runtime ∧
      ∃ dq, out.dq_H_E.normalize = .ok dq ∧ o.dq_H_E = some dq) ∧
    (r = none → o.rmse = (-1, -1) ∧ o.runtime = 0 ∧ o.dq_H_E = none) := by
  cases r with
  | none =>
    cases h
    refine ⟨rfl, ⟨fun h => (by cases h), fun ⟨_, h, _⟩ => (by cases h)⟩, fun _ h => (by cases h), fun _ => ⟨rfl, rfl, rfl⟩⟩
  | some out =>
    unfold pairOutcome at h
    obtain ⟨⟨p, dq⟩, hp, h⟩ := Py.bind_eq_ok.mp h
    cases h
    refine ⟨rfl, ?_, ?_, fun h => (by cases h)⟩
    · dsimp only
      rw [decide_eq_true_iff]
      constructor
      · exact fun hn => ⟨out, rfl, hn⟩
      · rintro ⟨o, ho, hn⟩
        cases ho
        exact hn
    · intro o ho
      cases ho
      unfold DQuat.toPose at hp
      obtain ⟨a, ha, hp⟩ := Py.bind_eq_ok.mp hp
      cases hp
      exact ⟨rfl, rfl, dq, ha, rfl⟩

/-- C79, the columns of an experiment: the errors and the time of a row are those of its own optimization (-1 and 0 if it
failed), its success is the one of the initial guess.  If every optimization ended and left inliers, each row has the loop
error of all the optimized calibrations, position first; if a single one did not, each row has -1 for both. -/
theorem C79_columns (optimizer : SpoilOptimizer) (pairs : List PairGuess) (sets : ℕ) (draws : ℕ → SpoilDraws)
    (input : ExperimentInput) (rows : List ResultRow)
    (h : runOptimizationExperiment optimizer pairs sets draws input = .ok rows) :
    ∃ guesses : List Spoiled, guesses.length = pairs.length ∧ rows.length = pairs.length ∧
      (∀ (i : ℕ) g s row, pairs[i]? = some g → guesses[i]? = some s → rows[i]? = some row →
        spoilOpt g input (draws i) = .ok s ∧ row.success = g.success ∧ row.bad_singular_values = g.bad_singular_values ∧
        (∀ o, optimizer input.experiment_progress.1 i s = some o →
          (row.position_rmse, row.orientation_rmse) = o.rmse ∧ row.runtime_optimization = o.runtime) ∧
        (optimizer input.experiment_progress.1 i s = none →
          row.position_rmse = -1 ∧ row.orientation_rmse = -1 ∧ row.runtime_optimization = 0)) ∧
      ((∀ (i : ℕ) s, guesses[i]? = some s → Spec.Optimized (optimizer input.experiment_progress.1 i s)) →
        ∃ (dqs : List DQuat) (e : ℝ × ℝ), dqs.length = pairs.length ∧
          (∀ (i : ℕ) s o dq, guesses[i]? = some s → optimizer input.experiment_progress.1 i s = some o → dqs[i]? = some dq →
            o.dq_H_E.normalize = .ok dq) ∧
          computeLoopErrorOpt (dqs.map some) sets = .ok e ∧
          ∀ row ∈ rows, row.loop_error_position_m = e.1 ∧ row.loop_error_orientation_deg = e.2) ∧
      (∀ (i : ℕ) s, guesses[i]? = some s → ¬ Spec.Optimized (optimizer input.experiment_progress.1 i s) →
        ∀ row ∈ rows, row.loop_error_position_m = -1 ∧ row.loop_error_orientation_deg = -1) := by
  unfold runOptimizationExperiment at h
  obtain ⟨os, hos, h⟩ := Py.bind_eq_ok.mp h
  obtain ⟨loop, hloop, h⟩ := Py.bind_eq_ok.mp h
  cases h
  obtain ⟨hl, hj⟩ := runPairs_ok hos
  have hspec : ∀ (i : ℕ) (o : PairOutcome), os[i]? = some o → ∃ g, pairs[i]? = some g ∧
      spoilOpt g input (draws i) = .ok o.spoiled ∧
      pairOutcome o.spoiled (optimizer input.experiment_progress.1 i o.spoiled) = .ok o := by
    intro i o ho
    have hi : i < pairs.length := by
      rw [← hl]
      exact (List.getElem?_eq_some_iff.mp ho).1
    have := hj i pairs[i] o (List.getElem?_eq_getElem hi) ho
    rw [Nat.zero_add] at this
    exact ⟨_, List.getElem?_eq_getElem hi, runPair_spoiled this⟩
  have hrows : ∀ (row : ResultRow), row ∈ ((pairs.zip os).map fun p => spoilRow p.1 p.2 (loop.getD (-1, -1))) →
      row.loop_error_position_m = (loop.getD (-1, -1)).1 ∧ row.loop_error_orientation_deg = (loop.getD (-1, -1)).2 := by
    intro row hrow
    obtain ⟨p, _, rfl⟩ := List.mem_map.mp hrow
    exact ⟨rfl, rfl⟩
  refine ⟨os.map PairOutcome.spoiled, by simp [hl], by simp [hl], ?_, ?_, ?_⟩
  · intro i g s row hg hs hrow
    rw [List.getElem?_map, Option.map_eq_some_iff] at hs hrow
    obtain ⟨o, ho, rfl⟩ := hs
    obtain ⟨⟨g', o'⟩, hz, rfl⟩ := hrow
    rw [List.getElem?_zip_eq_some] at hz
    obtain ⟨hz1, hz2⟩ := hz
    dsimp only at hz1 hz2
    rw [hg] at hz1
    rw [ho] at hz2
    cases hz1
    cases hz2
    obtain ⟨g', hg', e1, e2⟩ := hspec i o ho
    rw [hg] at hg'
    cases hg'
    obtain ⟨-, -, h3, h4⟩ := pairOutcome_spec e2
    refine ⟨e1, rfl, rfl, ?_, ?_⟩
    · intro out hout
      obtain ⟨r1, r2, -⟩ := h3 out hout
      exact ⟨r1, r2⟩
    · intro hnone
      obtain ⟨r1, r2, -⟩ := h4 hnone
      exact ⟨congrArg Prod.fst r1, congrArg Prod.snd r1, r2⟩
  · intro hall
    have hgood : ∀ (i : ℕ) (o : PairOutcome), os[i]? = some o → o.optimization_success = true ∧
        ∃ dq out, optimizer input.experiment_progress.1 i o.spoiled = some out ∧ out.dq_H_E.normalize = .ok dq ∧
          o.dq_H_E = some dq := by
      intro i o ho
      obtain ⟨g, -, -, e2⟩ := hspec i o ho
      obtain ⟨-, h2, h3, -⟩ := pairOutcome_spec e2
      have hopt := hall i o.spoiled (by rw [List.getElem?_map, ho]; rfl)
      obtain ⟨out, hout, -⟩ := hopt
      obtain ⟨-, -, dq, hdq, hodq⟩ := h3 out hout
      exact ⟨h2.mpr (hall i o.spoiled (by rw [List.getElem?_map, ho]; rfl)), dq, out, hout, hdq, hodq⟩
    have hsome : (os.map fun o => o.dq_H_E) = ((os.map fun o => o.dq_H_E.getD DQuat.identity).map some) := by
      rw [List.map_map]
      apply List.map_congr_left
      intro o ho
      obtain ⟨i, hi, rfl⟩ := List.getElem_of_mem ho
      obtain ⟨-, dq, out, -, -, hdq⟩ := hgood i _ (List.getElem?_eq_getElem hi)
      rw [Function.comp_apply, hdq]
      rfl
    have hsum : ((os.map fun o => (o.dq_H_E, o.optimization_success)).map fun r => if r.2 then 1 else 0).sum =
        (os.map fun o => (o.dq_H_E, o.optimization_success)).length := by
      have : ((os.map fun o => (o.dq_H_E, o.optimization_success)).map fun r : Option DQuat × Bool => if r.2 then 1 else 0) =
          List.replicate os.length 1 := by
        rw [List.eq_replicate_iff]
        refine ⟨by simp, ?_⟩
        intro b hb
        rw [List.map_map] at hb
        obtain ⟨o, ho, rfl⟩ := List.mem_map.mp hb
        obtain ⟨i, hi, rfl⟩ := List.getElem_of_mem ho
        rw [Function.comp_apply, if_pos (hgood i _ (List.getElem?_eq_getElem hi)).1]
      rw [this]
      simp
    unfold loopErrorIfAll at hloop
    rw [if_pos hsum, List.map_map] at hloop
    obtain ⟨e, he, hloop⟩ := Py.bind_eq_ok.mp hloop
    cases hloop
    refine ⟨os.map fun o => o.dq_H_E.getD DQuat.identity, e, by simp [hl], ?_, ?_, hrows⟩
    · intro i s out dq hs hout hdq
      rw [List.getElem?_map, Option.map_eq_some_iff] at hs hdq
      obtain ⟨o, ho, rfl⟩ := hs
      obtain ⟨o', ho', rfl⟩ := hdq
      rw [ho] at ho'
      cases ho'
      obtain ⟨-, dq, out', hout', hdq, hodq⟩ := hgood i o ho
      rw [hout] at hout'
      cases hout'
      rw [hodq]
      exact hdq
    · rw [← hsome]
      exact he
  · intro i s hs hnot
    rw [List.getElem?_map, Option.map_eq_some_iff] at hs
    obtain ⟨o, ho, rfl⟩ := hs
    obtain ⟨g, -, -, e2⟩ := hspec i o ho
    obtain ⟨-, h2, -, -⟩ := pairOutcome_spec e2
    have hf : ¬ o.optimization_success = true := fun hs => hnot (h2.mp hs)
    unfold loopErrorIfAll at hloop
    rw [if_neg] at hloop
    · cases hloop
      exact hrows
    · intro hsum
      exact hf (all_of_sum _ hsum (o.dq_H_E, o.optimization_success) (List.mem_map.mpr ⟨o, List.mem_of_getElem? ho, rfl⟩))

/-- An optimization that ends without inliers: its errors are recorded, the loop errors are -1. -/
example : ∃ rows, runOptimizationExperiment (fun _ _ _ => some ⟨DQuat.identity, (3, 4), 0, 5⟩) [demoPair] 2
    (fun _ => demoDraws) ⟨(0, 1), (0, 1), (0, 1), 0, (0, 1)⟩ = .ok rows ∧ ∃ row, rows = [row] ∧ row.position_rmse = 3 ∧
      row.orientation_rmse = 4 ∧ row.runtime_optimization = 5 ∧ row.loop_error_position_m = -1 ∧ row.success = true := by
  obtain ⟨os, hos, hosu⟩ := runPairs_succeeds (optimizer := fun _ _ _ => some ⟨DQuat.identity, (3, 4), 0, 5⟩)
    (by intro e i s o h; cases h; exact DQuat.isUnit_one) (input := ⟨(0, 1), (0, 1), (0, 1), 0, (0, 1)⟩)
    ⟨Or.inl rfl, by norm_num, by dsimp only; linarith [Real.two_le_pi], by norm_num, by norm_num, by norm_num, by norm_num⟩ 0
    demoPair_calibrated (draws := fun _ => demoDraws) (fun _ => demoDraws_valid)
  obtain ⟨loop, hloop⟩ := loopErrorIfAll_ok (os.map fun o => (o.dq_H_E, o.optimization_success)) 2 le_rfl
    (by rw [List.length_map, (runPairs_ok hos).1]; rfl) (by
      intro r hr
      obtain ⟨o, ho', rfl⟩ := List.mem_map.mp hr
      exact hosu o ho')
  obtain ⟨rows, hrows⟩ : ∃ rows, runOptimizationExperiment (fun _ _ _ => some ⟨DQuat.identity, (3, 4), 0, 5⟩) [demoPair] 2
      (fun _ => demoDraws) ⟨(0, 1), (0, 1), (0, 1), 0, (0, 1)⟩ = .ok rows := by
    unfold runOptimizationExperiment
    rw [hos, Py.ok_bind, hloop]
    exact ⟨_, rfl⟩
  obtain ⟨guesses, hg, hr, hcol, -, hnot⟩ := C79_columns _ _ _ _ _ _ hrows
  obtain ⟨row, rfl⟩ := List.length_eq_one_iff.mp (show rows.length = 1 from hr)
  obtain ⟨s, rfl⟩ := List.length_eq_one_iff.mp (show guesses.length = 1 from hg)
  obtain ⟨-, h1, -, h2, -⟩ := hcol 0 demoPair s row rfl rfl rfl
  obtain ⟨h3, h4⟩ := h2 _ rfl
  have h5 := hnot 0 s rfl (by rintro ⟨o, ho, hn⟩; cases ho; exact hn rfl) row List.mem_cons_self
  exact ⟨_, hrows, row, rfl, congrArg Prod.fst h3, congrArg Prod.snd h3, h4, h5.1, h1⟩

end HandEye
