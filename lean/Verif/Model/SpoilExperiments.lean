import Verif.Model.Spoil
import Verif.Model.ExperimentLoop

/-!
# Model of the experiments with spoiled initial guesses

`OPT.py` is `/repo/hand_eye_calibration_experiments/bin/optimization_experiments.py`, `RES.py` is
`/repo/hand_eye_calibration_experiments/python/hand_eye_calibration_experiments/experiment_results.py`, `CFG.py` is
`all_algorithm_configs.py` beside it.
-/

namespace HandEye

/-- OPT.py:453-488: the three lists of ranges. -/
structure OffsetRanges where
  times : List (ℝ × ℝ)
  angles : List (ℝ × ℝ)
  translations : List (ℝ × ℝ)

/-- OPT.py:453-454 and 463-464. -/
noncomputable def eightTimes : List (ℝ × ℝ) :=
  [(0, 0.03), (0.03, 0.06), (0.06, 0.09), (0.09, 0.12), (0.12, 0.15), (0.15, 0.18), (0.18, 0.21), (0.21, 0.24)]

/-- OPT.py:456-457 and 474-475, in degrees. -/
noncomputable def eightAngles : List (ℝ × ℝ) :=
  [(0, 15), (15, 30), (30, 45), (45, 60), (60, 75), (75, 90), (90, 105), (105, 120)]

/-- OPT.py:468-469 and 477-478. -/
noncomputable def eightTranslations : List (ℝ × ℝ) :=
  [(0, 0.1), (0.1, 0.2), (0.2, 0.3), (0.3, 0.4), (0.4, 0.5), (0.5, 0.6), (0.6, 0.7), (0.7, 0.8)]

/-- OPT.py:452-490: the ranges with the angles in degrees. -/
noncomputable def offsetRangesDeg (plot_type : String) : Py OffsetRanges :=
  if plot_type = "time_angle" then .ok ⟨eightTimes, eightAngles, [(0, 0.1)]⟩
  else if plot_type = "time_translation" then .ok ⟨eightTimes, [(0, 15)], eightTranslations⟩
  else if plot_type = "angle_translation" then .ok ⟨[(0, 0.03)], eightAngles, eightTranslations⟩
  else if plot_type = "angle_translation_complete" then
    .ok ⟨[(0, 0)], eightAngles ++ [(120, 135), (135, 150), (150, 165), (165, 180)],
      eightTranslations ++ [(0.8, 0.9), (0.9, 1)]⟩
  else .error .assertion

/-- OPT.py:449-495.  In the source `plot_type` is `"angle_translation_complete"` (line 450, to be edited by hand). -/
noncomputable def offsetRanges (plot_type : String) : Py OffsetRanges := do
  let r ← offsetRangesDeg plot_type
  return ⟨r.times, r.angles.map fun a => (a.1 / 180 * Real.pi, a.2 / 180 * Real.pi), r.translations⟩

/-- An element of `input_data` (OPT.py:525-526), without the template. -/
structure ExperimentInput where
  time_offset_range : ℝ × ℝ
  angle_offset_range : ℝ × ℝ
  translation_offset_range : ℝ × ℝ
  iteration : ℕ
  experiment_progress : ℕ × ℤ

/-- A `for` loop whose body appends to a list and moves `experiment_progress_idx`. -/
def forIdx {α β : Type} (body : α → ℕ → Py (List β × ℕ)) : List α → ℕ → Py (List β × ℕ)
  | [], idx => .ok ([], idx)
  | a :: l, idx => do
    let (b, idx) ← body a idx
    let (bs, idx) ← forIdx body l idx
    return (b ++ bs, idx)

/-- OPT.py:522-528: the innermost loop. -/
def iterationLoop (number_of_experiment_exec : ℤ) (num_iterations : ℤ) (time angle translation : ℝ × ℝ) :
    ℕ → Py (List ExperimentInput × ℕ) :=
  forIdx (fun iteration idx => do
    pyAssert ((idx : ℤ) < number_of_experiment_exec)
    return ([⟨time, angle, translation, iteration, (idx, number_of_experiment_exec)⟩], idx + 1))
    (List.range num_iterations.toNat)

/-- OPT.py:508-536: the nested loops. -/
def experimentInputs (r : OffsetRanges) (num_iterations : ℤ) : Py (List ExperimentInput) := do
  let number_of_experiment_exec : ℤ := r.times.length * r.angles.length * r.translations.length * num_iterations
  let (input_data, idx) ← forIdx (fun time => forIdx (fun angle => forIdx (fun translation idx => do
    pyAssert (0 < num_iterations)
    iterationLoop number_of_experiment_exec num_iterations time angle translation idx)
    r.translations) r.angles) r.times 0
  pyAssert ((idx : ℤ) = number_of_experiment_exec)
  pyAssert ((input_data.length : ℤ) = number_of_experiment_exec)
  return input_data

/-- What `compute_initial_guess_for_all_pairs` (OPT.py:103-204) has found for a pair: the two guesses and the part of
the template that is used below.  `dataset` is what the reader makes of the names of the files. -/
structure PairGuess where
  dq_H_E : Option DQuat
  time_offset : ℝ
  success : Bool
  bad_singular_values : Bool
  runtime : ℝ
  dataset : String

/-- What the batch estimator and its evaluation give (OPT.py:306-355). -/
structure OptimizerOutput where
  dq_H_E : DQuat
  rmse : ℝ × ℝ
  num_inliers : ℕ
  runtime : ℝ

/-- The batch estimator, for an experiment, a pair and an initial guess; `none` if `run` raises.  That
`evaluate_calibration` raises, or returns infinite errors, is not modelled. -/
abbrev SpoilOptimizer := ℕ → ℕ → Spoiled → Option OptimizerOutput

/-- What is recorded for a pair in `run_optimization_experiment`. -/
structure PairOutcome where
  spoiled : Spoiled
  dq_H_E : Option DQuat
  optimization_success : Bool
  rmse : ℝ × ℝ
  runtime : ℝ

/-- OPT.py:242-249 for an initial guess that may be `None`: AttributeError at line 65, after the generators are used. -/
noncomputable def spoilOpt (g : PairGuess) (input : ExperimentInput) (d : SpoilDraws) : Py Spoiled :=
  match g.dq_H_E with
  | some dq => spoilInitialGuess g.time_offset dq input.angle_offset_range input.translation_offset_range
      input.time_offset_range d
  | none => do
    let _ ← randomUnit d.direction
    let _ ← getRandom input.angle_offset_range.1 input.angle_offset_range.2 d.axis d.angle
    .error .type

/-- OPT.py:281-367: after the optimization. -/
noncomputable def pairOutcome (s : Spoiled) : Option OptimizerOutput → Py PairOutcome
  | none => .ok ⟨s, none, false, (-1, -1), 0⟩
  | some o => do
    let (_, dq) ← o.dq_H_E.toPose
    return ⟨s, some dq, decide (o.num_inliers ≠ 0), o.rmse, o.runtime⟩

/-- OPT.py:219-369: one pass of the loop over the pairs. -/
noncomputable def runPair (optimizer : SpoilOptimizer) (input : ExperimentInput) (i : ℕ) (g : PairGuess)
    (d : SpoilDraws) : Py PairOutcome := do
  let s ← spoilOpt g input d
  let _ ← (⟨s.time_offset, s.dq_H_E⟩ : Extrinsic).writeJson false
  pairOutcome s (optimizer input.experiment_progress.1 i s)

/-- OPT.py:219-369: the loop over the pairs. -/
noncomputable def runPairs (optimizer : SpoilOptimizer) (input : ExperimentInput) (draws : ℕ → SpoilDraws) :
    ℕ → List PairGuess → Py (List PairOutcome)
  | _, [] => .ok []
  | i, g :: gs => do
    let o ← runPair optimizer input i g (draws i)
    let os ← runPairs optimizer input draws (i + 1) gs
    return o :: os

/-- RES.py:94-123: what a line of the result file says, as far as the plotting tools use it.  The name is the one of
CFG.py:155. -/
noncomputable def spoilRow (g : PairGuess) (o : PairOutcome) (loop_error : ℝ × ℝ) : ResultRow where
  method := "optimization_w_spoiled_init_calibration"
  success := g.success
  position_rmse := o.rmse.1
  orientation_rmse := o.rmse.2
  runtime := g.runtime
  loop_error_position_m := loop_error.1
  loop_error_orientation_deg := loop_error.2
  bad_singular_values := g.bad_singular_values
  runtime_optimization := o.runtime
  initial_guess_angle := o.spoiled.angle_offset
  initial_guess_translation_norm := o.spoiled.translation_offset.norm
  initial_guess_time := o.spoiled.time_offset_offset
  dataset := g.dataset

/-- OPT.py:207-391 `run_optimization_experiment`, and lines 549-552 for its result.  The loop errors of the template are
-1 (RES.py:20-21). -/
noncomputable def runOptimizationExperiment (optimizer : SpoilOptimizer) (pairs : List PairGuess) (num_poses_sets : ℕ)
    (draws : ℕ → SpoilDraws) (input : ExperimentInput) : Py (List ResultRow) := do
  let outcomes ← runPairs optimizer input draws 0 pairs
  let loop_error ← loopErrorIfAll (outcomes.map fun o => (o.dq_H_E, o.optimization_success)) num_poses_sets
  return (pairs.zip outcomes).map fun p => spoilRow p.1 p.2 (loop_error.getD (-1, -1))

/-- OPT.py:449-552: the rows that the script appends to the result file.  `draws e i` is what the generators give in
experiment `e` for pair `i`; the processes of the pool run in any order, `map` returns the results in the order of the
inputs and raises if one of them raises. -/
noncomputable def optimizationExperiments (optimizer : SpoilOptimizer) (pairs : List PairGuess) (num_poses_sets : ℕ)
    (draws : ℕ → ℕ → SpoilDraws) (plot_type : String) (num_iterations : ℤ) : Py (List ResultRow) := do
  let ranges ← offsetRanges plot_type
  let inputs ← experimentInputs ranges num_iterations
  let output ← inputs.mapM fun input =>
    runOptimizationExperiment optimizer pairs num_poses_sets (draws input.experiment_progress.1) input
  return output.flatten

end HandEye
