import Verif.Model.SpoilExperiments
import Verif.Model.Csv

/-!
# Model of the processes that run the experiments

`OPT.py` is `/repo/hand_eye_calibration_experiments/bin/optimization_experiments.py`, `Q.py` is
`/repo/hand_eye_calibration/python/hand_eye_calibration/quaternion.py`.  `multiprocessing.Pool` forks the processes, cuts the inputs into pieces and gives
each process that is free the next piece.  A forked process has a copy of everything, also of the state of the generator of `numpy`; only the
generator of the module `random` is seeded again (by `multiprocessing` in Python 2, by `random` since Python 3.7).
-/

namespace HandEye

/-- The length of the pieces into which `Pool.map` cuts `n` inputs for `processes` processes. -/
def chunkSize (n processes : ℕ) : ℕ := n / (processes * 4) + if n % (processes * 4) = 0 then 0 else 1

/-- A piece: `size` inputs, beginning with number `k * size`; the last piece may be shorter. -/
def chunk {α : Type} (size : ℕ) (inputs : List α) (k : ℕ) : List α := (inputs.drop (k * size)).take size

/-- What a process works on, in this order, if it is given the pieces `k` with `assigned k`. -/
def workerInputs {α : Type} (size : ℕ) (inputs : List α) (assigned : ℕ → Bool) : List α :=
  ((List.range inputs.length).filter assigned).flatMap (chunk size inputs)

/-- The numbers that the generator of `numpy` gives (from `[0, 1)`), beginning with number `s`, in a call of `spoil_initial_guess`: OPT.py:48, 52, 57 and
Q.py:126.  `own` is what the module `random` gives: OPT.py:49 and Q.py:130. -/
noncomputable def drawsAt (numpy : ℕ → ℝ) (s : ℕ) (own : Bool × ℝ) : SpoilDraws where
  time := numpy s
  negative := own.1
  direction := ⟨uniform (-1) 1 (numpy (s + 1)), uniform (-1) 1 (numpy (s + 2)), uniform (-1) 1 (numpy (s + 3))⟩
  length := numpy (s + 4)
  axis := ⟨uniform (-1) 1 (numpy (s + 5)), uniform (-1) 1 (numpy (s + 6)), uniform (-1) 1 (numpy (s + 7))⟩
  angle := own.2

/-- The inputs that a process works on, and how many numbers of `numpy` have been used before: each experiment uses eight for each pair. -/
def workerStarts {α : Type} (num_pairs : ℕ) : ℕ → List α → List (α × ℕ)
  | _, [] => []
  | s, input :: inputs => (input, s) :: workerStarts num_pairs (s + num_pairs * 8) inputs

/-- OPT.py:537: the number of processes. -/
def numProcesses (n : ℕ) : ℕ := min 8 n

/-- OPT.py:537-539 `thread_pool.map`: the input is worked on by some process, after `s` numbers of `numpy`.  `process k` is the process that is given piece
`k`, `forked` the number of numbers that were used before the processes were forked. -/
def StartsAt {α : Type} (inputs : List α) (process : ℕ → ℕ) (num_pairs forked : ℕ) (input : α) (s : ℕ) : Prop :=
  ∃ p, (input, s) ∈ workerStarts num_pairs forked
    (workerInputs (chunkSize inputs.length (numProcesses inputs.length)) inputs fun k => process k == p)

/-- The draws of the experiments of OPT.py:449-552 are the ones that this gives; `own e i` is what the module `random` gives in experiment `e` for pair `i`. -/
def PoolDraws (inputs : List ExperimentInput) (process : ℕ → ℕ) (num_pairs forked : ℕ) (numpy : ℕ → ℝ) (own : ℕ → ℕ → Bool × ℝ)
    (draws : ℕ → ℕ → SpoilDraws) : Prop :=
  ∀ input s, StartsAt inputs process num_pairs forked input s → ∀ i < num_pairs,
    draws input.experiment_progress.1 i = drawsAt numpy (s + i * 8) (own input.experiment_progress.1 i)

/-- OPT.py:264-275 and 293-303: the name of the file for the initial guess (`ending` is `init_guess.json`) or the result (`optimized.json`) of an experiment
and a pair.  `iteration` is a global variable, which has the value of the last pass of the loop of OPT.py:522 when the processes are forked.  `dt`, `ds`,
`da` are the texts of the three offsets. -/
def experimentFile (directory algorithm_name : List Char) (num_iterations : ℕ) (input : ExperimentInput) (pair : ℕ) (dt ds da ending : List Char) :
    List Char :=
  directory ++ "/optimization/".toList ++ algorithm_name ++ "_run_".toList ++ natText input.experiment_progress.1 ++ "_it_".toList ++
    natText (num_iterations - 1) ++ "_pose_pair_".toList ++ natText pair ++ "_dt_".toList ++ dt ++ "_ds_".toList ++ ds ++ "_da_".toList ++ da ++
    '_' :: ending

end HandEye
