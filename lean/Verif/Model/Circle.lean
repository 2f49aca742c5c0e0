import Verif.Model.AlignScript
import Verif.Model.Script

/-!
# Model of the script `close_the_circle_test.py`, with the numbers that are computed

`CIRCLE.py` abbreviates `/repo/hand_eye_calibration/scripts/close_the_circle_test.py`.  This is a first run, in which no
output exists yet, so that every step is executed (for the decision see `requiresUpdate` in `Model/Pipeline.lean`).  Files
are given by the numbers they hold (reading and writing their text is in `Model/Csv.lean`); printing is left out.
-/

namespace HandEye

/-- A file that is read: `IOError` if it has not been written. -/
def fileContent {α : Type} : Option α → Py α
  | some x => .ok x
  | none => .error .os

/-- CIRCLE.py:52-57: the options of the second command. -/
noncomputable def circleArgs (out : AlignOutput) : ScriptArgs where
  aligned_poses_B_H := some out.aligned_poses_B_H
  aligned_poses_W_E := some out.aligned_poses_W_E
  extrinsics_output := true

/-- The batch estimator (a C++ program): from the two recordings and the file of the initial guess, the file of the
result. -/
abbrev BatchEstimator := List StampedPose → List StampedPose → CalibrationFile → Py CalibrationFile

/-- CIRCLE.py:59-80: the initial guess, the batch estimator and the two calibrations that are returned (`cal`, `cal_init`),
after a run of the second command (`none`: it has not ended). -/
noncomputable def refineCalibration (estimate : BatchEstimator) (a_in b_in : List StampedPose) (out : AlignOutput) :
    Option ScriptOutput → Py (Option (Extrinsic × Extrinsic))
  | none => return none
  | some res => do
    let time_offset ← fileContent out.time_offset
    let pose ← fileContent res.extrinsics
    let (init_guess_file, _) ← (Extrinsic.mk time_offset (DQuat.fromPose pose)).writeJson false
    let calib_file ← estimate a_in b_in init_guess_file
    return some (Extrinsic.fromJson calib_file false, Extrinsic.fromJson init_guess_file false)

/-- CIRCLE.py:35-80 `calibrateTwo`.  A command that fails raises an exception here too (`run` checks the exit code); which
one does not matter. -/
noncomputable def calibrateTwoNumbers (svd : Svd) (rng : ℕ → List ℕ) (fuel : ℕ) (estimate : BatchEstimator)
    (a_in b_in : List StampedPose) : Py (Option (Extrinsic × Extrinsic)) := do
  let out ← alignScript ⟨a_in, b_in, true, "Hamilton"⟩
  let res ← calibrationScript svd rng fuel (circleArgs out)
  refineCalibration estimate a_in b_in out res

/-- CIRCLE.py:100-101: the two products that are printed. -/
noncomputable def bothCircles : Option (List (Extrinsic × Extrinsic)) → Py (Option (Extrinsic × Extrinsic))
  | none => return none
  | some calibs => do
    let before ← computeCircle (calibs.map Prod.snd)
    let after ← computeCircle (calibs.map Prod.fst)
    return some (before, after)

/-- CIRCLE.py:88-101: the script for three recordings.  Each pair is calibrated by other processes, with other random
numbers.  (With two recordings only the pair is calibrated, with any other number nothing happens.) -/
noncomputable def closeTheCircle (svd : Svd) (rng : ℕ → ℕ → List ℕ) (fuel : ℕ → ℕ) (estimate : BatchEstimator)
    (input : List (List StampedPose)) : Py (Option (Extrinsic × Extrinsic)) := do
  let runs ← (List.range 3).mapM fun ia => do
    let ib := (ia + 1) % 3
    let a_in ← pyAt input ia
    let b_in ← pyAt input ib
    calibrateTwoNumbers svd (rng ia) (fuel ia) estimate a_in b_in
  bothCircles (runs.mapM id)

end HandEye
