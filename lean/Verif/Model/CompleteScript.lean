import Verif.Model.Export

/-!
# Model of `compute_complete_handeye_calibration.sh`

`SH` abbreviates `/repo/hand_eye_calibration/scripts/compute_complete_handeye_calibration.sh`: alignment, calibration and batch
estimation one after the other.  The three programs are parameters, functions of the files they read.  A path is its directory
and its name, as `dirname` and `basename` give them (SH:3-7); two paths are the same file if both are equal.  Names with white
space, which the shell would split, are left out, and so are files that a program writes before it fails.
-/

namespace HandEye

/-- A path. -/
structure FilePath where
  dirname : Text
  basename : Text
  deriving DecidableEq

/-- `"aligned_"`. -/
def alignedPrefix : Text := ['a', 'l', 'i', 'g', 'n', 'e', 'd', '_']

/-- SH:9-10. -/
def alignedPath (p : FilePath) : FilePath := ⟨p.dirname, alignedPrefix ++ p.basename⟩

/-- SH:18 `time_offset.csv`, in the working directory. -/
def timeOffsetPath : FilePath := ⟨['.'], ['t', 'i', 'm', 'e', '_', 'o', 'f', 'f', 's', 'e', 't', '.', 'c', 's', 'v']⟩

/-- SH:24 `calibration.json`. -/
def calibrationPath : FilePath := ⟨['.'], ['c', 'a', 'l', 'i', 'b', 'r', 'a', 't', 'i', 'o', 'n', '.', 'j', 's', 'o', 'n']⟩

/-- SH:32 `calibration_optimized.json`. -/
def optimizedPath : FilePath := ⟨['.'], ['c', 'a', 'l', 'i', 'b', 'r', 'a', 't', 'i', 'o', 'n', '_', 'o', 'p', 't', 'i', 'm', 'i', 'z',
  'e', 'd', '.', 'j', 's', 'o', 'n']⟩

/-- The name with `.out` (`batch_estimator.cc`:197-198). -/
def outPath (p : FilePath) : FilePath := ⟨p.dirname, p.basename ++ ['.', 'o', 'u', 't']⟩

/-- The programs: what they write, if they end well. -/
structure CompleteWorld (τ : Type) where
  /-- `compute_aligned_poses.py`: two tables to two aligned tables and the time offset. -/
  align : τ → τ → Option (τ × τ × τ)
  /-- `compute_hand_eye_calibration.py`: two aligned tables and the time offset to a calibration. -/
  calibrate : τ → τ → τ → Option τ
  /-- `batch_estimator`: two tables and a first guess to two tables and a calibration. -/
  estimate : τ → τ → τ → Option (τ × τ × τ)

/-- The files. -/
abbrev FileSystem (τ : Type) := FilePath → Option τ

/-- Writing a file. -/
def FileSystem.write {τ : Type} (fs : FileSystem τ) (p : FilePath) (t : τ) : FileSystem τ :=
  fun n => if n = p then some t else fs n

/-- SH:13-18. -/
def alignStep {τ : Type} (w : CompleteWorld τ) (a b : FilePath) (fs : FileSystem τ) : Option (FileSystem τ) := do
  let ta ← fs a
  let tb ← fs b
  let r ← w.align ta tb
  return ((fs.write (alignedPath a) r.1).write (alignedPath b) r.2.1).write timeOffsetPath r.2.2

/-- SH:20-25. -/
def calibrateStep {τ : Type} (w : CompleteWorld τ) (a b : FilePath) (fs : FileSystem τ) : Option (FileSystem τ) := do
  let ta ← fs (alignedPath a)
  let tb ← fs (alignedPath b)
  let off ← fs timeOffsetPath
  let c ← w.calibrate ta tb off
  return fs.write calibrationPath c

/-- SH:27-32. -/
def estimateStep {τ : Type} (w : CompleteWorld τ) (a b : FilePath) (fs : FileSystem τ) : Option (FileSystem τ) := do
  let ta ← fs a
  let tb ← fs b
  let guess ← fs calibrationPath
  let r ← w.estimate ta tb guess
  return ((fs.write (outPath a) r.1).write (outPath b) r.2.1).write optimizedPath r.2.2

/-- SH:1-32: the files after the script, and whether its exit code is zero, which is that of the last program.  Without
`set -e` the failure of a program does not stop the script. -/
def completeScript {τ : Type} (w : CompleteWorld τ) (a b : FilePath) (fs : FileSystem τ) : FileSystem τ × Bool :=
  let fs1 := (alignStep w a b fs).getD fs
  let fs2 := (calibrateStep w a b fs1).getD fs1
  ((estimateStep w a b fs2).getD fs2, (estimateStep w a b fs2).isSome)

end HandEye
