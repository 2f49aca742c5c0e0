import Verif.Model.TimeAlign

/-!
# Model of the cached pipeline in `scripts/close_the_circle_test.py` and of `create_path`

`CIRCLE.py` abbreviates `/repo/hand_eye_calibration/scripts/close_the_circle_test.py`, `BU.py` abbreviates
`/repo/hand_eye_calibration/python/hand_eye_calibration/bash_utils.py`.
-/

namespace HandEye

/-! ## Modification times -/

/-- The modification time of each existing file; the contents are not modelled. -/
abbrev FileTimes := String → Option ℝ

/-- `max(l)`, with ValueError for an empty list. -/
noncomputable def pyMax : List ℝ → Py ℝ
  | [] => .error .value
  | x :: l => .ok (l.foldl max x)

/-- `min(l)`, with ValueError for an empty list. -/
noncomputable def pyMin : List ℝ → Py ℝ
  | [] => .error .value
  | x :: l => .ok (l.foldl min x)

/-- CIRCLE.py:18-19 `getMTimes`. -/
def getMTimes (fs : FileTimes) (inputs : List String) : List ℝ := inputs.filterMap fs

/-- CIRCLE.py:25: the part after `or`. -/
noncomputable def isOutdated (its ots : List ℝ) : Py Bool :=
  if its.length > 0 then do
    let newest ← pyMax its
    let oldest ← pyMin ots
    return decide (newest > oldest)
  else .ok false

/-- CIRCLE.py:22-25 `requiresUpdate`. -/
noncomputable def requiresUpdate (fs : FileTimes) (inputs outputs : List String) : Py Bool :=
  if (getMTimes fs outputs).length = 0 then .ok true
  else isOutdated (getMTimes fs inputs) (getMTimes fs outputs)

/-- The files that a step of the pipeline reads and writes. -/
structure PipelineStep where
  inputs : List String
  outputs : List String

/-- CIRCLE.py:35-73: the four steps of `calibrateTwo`, with the lists that are passed to `requiresUpdate`. -/
def calibrateSteps (group a_in b_in a b : String) : List PipelineStep :=
  let a_aligned := group ++ "/" ++ a ++ "_aligned.csv"
  let b_aligned := group ++ "/" ++ b ++ "_aligned.csv"
  let time_offset_file := group ++ "/" ++ "time_offset.csv"
  let pose_file := group ++ "/" ++ "pose.csv"
  let init_guess_file := group ++ "_init_guess.json"
  let calib_file := group ++ ".json"
  [⟨[a_in, b_in], [a_aligned, b_aligned, time_offset_file]⟩,
   ⟨[a_aligned, b_aligned], [pose_file]⟩,
   ⟨[time_offset_file, pose_file], [init_guess_file]⟩,
   ⟨[a_in, b_in, init_guess_file], [calib_file]⟩]

/-- CIRCLE.py:43-73: each step is executed if it requires an update.  `exec` is what the executed commands do to
the files; an exit code other than zero is an exception (BU.py:15-27 `run`). -/
noncomputable def runSteps (exec : PipelineStep → FileTimes → Py FileTimes) : List PipelineStep → FileTimes → Py FileTimes
  | [], fs => .ok fs
  | s :: l, fs => do
    let update ← requiresUpdate fs s.inputs s.outputs
    let fs' ← if update then exec s fs else .ok fs
    runSteps exec l fs'

/-- CIRCLE.py:35-78 `calibrateTwo`, as far as the files are concerned; making the directory and reading the two
results (lines 36-37 and 75-78) are left out. -/
noncomputable def calibrateTwo (exec : PipelineStep → FileTimes → Py FileTimes) (group a_in b_in a b : String) :
    FileTimes → Py FileTimes :=
  runSteps exec (calibrateSteps group a_in b_in a b)

/-! ## Making directories -/

/-- What a path can name. -/
inductive Entry where
  | dir
  | file
  deriving DecidableEq

/-- The entries of the file system.  A path is the list of its components, either all counted from the root or
all from the working directory; the empty path is `/` in the first case and `''`, which does not exist, in the
second.  (Components `.` and `..`, repeated slashes and links are not modelled.) -/
abbrev FileTree := List String → Option Entry

/-- The codes of `OSError` that matter here. -/
inductive Errno where
  | EEXIST
  | ENOENT
  | ENOTDIR
  | EACCES
  deriving DecidableEq

/-- `os.mkdir(p)`; `denied` are the paths for which the rights are missing. -/
def osMkdir (denied : List String → Bool) (fs : FileTree) (p : List String) : FileTree × Option Errno :=
  if p = [] then (fs, some .ENOENT)
  else if fs p ≠ none then (fs, some .EEXIST)
  else if p.dropLast ≠ [] ∧ fs p.dropLast = none then (fs, some .ENOENT)
  else if p.dropLast ≠ [] ∧ fs p.dropLast = some .file then (fs, some .ENOTDIR)
  else if denied p then (fs, some .EACCES)
  else (Function.update fs p (some .dir), none)

/-- What another process does to the file system at the points where it can interfere with `makedirs(p)`:
before the existence of the parent is checked, and before `mkdir(p)`. -/
structure Other where
  beforeCheck : List String → FileTree → FileTree
  beforeMkdir : List String → FileTree → FileTree

/-- `os.makedirs(p)`: parents first, tolerating EEXIST for them, then `mkdir`. -/
def osMakedirs (denied : List String → Bool) (other : Other) (fs : FileTree) (p : List String) :
    FileTree × Option Errno :=
  let fs := other.beforeCheck p fs
  if h : p.dropLast ≠ [] ∧ fs p.dropLast = none then
    have : p.dropLast.length < p.length := by
      have : p ≠ [] := fun hp => h.1 (by simp [hp])
      have := List.length_pos_iff.mpr this
      simp only [List.length_dropLast]
      omega
    match osMakedirs denied other fs p.dropLast with
    | (fs, none) => osMkdir denied (other.beforeMkdir p fs) p
    | (fs, some .EEXIST) => osMkdir denied (other.beforeMkdir p fs) p
    | (fs, some e) => (fs, some e)
  else osMkdir denied (other.beforeMkdir p fs) p
termination_by p.length

/-- BU.py:30-36 `create_path`, of a file in the directory `dirname`: the tree that is left and whether there is
an exception.  The handler of OSError mentions `errno`, which the module does not import. -/
def createPath (denied : List String → Bool) (other : Other) (fs : FileTree) (dirname : List String) :
    FileTree × Py Unit :=
  if fs dirname = none then
    match osMakedirs denied other fs dirname with
    | (fs, none) => (fs, .ok ())
    | (fs, some _) => (fs, .error .name)
  else (fs, .ok ())

end HandEye
