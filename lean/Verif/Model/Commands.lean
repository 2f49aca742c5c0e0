import Verif.Model.Export
import Verif.Model.Batch

/-!
# Model of the command lines

`BU.py` abbreviates `/repo/hand_eye_calibration/python/hand_eye_calibration/bash_utils.py`, `CIRCLE.py`
`/repo/hand_eye_calibration/scripts/close_the_circle_test.py`, `SH`
`/repo/hand_eye_calibration/scripts/compute_complete_handeye_calibration.sh`, `AP.py` and `CH.py`
`/repo/hand_eye_calibration/bin/compute_aligned_poses.py` and `compute_hand_eye_calibration.py`, `CS.py` and `OE.py`
`/repo/hand_eye_calibration_experiments/bin/compute_set_of_hand_eye_calibrations.py` and `optimization_experiments.py`, `BE`
`/repo/hand_eye_calibration_batch_estimation/src/batch_estimator.cc`.

The libraries that read command lines (`shlex`, `argparse`, `gflags`) are modelled as far as these programs use them.
-/

namespace HandEye

/-! ## `shlex.split` and `run` -/

/-- The white space of `shlex`. -/
def shlexBlank (c : Char) : Bool := c = ' ' || c = '\t' || c = '\r' || c = '\n'

/-- The states of `shlex` between two characters: between words, in a word, in quotes, after a backslash (in quotes or not). -/
inductive ShlexState where
  | blank
  | word
  | quote (q : Char)
  | escape (q : Option Char)

/-- `shlex.split` from a state on, with the beginning of a word: the words.  ValueError for quotes that are not closed and for a
backslash at the end. -/
def shlexGo : ShlexState → Text → Text → Py (List Text)
  | .blank, _, [] => .ok []
  | .word, w, [] => .ok [w]
  | .quote _, _, [] => .error .value
  | .escape _, _, [] => .error .value
  | .blank, w, c :: r =>
    if shlexBlank c then shlexGo .blank w r
    else if c = '\\' then shlexGo (.escape none) w r
    else if c = '\'' ∨ c = '"' then shlexGo (.quote c) w r
    else shlexGo .word (w ++ [c]) r
  | .word, w, c :: r =>
    if shlexBlank c then (w :: ·) <$> shlexGo .blank [] r
    else if c = '\\' then shlexGo (.escape none) w r
    else if c = '\'' ∨ c = '"' then shlexGo (.quote c) w r
    else shlexGo .word (w ++ [c]) r
  | .quote q, w, c :: r =>
    if c = q then shlexGo .word w r
    else if c = '\\' ∧ q = '"' then shlexGo (.escape (some q)) w r
    else shlexGo (.quote q) (w ++ [c]) r
  | .escape none, w, c :: r => shlexGo .word (w ++ [c]) r
  | .escape (some q), w, c :: r =>
    if c = '\\' ∨ c = q then shlexGo (.quote q) (w ++ [c]) r else shlexGo (.quote q) (w ++ ['\\', c]) r

/-- `shlex.split(s)`. -/
def shlexSplit (s : Text) : Py (List Text) := shlexGo .blank [] s

/-- BU.py:15-27 `run`.  `exec` starts a program with its arguments and gives its exit code (`subprocess.Popen`, OSError if there is
no such program).  The `Exception` for an exit code that is not zero is `os` here. -/
def runCommand (exec : List Text → Py ℤ) (cmd : Text) (dry_run : Bool) : Py Unit :=
  if dry_run then return ()
  else do
    let args ← shlexSplit cmd
    let exit_code ← exec args
    if exit_code ≠ 0 then .error .os else return ()

/-! ## `argparse` -/

/-- The types of options. -/
inductive ArgKind where
  | str
  | bool
  | int
  deriving DecidableEq

/-- The values of options. -/
inductive ArgValue where
  | none
  | str (t : Text)
  | bool (b : Bool)
  | int (n : ℤ)
  | strs (l : List Text)
  | ints (l : List ℤ)
  deriving DecidableEq

/-- An option of `add_argument`; `many` is `nargs='+'`. -/
structure ArgSpec where
  name : Text
  kind : ArgKind := .str
  many : Bool := false
  required : Bool := false
  default : ArgValue := .none

/-- What `argparse` takes a word for: a value, an option (with the value after an equals sign), or an error. -/
inductive ArgToken where
  | value (t : Text)
  | option (name : Text) (explicit : Option Text)
  | bad
  deriving DecidableEq

/-- `-1`, `-0.5` (the negative numbers of `argparse`). -/
def looksNegative (t : Text) : Bool :=
  match t with
  | '-' :: r => (r ≠ [] && r.all Char.isDigit) ||
    (let f := (r.dropWhile Char.isDigit); f.head? = some '.' && f.tail ≠ [] && f.tail.all Char.isDigit)
  | _ => false

/-- The options with a prefix: one of them is an abbreviation, several are an error; else the word may be a value. -/
def abbreviation (t : Text) (explicit : Option Text) : List Text → ArgToken
  | [n] => .option n explicit
  | [] => if looksNegative t || t.contains ' ' then .value t else .bad
  | _ => .bad

/-- `ArgumentParser._parse_optional`.  Left out: `--`, which ends the options, and the short form of `--help` (both are errors
here). -/
def classifyArg (names : List Text) (t : Text) : ArgToken :=
  if t.head? ≠ some '-' then .value t
  else if t ∈ names then .option t none
  else if t = ['-'] then .value t
  else
    let before := t.takeWhile (· ≠ '=')
    let explicit := if t.contains '=' then some (t.dropWhile (· ≠ '=')).tail else none
    if before ∈ names then .option before explicit
    else abbreviation t explicit (if "--".toList.isPrefixOf t then names.filter before.isPrefixOf else [])

/-- The values before the first option, and the options with the values after them. -/
def groupArgs : List ArgToken → Option (List Text × List (Text × Option Text × List Text))
  | [] => some ([], [])
  | .value t :: r => do
    let g ← groupArgs r
    return (t :: g.1, g.2)
  | .option n e :: r => do
    let g ← groupArgs r
    return ([], (n, e, g.1) :: g.2)
  | .bad :: _ => none

/-- The digits of a number. -/
def parseDigits (t : Text) : Option ℕ := if t ≠ [] ∧ t.all Char.isDigit then some (digitsValue t) else none

/-- `int(t)`, without white space and underscores. -/
def parseInt (t : Text) : Option ℤ :=
  match t with
  | '-' :: r => (parseDigits r).map fun n => -(n : ℤ)
  | '+' :: r => (parseDigits r).map fun n => (n : ℤ)
  | r => (parseDigits r).map fun n => (n : ℤ)

/-- The value of an option for its words.  `bool(t)` is false for the empty text only. -/
def convertArg (kind : ArgKind) (many : Bool) (words : List Text) : Option ArgValue :=
  match kind, many, words with
  | .str, false, [t] => some (.str t)
  | .bool, false, [t] => some (.bool (t ≠ []))
  | .int, false, [t] => (parseInt t).map .int
  | .str, true, t :: l => some (.strs (t :: l))
  | .int, true, t :: l => ((t :: l).mapM parseInt).map .ints
  | _, _, _ => none

/-- An option with its words: its name and its value. -/
def storeArg (specs : List ArgSpec) (g : Text × Option Text × List Text) : Option (Text × ArgValue) := do
  let s ← specs.find? fun s => s.name = g.1
  let words ← match g.2.1 with
    | none => some g.2.2
    | some e => if g.2.2 = [] then some [e] else none
  let v ← convertArg s.kind s.many words
  return (s.name, v)

/-- The value of an option after all have been stored: the last one, or the default. -/
def finalArg (stored : List (Text × ArgValue)) (s : ArgSpec) : Option (Text × ArgValue) :=
  match stored.reverse.find? fun p => p.1 = s.name with
  | some p => some (s.name, p.2)
  | none => if s.required then none else some (s.name, s.default)

/-- `parser.parse_args()`: the options with their values; `none` if the program ends with a message (`SystemExit`). -/
def parseArgs (specs : List ArgSpec) (argv : List Text) : Option (List (Text × ArgValue)) := do
  let g ← groupArgs (argv.map (classifyArg ("--help".toList :: specs.map ArgSpec.name)))
  if g.1 ≠ [] then none
  else do
    let stored ← g.2.mapM (storeArg specs)
    specs.mapM (finalArg stored)

/-- AP.py:23-53. -/
def alignSpecs : List ArgSpec :=
  [{ name := "--poses_B_H_csv_file".toList, required := true },
   { name := "--poses_W_E_csv_file".toList, required := true },
   { name := "--aligned_poses_B_H_csv_file".toList, required := true },
   { name := "--aligned_poses_W_E_csv_file".toList, required := true },
   { name := "--time_offset_output_csv_file".toList },
   { name := "--quaternion_format".toList, default := .str "Hamilton".toList },
   { name := "--visualize".toList, kind := .bool, default := .bool false }]

/-- CH.py:26-57. -/
def calibrateSpecs : List ArgSpec :=
  [{ name := "--aligned_poses_B_H_csv_file".toList },
   { name := "--aligned_poses_H_B_csv_file".toList },
   { name := "--aligned_poses_W_E_csv_file".toList },
   { name := "--aligned_poses_E_W_csv_file".toList },
   { name := "--extrinsics_output_csv_file".toList },
   { name := "--time_offset_input_csv_file".toList },
   { name := "--calibration_output_json_file".toList },
   { name := "--visualize".toList, kind := .bool, default := .bool false },
   { name := "--plot_every_nth_pose".toList, kind := .int, default := .int 10 }]

/-- CS.py:37-54 and OE.py:395-412, which are the same. -/
def experimentSpecs : List ArgSpec :=
  [{ name := "--aligned_poses_B_H_csv_files".toList, many := true, required := true },
   { name := "--is_absolute_pose_sensor".toList, kind := .int, many := true },
   { name := "--result_directory".toList, required := true },
   { name := "--visualize".toList, kind := .bool, default := .bool false },
   { name := "--plot_every_nth_pose".toList, kind := .int, default := .int 10 },
   { name := "--num_iterations".toList, kind := .int, default := .int 2 }]

/-! ## `gflags` -/

/-- The name of a flag in a word that begins with a dash: without one or two dashes, up to the equals sign. -/
def flagName (t : Text) : Text :=
  (if "--".toList.isPrefixOf t then t.drop 2 else t.drop 1).takeWhile (· ≠ '=')

/-- The text after the equals sign. -/
def flagValue (t : Text) : Option Text := if t.contains '=' then some (t.dropWhile (· ≠ '=')).tail else none

/-- `google::ParseCommandLineFlags` of flags with values: what is assigned to them, in this order, and the words that are no
flags, which the program ignores.  `pending` is a flag that waits for its value.  `none` for an unknown flag or a missing
value (the program ends).  Left out: flags without values, and the test that numbers are numbers. -/
def parseFlags (known : List Text) : Option Text → List Text → Option (List (Text × Text) × List Text)
  | none, [] => some ([], [])
  | some _, [] => none
  | some n, t :: r => (parseFlags known none r).map fun p => ((n, t) :: p.1, p.2)
  | none, t :: r =>
    if t.head? ≠ some '-' ∨ t = ['-'] then (parseFlags known none r).map fun p => (p.1, t :: p.2)
    else if t = "--".toList then some ([], r)
    else if flagName t ∈ known then
      match flagValue t with
      | some v => (parseFlags known none r).map fun p => ((flagName t, v) :: p.1, p.2)
      | none => parseFlags known (some (flagName t)) r
    else none

/-- BE:25-53 and the flag `v` of `glog`: the flags with values. -/
def estimatorFlags : List Text :=
  ["pose1_csv".toList, "pose2_csv".toList, "config_file".toList, "model_config".toList, "init_guess_file".toList,
   "output_file".toList, "v".toList]

/-- What a flag is after parsing: the last value, or the default. -/
def flagOf (assigned : List (Text × Text)) (name default : Text) : Text :=
  match assigned.reverse.find? fun p => p.1 = name with
  | some p => p.2
  | none => default

/-! ## The commands -/

/-- CIRCLE.py:44-50: the first command.  (A backslash at the end of a line of a Python literal joins the lines.) -/
def alignCommand (a_in b_in a_aligned b_aligned time_offset_file : Text) : Text :=
  "rosrun hand_eye_calibration compute_aligned_poses.py       --poses_B_H_csv_file ".toList ++ a_in ++
  "        --poses_W_E_csv_file ".toList ++ b_in ++
  "       --aligned_poses_B_H_csv_file ".toList ++ a_aligned ++
  "       --aligned_poses_W_E_csv_file ".toList ++ b_aligned ++
  "       --time_offset_output_csv_file ".toList ++ time_offset_file

/-- CIRCLE.py:53-57: the second command. -/
def calibrateCommand (a_aligned b_aligned pose_file : Text) : Text :=
  "rosrun hand_eye_calibration compute_hand_eye_calibration.py       --aligned_poses_B_H_csv_file ".toList ++ a_aligned ++
  "       --aligned_poses_W_E_csv_file ".toList ++ b_aligned ++
  "        --extrinsics_output_csv_file ".toList ++ pose_file

/-- CIRCLE.py:69-73: the third command. -/
def estimateCommand (a_in b_in init_guess_file calib_file : Text) : Text :=
  "rosrun hand_eye_calibration_batch_estimation batch_estimator -v 1       --pose1_csv=".toList ++ a_in ++
  " --pose2_csv=".toList ++ b_in ++
  "       --init_guess_file=".toList ++ init_guess_file ++
  "       --output_file=".toList ++ calib_file

/-- CS.py:230-237 (and OE.py:310-317, with fewer spaces): the command of the experiments. -/
def optimizeCommand (pose_file_B_H pose_file_W_E initial_guess_file optimized_file model_config_string : Text) : Text :=
  "rosrun hand_eye_calibration_batch_estimation batch_estimator -v 1               --pose1_csv=".toList ++ pose_file_B_H ++
  " --pose2_csv=".toList ++ pose_file_W_E ++
  "               --init_guess_file=".toList ++ initial_guess_file ++
  "               --output_file=".toList ++ optimized_file ++
  "               --model_config=".toList ++ model_config_string

/-- SH:13-18: the words of the first command of the shell script, for file names without white space. -/
def shellAlignWords (a b aligned_a aligned_b : Text) : List Text :=
  ["--poses_B_H_csv_file".toList, a, "--poses_W_E_csv_file".toList, b, "--aligned_poses_B_H_csv_file".toList, aligned_a,
   "--aligned_poses_W_E_csv_file".toList, aligned_b, "--time_offset_output_csv_file".toList, "time_offset.csv".toList]

/-- SH:27-32: the words of the third command of the shell script, for file names without white space. -/
def shellEstimateWords (a b : Text) : List Text :=
  ["--v".toList, "1".toList, "--pose1_csv".toList, a, "--pose2_csv".toList, b, "--init_guess_file".toList,
   "calibration.json".toList, "--output_file".toList, "calibration_optimized.json".toList]

/-- SH:20-25: the words of the second command of the shell script, for file names without white space. -/
def shellCalibrateWords (aligned_a aligned_b : Text) : List Text :=
  ["--aligned_poses_B_H_csv_file".toList, aligned_a, "--aligned_poses_W_E_csv_file".toList, aligned_b,
   "--time_offset_input_csv_file".toList, "time_offset.csv".toList, "--calibration_output_json_file".toList,
   "calibration.json".toList, "--visualize=0".toList]

end HandEye
