import Verif.Model.ModelConfig

/-!
# Model of the command lines of the export

`Model/Export.lean` takes the arguments of the tools as named values.  Here they are the words that the programs get, and are read by `argparse` and
`gflags`.  `BC` abbreviates `/repo/hand_eye_calibration/bin/bag_to_csv_with_config.py`, `TI` `target_extractor_interface.py` and `TC` `tf_to_csv.py` in the
same directory, `TE` `/repo/hand_eye_calibration_target_extractor/src/target_extractor.cc`.  `subprocess.call` with a list and `rosrun` pass words on as they
are.
-/

namespace HandEye

/-! ## The tools of `bag_to_csv_with_config.py` -/

/-- BC:54-61, 83-92: the options. -/
def ToolArg.word : ToolArg → Text
  | .bag => "--bag".toList
  | .tf_source_frame => "--tf_source_frame".toList
  | .tf_target_frame => "--tf_target_frame".toList
  | .csv_output_file => "--csv_output_file".toList
  | .image_topic => "--image_topic".toList
  | .calib_file_camera => "--calib_file_camera".toList
  | .calib_file_target => "--calib_file_target".toList
  | .output_file => "--output_file".toList

/-- BC:53-62, 82-93: the words after the name of the program. -/
def ToolCall.words (c : ToolCall) : List Text := c.args.flatMap fun p => [p.1.word, p.2]

/-- TC:123-130. -/
def tfToCsvSpecs : List ArgSpec :=
  [{ name := "--bag".toList, required := true },
   { name := "--tf_source_frame".toList, required := true },
   { name := "--tf_target_frame".toList, required := true },
   { name := "--csv_output_file".toList, required := true }]

/-- TI:63-77. -/
def interfaceSpecs : List ArgSpec :=
  [{ name := "--bag".toList, required := true },
   { name := "--calib_file_camera".toList, required := true },
   { name := "--calib_file_target".toList, required := true },
   { name := "--image_topic".toList, required := true },
   { name := "--output_file".toList, required := true }]

/-- The options of a tool. -/
def Tool.specs : Tool → List ArgSpec
  | .tf_to_csv => tfToCsvSpecs
  | .target_extractor_interface => interfaceSpecs

/-- The text of an option, after `parse_args`. -/
def argText (args : List (Text × ArgValue)) (name : Text) : Option Text :=
  match args.lookup name with
  | some (.str t) => some t
  | _ => none

/-! ## The words of `target_extractor_interface.py` -/

/-- `str(n)`. -/
def intText (n : ℤ) : Text := if n < 0 then '-' :: natText n.natAbs else natText n.natAbs

/-- TI:28-59: the words after the name of the program; `str` is `str` of a float. -/
noncomputable def extractorWords (str : ℝ → Text) (bag_path : Text) (c : TargetExtractorConfig) : List Text :=
  ["--bag".toList, bag_path, "--topic".toList, c.topic, "--eval_camera_yaml".toList, c.calib_file_camera,
   "--draw_extraction=".toList ++ pyBoolText c.draw_extraction,
   "--camera_pose_T_C_G_output_file".toList, c.camera_pose_T_C_G_output_file,
   "--camera_pose_T_C_G_output_file_timestamped".toList, c.camera_pose_T_C_G_output_file_timestamped] ++
  (if c.alsologtostderr then ["--alsologtostderr".toList] else []) ++
  ["--write_csv_header=".toList ++ pyBoolText c.write_csv_header,
   "--april_tag_number_vertical".toList, intText c.april_target.april_tag_number_vertical,
   "--april_tag_number_horizontal".toList, intText c.april_target.april_tag_number_horizontal,
   "--april_tag_size_m".toList, str c.april_target.april_tag_size_m,
   "--april_tag_pixel_boarder".toList, intText c.april_target.april_tag_number_pixel_boarder,
   "--april_tag_gap_size_m".toList, str c.april_target.april_tag_gap_size_m]

/-! ## The flags of the target extractor -/

/-- TE:20-65 and `glog`: the flags that are truth values. -/
def extractorBoolFlags : List Text :=
  ["draw_extraction".toList, "output_position_in_mm".toList, "write_csv_header".toList, "alsologtostderr".toList]

/-- TE:20-65: the other flags. -/
def extractorValueFlags : List Text :=
  ["bag".toList, "topic".toList, "eval_camera_yaml".toList, "camera_pose_T_C_G_output_file".toList,
   "camera_pose_T_C_G_output_file_timestamped".toList, "camera_pose_T_C_G_output_file_mm".toList,
   "camera_pose_T_C_G_output_file_mm_timestamped".toList, "inlier_ratio_for_good_camera_pose".toList,
   "april_tag_number_vertical".toList, "april_tag_number_horizontal".toList, "april_tag_size_m".toList,
   "april_tag_gap_size_m".toList, "april_tag_pixel_boarder".toList]

/-- `google::ParseCommandLineFlags`, also of flags that are truth values, which take no word of their own: without an equals sign they are `1`, and with
`no` before the name `0`.  The flags that are assigned, in this order.  (The words that are no flags are left out.) -/
def parseFlagsBool (values bools : List Text) : Option Text → List Text → Option (List (Text × Text))
  | none, [] => some []
  | some _, [] => none
  | some n, t :: r => (parseFlagsBool values bools none r).map fun p => (n, t) :: p
  | none, t :: r =>
    if t.head? ≠ some '-' ∨ t = ['-'] then parseFlagsBool values bools none r
    else if t = "--".toList then some []
    else if flagName t ∈ bools then
      (parseFlagsBool values bools none r).map fun p => (flagName t, (flagValue t).getD ['1']) :: p
    else if flagName t ∈ values then
      match flagValue t with
      | some v => (parseFlagsBool values bools none r).map fun p => (flagName t, v) :: p
      | none => parseFlagsBool values bools (some (flagName t)) r
    else if "no".toList.isPrefixOf (flagName t) ∧ (flagName t).drop 2 ∈ bools ∧ flagValue t = none then
      (parseFlagsBool values bools none r).map fun p => ((flagName t).drop 2, ['0']) :: p
    else none

/-- The last value that is assigned to a flag. -/
def assignedValue (assigned : List (Text × Text)) (name : Text) : Option Text :=
  (assigned.reverse.find? fun p => p.1 = name).map Prod.snd

/-- A truth value as `gflags` reads it: the case does not matter. -/
def gflagsBool (t : Text) : Option Bool :=
  if t.map Char.toLower ∈ ["1".toList, "t".toList, "true".toList, "y".toList, "yes".toList] then some true
  else if t.map Char.toLower ∈ ["0".toList, "f".toList, "false".toList, "n".toList, "no".toList] then some false
  else none

/-- A number of 32 bits (decimal; hexadecimal numbers are left out). -/
def gflagsInt32 (t : Text) : Option ℤ := (parseInt t).bind fun n => if -2 ^ 31 ≤ n ∧ n < 2 ^ 31 then some n else none

/-- A flag: its default if nothing is assigned; the program ends if the text is rejected. -/
def flagWith {α : Type} (read : Text → Option α) (assigned : List (Text × Text)) (name : Text) (default : α) : Option α :=
  match assignedValue assigned name with
  | none => some default
  | some t => read t

/-- TE:20-69: the flags of a target extractor that is started with these words.  `strtod` reads a number. -/
noncomputable def extractorFlagsOf (strtod : Text → Option ℝ) (argv : List Text) : Option ExtractorFlags := do
  let a ← parseFlagsBool extractorValueFlags extractorBoolFlags none argv
  let d : ExtractorFlags := {}
  let bag ← flagWith some a "bag".toList d.bag
  let topic ← flagWith some a "topic".toList d.topic
  let draw_extraction ← flagWith gflagsBool a "draw_extraction".toList d.draw_extraction
  let eval_camera_yaml ← flagWith some a "eval_camera_yaml".toList d.eval_camera_yaml
  let file ← flagWith some a "camera_pose_T_C_G_output_file".toList d.camera_pose_T_C_G_output_file
  let stamped ← flagWith some a "camera_pose_T_C_G_output_file_timestamped".toList d.camera_pose_T_C_G_output_file_timestamped
  let alsologtostderr ← flagWith gflagsBool a "alsologtostderr".toList d.alsologtostderr
  let output_position_in_mm ← flagWith gflagsBool a "output_position_in_mm".toList d.output_position_in_mm
  let write_csv_header ← flagWith gflagsBool a "write_csv_header".toList d.write_csv_header
  let inlier_ratio ← flagWith strtod a "inlier_ratio_for_good_camera_pose".toList d.inlier_ratio_for_good_camera_pose
  let vertical ← flagWith gflagsInt32 a "april_tag_number_vertical".toList d.april_target.april_tag_number_vertical
  let horizontal ← flagWith gflagsInt32 a "april_tag_number_horizontal".toList d.april_target.april_tag_number_horizontal
  let boarder ← flagWith gflagsInt32 a "april_tag_pixel_boarder".toList d.april_target.april_tag_number_pixel_boarder
  let size ← flagWith strtod a "april_tag_size_m".toList d.april_target.april_tag_size_m
  let gap ← flagWith strtod a "april_tag_gap_size_m".toList d.april_target.april_tag_gap_size_m
  return ⟨bag, topic, draw_extraction, eval_camera_yaml, file, stamped, alsologtostderr, output_position_in_mm, write_csv_header, inlier_ratio,
    ⟨vertical, horizontal, boarder, size, gap⟩⟩

/-! ## The tools with their words -/

/-- TC:121-138 `tf_to_csv.py` with the given words. -/
def tfToCsvMain {τ : Type} (w : ExportWorld τ) (argv : List Text) (fs : FileTable τ) : Option (FileTable τ) := do
  let args ← parseArgs tfToCsvSpecs argv
  let bag ← argText args "--bag".toList
  let target ← argText args "--tf_target_frame".toList
  let source ← argText args "--tf_source_frame".toList
  let csv_output_file ← argText args "--csv_output_file".toList
  let table ← w.tf_to_csv bag source target
  return fs.write csv_output_file table

/-- TI:62-101 `target_extractor_interface.py` with the given words, and the target extractor that it starts. -/
noncomputable def interfaceMain {τ : Type} (str : ℝ → Text) (strtod : Text → Option ℝ) (w : ExportWorld τ) (argv : List Text) (fs : FileTable τ) :
    Option (FileTable τ) := do
  let args ← parseArgs interfaceSpecs argv
  let bag ← argText args "--bag".toList
  let image_topic ← argText args "--image_topic".toList
  let calib_file_camera ← argText args "--calib_file_camera".toList
  let calib_file_target ← argText args "--calib_file_target".toList
  let output_file ← argText args "--output_file".toList
  let yaml_content ← w.read_target calib_file_target
  let flags ← extractorFlagsOf strtod (extractorWords str bag (extractorConfig bag image_topic calib_file_camera output_file yaml_content))
  let tables ← w.target_extractor flags
  return (fs.write flags.camera_pose_T_C_G_output_file tables.1).write flags.camera_pose_T_C_G_output_file_timestamped tables.2

/-- BC:63, 94 `call`: the exit code is not looked at. -/
noncomputable def runWords {τ : Type} (str : ℝ → Text) (strtod : Text → Option ℝ) (w : ExportWorld τ) (fs : FileTable τ) (c : ToolCall) : FileTable τ :=
  match c.tool with
  | .tf_to_csv => (tfToCsvMain w c.words fs).getD fs
  | .target_extractor_interface => (interfaceMain str strtod w c.words fs).getD fs

/-- BC:11-94, with the words. -/
noncomputable def exportScriptWords {τ : Type} (str : ℝ → Text) (strtod : Text → Option ℝ) (w : ExportWorld τ) (yaml_content : Option (List BagEntry))
    (fs : FileTable τ) : FileTable τ × Option PyErr :=
  match yaml_content with
  | none => (fs, some .name)
  | some bags => ((exportCalls bags).1.foldl (runWords str strtod w) fs, (exportCalls bags).2)

end HandEye
