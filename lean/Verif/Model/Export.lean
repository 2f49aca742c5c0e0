import Verif.Model.Csv

/-!
# Exporting pose tables from bags

`bin/bag_to_csv_with_config.py` (BC below) and `bin/target_extractor_interface.py` (TI below), with the flags of
`hand_eye_calibration_target_extractor/src/target_extractor.cc` (TE below).

Simplified: the argument list of a tool is a list of named values (the programs of BC:18-20 are the two values
of `Tool`); the content of yaml files is given as a value, with `none` for a value that yaml reads as `None` and for a
file that yaml rejects; the tools are arbitrary functions (`ExportWorld`), where `none` says that the tool ended without
writing its table.  Text is a list of characters.
-/

namespace HandEye

/-- A Python `str`. -/
abbrev Text := List Char

/-- The value of `bag['tf_frames']` (BC:37-45). -/
structure TfFrames where
  source : List Text
  target : List Text

/-- The value of `bag['cameras']` (BC:64-74). -/
structure Cameras where
  cam_topics : List Text
  cam_intrinsics : List Text

/-- An entry of the list `bags` of the configuration (BC:29-75; `configs/falcon.yaml`). -/
structure BagEntry where
  name : Text
  bag_path : Text
  intrinsics_path : Text
  target_config_path : Text
  tf_frames : Option TfFrames
  cameras : Option Cameras
  target : Text

/-- The programs called (BC:18-20). -/
inductive Tool where
  | tf_to_csv
  | target_extractor_interface
  deriving DecidableEq

/-- The names of the arguments of the programs (BC:54-61, 83-92). -/
inductive ToolArg where
  | bag
  | tf_source_frame
  | tf_target_frame
  | csv_output_file
  | image_topic
  | calib_file_camera
  | calib_file_target
  | output_file
  deriving DecidableEq

/-- A command passed to `call` (BC:63, 94). -/
structure ToolCall where
  tool : Tool
  args : List (ToolArg × Text)

/-- BC:31 `bag_name.split('.')[0]`. -/
def bagNameWithoutSuffix (bag_name : Text) : Text := (splitChar '.' bag_name).headD []

/-- BC:93 `camera_topic.replace("/", "_")[1:]`. -/
def topicText (camera_topic : Text) : Text := (camera_topic.map fun c => if c = '/' then '_' else c).drop 1

/-- BC:61-62 the name of the table of a pair of frames. -/
def tfOutputFile (bag_name target source : Text) : Text :=
  bagNameWithoutSuffix bag_name ++ ['_'] ++ target ++ ['_'] ++ source ++ ['.', 'c', 's', 'v']

/-- BC:92-93 the name of the table of a camera. -/
def cameraOutputFile (bag_name camera_topic : Text) : Text :=
  bagNameWithoutSuffix bag_name ++ ['_'] ++ ['W', '_'] ++ topicText camera_topic ++ ['.', 'c', 's', 'v']

/-- BC:47-63 one pair of frames. -/
def tfCall (bag : BagEntry) (frames : Text × Text) : ToolCall :=
  ⟨.tf_to_csv,
    [(.bag, bag.bag_path ++ bag.name), (.tf_source_frame, frames.1), (.tf_target_frame, frames.2),
      (.csv_output_file, tfOutputFile bag.name frames.2 frames.1)]⟩

/-- BC:77-94 one camera. -/
def cameraCall (bag : BagEntry) (camera : Text × Text) : ToolCall :=
  ⟨.target_extractor_interface,
    [(.bag, bag.bag_path ++ bag.name), (.image_topic, camera.1), (.calib_file_camera, bag.intrinsics_path ++ camera.2),
      (.calib_file_target, bag.target_config_path ++ bag.target), (.output_file, cameraOutputFile bag.name camera.1)]⟩

/-- BC:37-63 the calls for the frames of a bag; the loop over the indices of both lists, that have equal length here. -/
def tfCalls (bag : BagEntry) : Py (List ToolCall) :=
  match bag.tf_frames with
  | none => .ok []
  | some f => do
    pyAssert (f.source.length = f.target.length)
    return (f.source.zip f.target).map (tfCall bag)

/-- BC:64-94 the calls for the cameras of a bag. -/
def cameraCalls (bag : BagEntry) : Py (List ToolCall) :=
  match bag.cameras with
  | none => .ok []
  | some c => do
    pyAssert (c.cam_topics.length = c.cam_intrinsics.length)
    return (c.cam_topics.zip c.cam_intrinsics).map (cameraCall bag)

/-- BC:30-94 the calls made for a bag, and the exception that ends the script, if any. -/
def bagCalls (bag : BagEntry) : List ToolCall × Option PyErr :=
  match tfCalls bag with
  | .error e => ([], some e)
  | .ok cs =>
    match cameraCalls bag with
    | .error e => (cs, some e)
    | .ok ds => (cs ++ ds, none)

/-- BC:29-94 the loop over the bags. -/
def exportCalls : List BagEntry → List ToolCall × Option PyErr
  | [] => ([], none)
  | b :: bs =>
    match bagCalls b with
    | (cs, some e) => (cs, some e)
    | (cs, none) => (cs ++ (exportCalls bs).1, (exportCalls bs).2)

/-! ## `target_extractor_interface.py` -/

/-- The description of the target in its yaml file (TI:85-97). -/
structure AprilTarget where
  april_tag_number_vertical : ℤ
  april_tag_number_horizontal : ℤ
  april_tag_number_pixel_boarder : ℤ
  april_tag_size_m : ℝ
  april_tag_gap_size_m : ℝ

/-- TI:7-22 (the class attributes). -/
structure TargetExtractorConfig where
  bag_file_name : Text := []
  calib_file_camera : Text := "../calib/sr300_sim.yaml".toList
  topic : Text := "/camera/rgb/image_raw".toList
  draw_extraction : Bool := true
  camera_pose_T_C_G_output_file : Text := "sequenced_camera_poses.csv".toList
  camera_pose_T_C_G_output_file_timestamped : Text := "timestamped_camera_poses.csv".toList
  alsologtostderr : Bool := true
  write_csv_header : Bool := false
  inlier_ratio_for_good_camera_pose : ℝ := 0
  april_target : AprilTarget := ⟨6, 6, 2, 0.055, 0.0165⟩

/-- The flags of the target extractor with their default values (TE:20-65; the names of the files in millimetres are left
out). -/
structure ExtractorFlags where
  bag : Text := []
  topic : Text := "/cam0/image_raw".toList
  draw_extraction : Bool := false
  eval_camera_yaml : Text := []
  camera_pose_T_C_G_output_file : Text := "camera_pose.csv".toList
  camera_pose_T_C_G_output_file_timestamped : Text := "camera_poses_timestamped.csv".toList
  alsologtostderr : Bool := false
  output_position_in_mm : Bool := false
  write_csv_header : Bool := true
  inlier_ratio_for_good_camera_pose : ℝ := 0.4
  april_target : AprilTarget := ⟨6, 6, 2, 0.055, 0.0165⟩

/-- TI:28-59 `call_target_extractor`: the flags that the target extractor gets.  `bag_path` is the global variable of
TI:80. -/
noncomputable def callTargetExtractor (bag_path : Text) (target_extractor_config : TargetExtractorConfig) : ExtractorFlags :=
  { bag := bag_path
    topic := target_extractor_config.topic
    eval_camera_yaml := target_extractor_config.calib_file_camera
    draw_extraction := target_extractor_config.draw_extraction
    camera_pose_T_C_G_output_file := target_extractor_config.camera_pose_T_C_G_output_file
    camera_pose_T_C_G_output_file_timestamped := target_extractor_config.camera_pose_T_C_G_output_file_timestamped
    alsologtostderr := target_extractor_config.alsologtostderr
    write_csv_header := target_extractor_config.write_csv_header
    april_target := target_extractor_config.april_target }

/-- TI:98 `"sequenced_"`. -/
def sequencedPrefix : Text := ['s', 'e', 'q', 'u', 'e', 'n', 'c', 'e', 'd', '_']

/-- TI:80-99 the configuration of a run. -/
noncomputable def extractorConfig (bag image_topic calib_file_camera output_file : Text) (yaml_content : AprilTarget) :
    TargetExtractorConfig :=
  { bag_file_name := bag
    topic := image_topic
    calib_file_camera := calib_file_camera
    april_target := yaml_content
    camera_pose_T_C_G_output_file := sequencedPrefix ++ output_file
    camera_pose_T_C_G_output_file_timestamped := output_file }

/-! ## Running the tools -/

/-- What the tools do.  `tf_to_csv bag source target` is the table of the poses of `source` in `target`;
`target_extractor flags` are the two tables of camera poses, with sequence numbers and with time stamps. -/
structure ExportWorld (τ : Type) where
  tf_to_csv : Text → Text → Text → Option τ
  read_target : Text → Option AprilTarget
  target_extractor : ExtractorFlags → Option (τ × τ)

/-- The files in the working directory. -/
abbrev FileTable (τ : Type) := Text → Option τ

/-- `open(name, 'w')` and writing. -/
def FileTable.write {τ : Type} (fs : FileTable τ) (name : Text) (t : τ) : FileTable τ :=
  fun n => if n = name then some t else fs n

/-- A value of the argument list; the arguments are required (TI:65-77, `tf_to_csv.py`:123-130). -/
def ToolCall.arg (c : ToolCall) (a : ToolArg) : Option Text := c.args.lookup a

/-- `tf_to_csv.py`:121-138. -/
def runTfToCsv {τ : Type} (w : ExportWorld τ) (c : ToolCall) (fs : FileTable τ) : Option (FileTable τ) := do
  let bag ← c.arg .bag
  let source ← c.arg .tf_source_frame
  let target ← c.arg .tf_target_frame
  let csv_output_file ← c.arg .csv_output_file
  let table ← w.tf_to_csv bag source target
  return fs.write csv_output_file table

/-- TI:62-101. -/
noncomputable def runTargetExtractor {τ : Type} (w : ExportWorld τ) (c : ToolCall) (fs : FileTable τ) :
    Option (FileTable τ) := do
  let bag ← c.arg .bag
  let image_topic ← c.arg .image_topic
  let calib_file_camera ← c.arg .calib_file_camera
  let calib_file_target ← c.arg .calib_file_target
  let output_file ← c.arg .output_file
  let yaml_content ← w.read_target calib_file_target
  let flags := callTargetExtractor bag (extractorConfig bag image_topic calib_file_camera output_file yaml_content)
  let tables ← w.target_extractor flags
  return (fs.write flags.camera_pose_T_C_G_output_file tables.1).write
    flags.camera_pose_T_C_G_output_file_timestamped tables.2

/-- `subprocess.call`: the exit code is not looked at (BC:63, 94). -/
noncomputable def runCall {τ : Type} (w : ExportWorld τ) (fs : FileTable τ) (c : ToolCall) : FileTable τ :=
  match c.tool with
  | .tf_to_csv => (runTfToCsv w c fs).getD fs
  | .target_extractor_interface => (runTargetExtractor w c fs).getD fs

/-- BC:11-94: the files after the script, and the exception that ended it, if any.  A configuration that yaml rejects is
printed, after which the name `yaml_content` is not defined (BC:22-27). -/
noncomputable def exportScript {τ : Type} (w : ExportWorld τ) (yaml_content : Option (List BagEntry)) (fs : FileTable τ) :
    FileTable τ × Option PyErr :=
  match yaml_content with
  | none => (fs, some .name)
  | some bags => ((exportCalls bags).1.foldl (runCall w) fs, (exportCalls bags).2)

end HandEye
