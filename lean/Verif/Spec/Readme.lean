import Verif.Spec.Quoting

/-! # Specification vocabulary: the commands of the documentation with names of one's own -/

namespace HandEye.Spec

/-- The names in the commands of the step-by-step calibration. -/
structure StepNames where
  bag : Text
  source : Text
  target : Text
  camera_yaml : Text
  target_yaml : Text
  topic : Text
  tf_poses : Text
  camera_poses : Text
  tf_aligned : Text
  camera_aligned : Text
  offset : Text
  calibration : Text
  optimized : Text

/-- All the names. -/
def StepNames.all (n : StepNames) : List Text :=
  [n.bag, n.source, n.target, n.camera_yaml, n.target_yaml, n.topic, n.tf_poses, n.camera_poses, n.tf_aligned, n.camera_aligned, n.offset, n.calibration,
   n.optimized]

/-- The names of the documentation. -/
def documentedNames : StepNames where
  bag := "calibration.bag".toList
  source := "end_effector".toList
  target := "base_link".toList
  camera_yaml := "calib/camera_intrinsics.yaml".toList
  target_yaml := "calib/target.yaml".toList
  topic := "/camera/rgb/image_raw".toList
  tf_poses := "tf_poses_timestamped.csv".toList
  camera_poses := "camera_poses_timestamped.csv".toList
  tf_aligned := "tf_aligned.csv".toList
  camera_aligned := "camera_aligned.csv".toList
  offset := "time_offset.csv".toList
  calibration := "calibration.json".toList
  optimized := "calibration_optimized.json".toList

/-- A word after a blank. -/
def here (t : Text) : Laid := { before := [' '], word := asIs t }

/-- A word in the next line. -/
def below (t : Text) : Laid := { before := [' '], next := some "    ".toList, word := asIs t }

/-- A word in the next line, which is not indented. -/
def below0 (t : Text) : Laid := { before := [' '], next := some [], word := asIs t }

/-- A word in the next line, which is indented far. -/
def below10 (t : Text) : Laid := { before := [' '], next := some "          ".toList, word := asIs t }

/-- Export of the poses of the robot. -/
def tfLaid (n : StepNames) : List Laid :=
  [here "hand_eye_calibration".toList, here "tf_to_csv.py".toList, here "--bag".toList, here n.bag, here "--tf_source_frame".toList, here n.source,
   here "--tf_target_frame".toList, here n.target, here "--csv_output_file".toList, here n.tf_poses]

/-- Export of the poses of the camera. -/
def extractLaid (n : StepNames) : List Laid :=
  [here "hand_eye_calibration".toList, here "target_extractor_interface.py".toList, below "--bag".toList, here n.bag,
   below "--calib_file_camera".toList, here n.camera_yaml, below "--calib_file_target".toList, here n.target_yaml,
   below "--image_topic".toList, here n.topic, below "--output_file".toList, here n.camera_poses]

/-- Time alignment; the third option is written as given. -/
def alignLaid (third : Laid) (n : StepNames) : List Laid :=
  [here "hand_eye_calibration".toList, here "compute_aligned_poses.py".toList, below "--poses_B_H_csv_file".toList, here n.tf_poses,
   below "--poses_W_E_csv_file".toList, here n.camera_poses, third, here n.tf_aligned,
   below "--aligned_poses_W_E_csv_file".toList, here n.camera_aligned, below "--time_offset_output_csv_file".toList, here n.offset]

/-- The third option as it is documented: after a backslash and a blank in the same line. -/
def documentedThird : Laid := { before := [' '], word := .escaped ' ' :: asIs "--aligned_poses_B_H_csv_file".toList }

/-- The third option as it is meant, in the next line. -/
def meantThird : Laid := below "--aligned_poses_B_H_csv_file".toList

/-- Calibration. -/
def calibrateLaid (n : StepNames) : List Laid :=
  [here "hand_eye_calibration".toList, here "compute_hand_eye_calibration.py".toList, below "--aligned_poses_B_H_csv_file".toList, here n.tf_aligned,
   { below "--aligned_poses_W_E_csv_file".toList with before := "  ".toList }, here n.camera_aligned,
   below "--time_offset_input_csv_file".toList, here n.offset, below "--calibration_output_json_file".toList, here n.calibration,
   below "--visualize".toList, here "True".toList]

/-- Optimization. -/
def estimateLaid (n : StepNames) : List Laid :=
  [here "hand_eye_calibration_batch_estimation".toList, here "batch_estimator".toList, below "--v".toList, here ['1'],
   below "--pose1_csv".toList, here n.tf_poses, below "--pose2_csv".toList, here n.camera_poses, below "--init_guess_file".toList, here n.calibration,
   below "--output_file".toList, here n.optimized]

/-- The end-to-end calibration. -/
def completeLaid (a b : Text) : List Laid :=
  [here "hand_eye_calibration".toList, here "compute_complete_handeye_calibration.sh".toList, below0 a, here b]

/-- The experiments, with files, a number of iterations, a directory, and a flag for each file. -/
def experimentLaid (program : Text) (files : List Text) (iterations : ℕ) (directory : Text) (flags : List Bool) : List Laid :=
  [here "hand_eye_calibration_experiments".toList, here program, below0 "--aligned_poses_B_H_csv_files".toList] ++ files.map below10 ++
  [below0 ("--num_iterations=".toList ++ decimal iterations), below0 "--result_directory".toList, here directory,
   below0 "--is_absolute_pose_sensor".toList] ++ flags.map fun b => here (if b then ['1'] else ['0'])

/-- The files of the documentation. -/
def documentedFiles : List Text :=
  ["TANGO_exCALIBur_2/CALIGULA_2017-04-06-18-21-33.csv".toList, "TANGO_exCALIBur_2/MARS_2017-04-06-18-23-37.csv".toList,
   "TANGO_exCALIBur_2/NERO_2017-04-06-18-25-25.csv".toList]

end HandEye.Spec
