import Verif.Model.ExportWords

/-!
# Model of the commands of the documentation

`README` abbreviates `/repo/README.md`, `EXP` `/repo/hand_eye_calibration_experiments/README.md`.  The commands are copied line by line.  Of the shell, the
joining of lines, blanks, quotes and backslashes are modelled; the commands have no variables and wildcards.
-/

namespace HandEye

/-- The shell joins a line that ends with a backslash with the next line.  (Lines that end with two backslashes do not occur.) -/
def joinLines : List Text → List Text
  | [] => []
  | l :: r =>
    if l.getLast? = some '\\' then
      match joinLines r with
      | [] => [l.dropLast]
      | m :: ms => (l.dropLast ++ m) :: ms
    else l :: joinLines r

/-- The words of the commands in some lines.  (For blanks, quotes and backslashes the shell works like `shlex`; other characters that the shell treats
specially do not occur.) -/
def shellCommands (lines : List Text) : Py (List (List Text)) := (joinLines lines).mapM shlexSplit

/-- README:110. -/
def readmeTf : List Text :=
  ["  rosrun hand_eye_calibration tf_to_csv.py --bag calibration.bag --tf_source_frame end_effector --tf_target_frame base_link --csv_output_file tf_poses_timestamped.csv".toList]

/-- README:114-119. -/
def readmeExtract : List Text :=
  ["  rosrun hand_eye_calibration target_extractor_interface.py \\".toList,
   "    --bag calibration.bag \\".toList,
   "    --calib_file_camera calib/camera_intrinsics.yaml \\".toList,
   "    --calib_file_target calib/target.yaml \\".toList,
   "    --image_topic /camera/rgb/image_raw \\".toList,
   "    --output_file camera_poses_timestamped.csv".toList]

/-- README:123-127. -/
def readmeAlign : List Text :=
  ["  rosrun hand_eye_calibration compute_aligned_poses.py \\".toList,
   "    --poses_B_H_csv_file tf_poses_timestamped.csv \\".toList,
   "    --poses_W_E_csv_file camera_poses_timestamped.csv \\ --aligned_poses_B_H_csv_file tf_aligned.csv \\".toList,
   "    --aligned_poses_W_E_csv_file camera_aligned.csv \\".toList,
   "    --time_offset_output_csv_file time_offset.csv".toList]

/-- README:131-136. -/
def readmeCalibrate : List Text :=
  ["  rosrun hand_eye_calibration compute_hand_eye_calibration.py \\".toList,
   "    --aligned_poses_B_H_csv_file tf_aligned.csv  \\".toList,
   "    --aligned_poses_W_E_csv_file camera_aligned.csv \\".toList,
   "    --time_offset_input_csv_file time_offset.csv \\".toList,
   "    --calibration_output_json_file calibration.json \\".toList,
   "    --visualize True".toList]

/-- README:140-145. -/
def readmeEstimate : List Text :=
  ["  rosrun hand_eye_calibration_batch_estimation batch_estimator \\".toList,
   "    --v 1 \\".toList,
   "    --pose1_csv tf_poses_timestamped.csv \\".toList,
   "    --pose2_csv camera_poses_timestamped.csv \\".toList,
   "    --init_guess_file calibration.json \\".toList,
   "    --output_file calibration_optimized.json".toList]

/-- README:153-154. -/
def readmeComplete : List Text :=
  ["rosrun hand_eye_calibration compute_complete_handeye_calibration.sh \\".toList,
   "poses_B_H.csv poses_W_E.csv".toList]

/-- EXP:19-26. -/
def readmeExperiment : List Text :=
  ["rosrun hand_eye_calibration_experiments compute_set_of_hand_eye_calibrations.py \\".toList,
   "--aligned_poses_B_H_csv_files \\".toList,
   "          TANGO_exCALIBur_2/CALIGULA_2017-04-06-18-21-33.csv \\".toList,
   "          TANGO_exCALIBur_2/MARS_2017-04-06-18-23-37.csv \\".toList,
   "          TANGO_exCALIBur_2/NERO_2017-04-06-18-25-25.csv \\".toList,
   "--num_iterations=10 \\".toList,
   "--result_directory TANGO_exCALIBur_2/results \\".toList,
   "--is_absolute_pose_sensor 0 0 0".toList]

/-- EXP:47-54. -/
def readmeOptimization : List Text :=
  ["rosrun hand_eye_calibration_experiments optimization_experiments.py \\".toList,
   "--aligned_poses_B_H_csv_files \\".toList,
   "          TANGO_exCALIBur_2/CALIGULA_2017-04-06-18-21-33.csv \\".toList,
   "          TANGO_exCALIBur_2/MARS_2017-04-06-18-23-37.csv \\".toList,
   "          TANGO_exCALIBur_2/NERO_2017-04-06-18-25-25.csv \\".toList,
   "--num_iterations=10 \\".toList,
   "--result_directory TANGO_exCALIBur_2/optimization_results \\".toList,
   "--is_absolute_pose_sensor 0 0 0 \\".toList]

end HandEye
