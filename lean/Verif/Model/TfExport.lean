import Verif.Model.TimeAlign
import Verif.Model.Ransac

/-!
# Model of `bin/tf_to_csv.py`

`TF.py` abbreviates `/repo/hand_eye_calibration/bin/tf_to_csv.py`.  The tf tree is a function from time stamps to
poses of the source frame in the target frame; `none` stands for one of the three exceptions that are caught.
A row of the CSV file is a stamped pose; its text (`str` of floats) is not modelled.
-/

namespace HandEye

/-- A transform in a message: `child_frame_id` and `header.stamp`. -/
structure SingleTf where
  child_frame_id : String
  stamp : ℝ

/-- A message of the bag. -/
structure BagMessage where
  topic : String
  transforms : List SingleTf

/-- The local variables of TF.py:31-39 that change in the loop, the rows written, and for each warning printed
the seconds since the start (TF.py:99-108).  `tf_previous_timestamp` starts as a float, on which `to_sec` fails. -/
structure TfState where
  init : Bool := true
  tf_counter : ℕ := 0
  start_time : ℝ := 0
  end_time : ℝ := 0
  tf_previous_timestamp : Option ℝ := none
  rows : List StampedPose := []
  warnings : List ℝ := []

/-- TF.py:90-108: whether a warning is printed for an interval. -/
noncomputable def intervalWarns (tf_interval_estimated tf_interval_measured : ℝ) : Py Bool :=
  if tf_interval_measured < 1e-8 then .ok false
  else do
    let ratio ← floatDiv |tf_interval_estimated - tf_interval_measured| tf_interval_estimated
    return decide (ratio * 100 > 50)

/-- TF.py:80-108: whether there is a warning for the row that has just been written. -/
noncomputable def dropWarns (s : TfState) (stamp : ℝ) : Py Bool :=
  if s.tf_counter > 3 then do
    let tf_frequency_estimated ← floatDiv s.tf_counter (s.end_time - s.start_time)
    let tf_interval_estimated ← floatDiv 1 tf_frequency_estimated
    match s.tf_previous_timestamp with
    | none => .error .type
    | some previous => intervalWarns tf_interval_estimated (stamp - previous)
  else .ok false

/-- TF.py:80-110: the check for drops, after a row has been written. -/
noncomputable def checkDrop (s : TfState) (stamp : ℝ) : Py TfState := do
  let warns ← dropWarns s stamp
  return { s with
    tf_previous_timestamp := some stamp
    warnings := if warns then s.warnings ++ [stamp - s.start_time] else s.warnings }

/-- TF.py:47-110: the body of the loop. -/
noncomputable def exportTf (lookup : ℝ → Option Pose) (s : TfState) (stamp : ℝ) : Py TfState :=
  match lookup stamp with
  | none => .ok { s with tf_counter := if s.tf_counter > 0 then s.tf_counter + 1 else s.tf_counter }
  | some pose =>
    checkDrop { s with
      start_time := if s.init then stamp else s.start_time
      init := false
      rows := s.rows ++ [⟨stamp, pose⟩]
      end_time := stamp
      tf_counter := s.tf_counter + 1 } stamp

/-- TF.py:40-45: the time stamps of the transforms that are looked up. -/
def lookedUp (source_frame : String) (messages : List BagMessage) : List ℝ :=
  messages.flatMap fun msg =>
    if msg.topic = "/tf" ∧ msg.transforms ≠ [] then
      msg.transforms.filterMap fun tf => if tf.child_frame_id = source_frame then some tf.stamp else none
    else []

/-- The loop over the looked up transforms. -/
noncomputable def exportLoop (lookup : ℝ → Option Pose) : List ℝ → TfState → Py TfState
  | [], s => .ok s
  | t :: l, s => do
    let s' ← exportTf lookup s t
    exportLoop lookup l s'

/-- TF.py:113-115. -/
noncomputable def finalFrequency (s : TfState) : Py ℝ :=
  if s.tf_counter > 3 then floatDiv s.tf_counter (s.end_time - s.start_time) else .ok 0

/-- TF.py:16-119 `write_transformation_to_csv_file`: the final state; `tf_counter` is the number of poses that
is reported.  The frequency is divided once more at the end (lines 113-117). -/
noncomputable def writeTransformationToCsv (lookup : ℝ → Option Pose) (source_frame : String)
    (messages : List BagMessage) : Py TfState := do
  let s ← exportLoop lookup (lookedUp source_frame messages) {}
  let _ ← finalFrequency s
  return s

end HandEye
