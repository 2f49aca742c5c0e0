import Verif.Model.Csv

/-!
# Model of the files of `batch_estimator.cc`

`BE` abbreviates `/repo/hand_eye_calibration_batch_estimation/src/batch_estimator.cc`.  Modelled are the functions that read
and write tables of poses (BE:60-65, 83-127).  The estimator is a library and is left out; the estimated trajectory is a
parameter.  A failed `CHECK` is `assertion`, an exception of `std::stod` is `value`.  Opening files is left out.
-/

namespace HandEye

/-- `sm::kinematics::quatInv`: the inverse of a unit quaternion. -/
def quatInv (q : Quat) : Quat := ⟨-q.x, -q.y, -q.z, q.w⟩

/-- BE:60-62. -/
def toInternalQuaternionConvention (use_jpl : Bool) (q : Quat) : Quat := if use_jpl then q else quatInv q

/-- BE:63-65. -/
def fromInternalQuaternionConvention (use_jpl : Bool) (q : Quat) : Quat := if use_jpl then q else quatInv q

/-- Repeated `std::getline(stream, item, c)`: what follows the last delimiter is an item only if it is not empty. -/
def getlines (c : Char) (text : List Char) : List (List Char) :=
  if (splitChar c text).getLast? = some [] then (splitChar c text).dropLast else splitChar c text

/-- The value of a sequence of digits, zero for the empty one. -/
def digitsValue (s : List Char) : ℕ := s.foldl (fun n c => 10 * n + (c.toNat - 48)) 0

/-- The exponent at the beginning of a text: `e`, a sign or none, and at least one digit; zero if there is none. -/
def leadingExponent (s : List Char) : ℤ :=
  match s with
  | c :: r =>
    if c = 'e' ∨ c = 'E' then
      match r with
      | '-' :: r => -(digitsValue (r.takeWhile Char.isDigit) : ℤ)
      | '+' :: r => (digitsValue (r.takeWhile Char.isDigit) : ℤ)
      | r => (digitsValue (r.takeWhile Char.isDigit) : ℤ)
    else 0
  | [] => 0

/-- The number without sign at the beginning of a text: digits, a point and digits, at least one digit in all, and an
exponent.  What follows is ignored.  (`inf`, `nan` and hexadecimal numbers are left out, and so are values out of range.) -/
noncomputable def leadingUnsigned (s : List Char) : Py ℝ :=
  let whole := s.takeWhile Char.isDigit
  let rest := s.dropWhile Char.isDigit
  let fraction := if rest.head? = some '.' then rest.tail.takeWhile Char.isDigit else []
  let after := if rest.head? = some '.' then rest.tail.dropWhile Char.isDigit else rest
  if whole = [] ∧ fraction = [] then .error .value
  else .ok ((digitsValue whole + digitsValue fraction / 10 ^ fraction.length) * (10 : ℝ) ^ leadingExponent after)

/-- `std::stod`: spaces before the number are skipped, what follows it is ignored. -/
noncomputable def stod (s : List Char) : Py ℝ :=
  match s.dropWhile (fun c => c = ' ' ∨ c = '\t' ∨ c = '\r') with
  | '-' :: r => do
    let x ← leadingUnsigned r
    return -x
  | '+' :: r => leadingUnsigned r
  | r => leadingUnsigned r

/-- A measurement of a pose sensor (BE:95-104). -/
inductive PoseMeasurement where
  | outlier (t : ℝ)
  | pose (p : StampedPose)

/-- BE:94-105: a line with its values. -/
noncomputable def addMeasurement (use_jpl : Bool) (values : List ℝ) : Py PoseMeasurement :=
  match values with
  | [t] => .ok (.outlier t)
  | [t, x, y, z, a, b, c, d] => do
    let q := toInternalQuaternionConvention use_jpl ⟨a, b, c, d⟩
    pyAssert (|1 - q.norm| ≤ 1e-8)
    return .pose ⟨t, ⟨⟨x, y, z⟩, q⟩⟩
  | _ => .error .assertion

/-- BE:83-109 `readPosesFromCsv`, of a file with the given text: the measurements that are added. -/
noncomputable def readPosesFromCsv (use_jpl : Bool) (text : List Char) : Py (List PoseMeasurement) :=
  (getlines '\n' text).mapM fun line => do
    let values ← (getlines ',' line).mapM stod
    addMeasurement use_jpl values

/-- BE:117: the times `start`, `start + sample_delta`, ... up to `end`. -/
noncomputable def sampleTimes (start stop delta : ℝ) : List ℝ :=
  if start ≤ stop then (List.range (⌊(stop - start) / delta⌋₊ + 1)).map fun (k : ℕ) => start + k * delta else []

/-- BE:118-121: the row of a pose of the estimated trajectory. -/
def estimatedRow (use_jpl : Bool) (trajectory : ℝ → Pose) (t : ℝ) : StampedPose :=
  ⟨t, ⟨(trajectory t).pos, fromInternalQuaternionConvention use_jpl (trajectory t).q⟩⟩

/-- BE:111-126 `writePosesToCsv`: the text.  `std::fixed` with precision 18 is the format of `csv_io.py`, and so is the
separator. -/
noncomputable def writePosesToCsv (use_jpl : Bool) (trajectory : ℝ → Pose) (start stop delta : ℝ) : List Char :=
  writeTable ((sampleTimes start stop delta).map fun t => (estimatedRow use_jpl trajectory t).toRow)

end HandEye
