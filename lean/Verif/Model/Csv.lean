import Verif.Model.TimeAlign
import Mathlib.Data.Nat.Digits.Defs

/-!
# Model of `hand_eye_calibration/csv_io.py`

`CSV.py` abbreviates `/repo/hand_eye_calibration/python/hand_eye_calibration/csv_io.py`.  A text file is the
list of its characters; opening files is left out.
-/

namespace HandEye

/-! ## Writing -/

/-- The decimal digits of a natural number. -/
def natText (n : ℕ) : List Char := if n = 0 then ['0'] else ((Nat.digits 10 n).map Nat.digitChar).reverse

/-- The last `k` decimal digits of a natural number, with leading zeros. -/
def fixedText : (k f : ℕ) → List Char
  | 0, _ => []
  | k + 1, f => fixedText k (f / 10) ++ [Nat.digitChar (f % 10)]

/-- Rounding of a non-negative number to the nearest natural number, ties to even. -/
noncomputable def roundHalfEven (x : ℝ) : ℕ :=
  if x - ⌊x⌋₊ < 1 / 2 then ⌊x⌋₊
  else if x - ⌊x⌋₊ > 1 / 2 then ⌊x⌋₊ + 1
  else if Even ⌊x⌋₊ then ⌊x⌋₊ else ⌊x⌋₊ + 1

/-- `"%.18f" % x`.  (The sign of a negative zero is not modelled: there is one zero in the reals.) -/
noncomputable def formatF18 (x : ℝ) : List Char :=
  let m := roundHalfEven (|x| * 10 ^ 18)
  (if x < 0 then ['-'] else []) ++ (natText (m / 10 ^ 18) ++ '.' :: fixedText 18 (m % 10 ^ 18))

/-- One line of `np.savetxt(csv_file, array, delimiter=", ", fmt="%.18f")`. -/
noncomputable def rowText : List ℝ → List Char
  | [] => []
  | [x] => formatF18 x
  | x :: y :: l => formatF18 x ++ ',' :: ' ' :: rowText (y :: l)

/-- CSV.py:35-44 `write_double_numpy_array_to_csv_file` and `write_time_stamped_poses_to_csv_file`: the text
written. -/
noncomputable def writeTable (rows : List (List ℝ)) : List Char := rows.flatMap fun r => rowText r ++ ['\n']

/-- A row of a pose table as an array. -/
def StampedPose.toRow (p : StampedPose) : List ℝ :=
  [p.t, p.pose.pos.x, p.pose.pos.y, p.pose.pos.z, p.pose.q.x, p.pose.q.y, p.pose.q.z, p.pose.q.w]

/-! ## Reading -/

/-- The pieces of a text between the occurrences of a character. -/
def splitChar (c : Char) : List Char → List (List Char)
  | [] => [[]]
  | x :: xs => if x = c then [] :: splitChar c xs else
    match splitChar c xs with
    | [] => [[x]]
    | l :: ls => (x :: l) :: ls

/-- The lines of a file; what follows the last newline is a line only if it is not empty. -/
def fileLines (text : List Char) : List (List Char) :=
  let ls := splitChar '\n' text
  if ls.getLast? = some [] then ls.dropLast else ls

/-- `str.strip`, of spaces. -/
def strip (s : List Char) : List Char := ((s.dropWhile (· = ' ')).reverse.dropWhile (· = ' ')).reverse

/-- A non-empty sequence of decimal digits. -/
def parseNat (s : List Char) : Option ℕ :=
  if s ≠ [] ∧ s.all (fun c => c.isDigit) then some (s.foldl (fun n c => 10 * n + (c.toNat - 48)) 0) else none

/-- A number without sign: digits, a point, digits. -/
noncomputable def parseUnsigned (s : List Char) : Py ℝ :=
  match parseNat (s.takeWhile (· ≠ '.')), parseNat ((s.dropWhile (· ≠ '.')).drop 1) with
  | some n, some f => .ok (n + f / 10 ^ ((s.dropWhile (· ≠ '.')).drop 1).length)
  | _, _ => .error .value

/-- `float(s)` for the format that the module writes.  Python accepts more (exponents, a missing part before or
after the point, `inf`, underscores); all of this is an error here. -/
noncomputable def parseFloat (s : List Char) : Py ℝ :=
  match strip s with
  | '-' :: r => do
    let x ← parseUnsigned r
    return -x
  | r => parseUnsigned r

/-- CSV.py:14-17: the table of numbers.  Fields are separated by commas (the quote character `|` is not
modelled); lines of different lengths are an error of `astype`. -/
noncomputable def readTable (text : List Char) : Py (List (List ℝ)) := do
  let rows ← (fileLines text).mapM fun l => (splitChar ',' l).mapM parseFloat
  pyRequire (∀ r ∈ rows, ∀ r' ∈ rows, r.length = r'.length) .value
  return rows

/-- A row with its eight columns.  (Other numbers of columns are an error here; in the code they make
quaternions of other lengths.) -/
def StampedPose.ofRow : List ℝ → Py StampedPose
  | [t, x, y, z, a, b, c, d] => .ok ⟨t, ⟨⟨x, y, z⟩, ⟨a, b, c, d⟩⟩⟩
  | _ => .error .value

/-- CSV.py:25: the row with its quaternion normalised, in place. -/
noncomputable def StampedPose.normalized (p : StampedPose) : Py StampedPose := do
  let q ← p.pose.q.divScalar p.pose.q.norm
  return ⟨p.t, ⟨p.pose.pos, q⟩⟩

/-- CSV.py:19-32: from the table to the returned tuple.  `poses` is a view of `time_stamped_poses`, so the
normalisation shows in the first component; the conversion of JPL quaternions does not.  An empty table has no
second dimension. -/
noncomputable def posesFromTable (JPL_quaternion_format : Bool) (table : List StampedPose) :
    Py (List StampedPose × List ℝ × List Quat) := do
  pyRequire (table ≠ []) .index
  let rows ← table.mapM StampedPose.normalized
  let quaternions := rows.map fun p =>
    if JPL_quaternion_format then (⟨-p.pose.q.x, -p.pose.q.y, -p.pose.q.z, p.pose.q.w⟩ : Quat) else p.pose.q
  return (rows, table.map StampedPose.t, quaternions)

/-- CSV.py:6-32 `read_time_stamped_poses_from_csv_file`, of a file with the given text. -/
noncomputable def readTimeStampedPoses (text : List Char) (JPL_quaternion_format : Bool) :
    Py (List StampedPose × List ℝ × List Quat) := do
  let rows ← readTable text
  let table ← rows.mapM StampedPose.ofRow
  posesFromTable JPL_quaternion_format table

end HandEye
