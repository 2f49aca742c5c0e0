import Verif.Model.Commands
import Verif.Model.Ransac

/-!
# Model of the configuration that the experiments give to the batch estimator

`CS.py` and `OE.py` abbreviate `/repo/hand_eye_calibration_experiments/bin/compute_set_of_hand_eye_calibrations.py` and
`optimization_experiments.py`, `BE` `/repo/hand_eye_calibration_batch_estimation/src/batch_estimator.cc` and `CONF`
`/repo/hand_eye_calibration_batch_estimation/conf/config.info`.

A value store is a partial function from paths, with a slash between names, to texts.  The libraries are modelled by their
documented behaviour: `boost::property_tree::ptree` distinguishes upper and lower case, a layered store asks its stores in turn, a store
with a removed prefix knows the paths with this prefix only.
-/

namespace HandEye

/-! ## The scripts -/

/-- CS.py:66-73 and OE.py:421-428: the flags of the sensors.  `arg` is what `--is_absolute_pose_sensor` says. -/
def absoluteFlags (num_poses_sets : ℕ) (arg : Option (List ℤ)) : Py (List Bool) := do
  let flags := match arg with
    | none => List.replicate num_poses_sets false
    | some l => l.map fun flag => decide (flag ≠ 0)
  pyAssert (flags.length = num_poses_sets)
  return flags

/-- A tuple of `itertools.combinations(l, 2)`, unpacked. -/
def asPair {α : Type} : List α → Option (α × α)
  | [a, b] => some (a, b)
  | _ => none

/-- CS.py:61-79 and OE.py:416-434, with the `zip` of CS.py:118: the pairs of files with the flags of their sensors. -/
def experimentPairs (files : List Text) (arg : Option (List ℤ)) : Py (List ((Text × Text) × (Bool × Bool))) := do
  pyAssert (2 ≤ files.length)
  let flags ← absoluteFlags files.length arg
  let set_of_pose_pairs := (combinations files 2).filterMap asPair
  let set_of_is_absolute_sensor_flags := (combinations flags 2).filterMap asPair
  pyAssert (set_of_pose_pairs.length = set_of_is_absolute_sensor_flags.length)
  return set_of_pose_pairs.zip set_of_is_absolute_sensor_flags

/-- `str(b)`. -/
def pyBoolText (b : Bool) : Text := if b then "True".toList else "False".toList

/-- `s.lower()` of an ASCII text. -/
def pyLower (s : Text) : Text := s.map Char.toLower

/-- CS.py:223-225 and OE.py:288-290. -/
def modelConfigString (is_absolute_sensor_B_H is_absolute_sensor_W_E : Bool) : Text :=
  pyLower ("pose1/absoluteMeasurements=".toList ++ pyBoolText is_absolute_sensor_B_H ++
    ",pose2/absoluteMeasurements=".toList ++ pyBoolText is_absolute_sensor_W_E)

/-! ## The batch estimator -/

/-- `BoostPropertyTree::loadStrings` of texts `path=value`. -/
def loadStrings (l : List Text) : List (Text × Text) :=
  l.map fun s => (s.takeWhile (· ≠ '='), (s.dropWhile (· ≠ '=')).tail)

/-- BE:152-161 `loadExtraConfigStrings`; a later text replaces an earlier one. -/
def extraConfig (model_config : Text) : Text → Option Text := fun path =>
  if model_config = [] then none
  else ((loadStrings (getlines ',' model_config)).reverse.find? fun p => p.1 = path).map Prod.snd

/-- `PrefixedValueStore` with mode `REMOVE`. -/
def prefixRemoved (store : Text → Option Text) (pre : Text) : Text → Option Text := fun path =>
  if (pre ++ ['/']).isPrefixOf path then store (path.drop (pre.length + 1)) else none

/-- `LayeredValueStore`. -/
def layered (stores : List (Text → Option Text)) : Text → Option Text := fun path => stores.findSome? fun s => s path

/-- CONF:1-69, the section `model`: the entries directly below `pose1` and `pose2`, and one below `pose2/delay`.  (The other
sections are left out: paths do not meet.) -/
def configModel : Text → Option Text := fun path =>
  [("pose1/frame".toList, "body".toList), ("pose1/targetFrame".toList, "world".toList),
   ("pose1/absoluteMeasurements".toList, "true".toList),
   ("pose2/frame".toList, "body".toList), ("pose2/targetFrame".toList, "world".toList),
   ("pose2/absoluteMeasurements".toList, "false".toList), ("pose2/delay/upperBound".toList, "1".toList)].lookup path

/-- The paths of the file of the initial guess (`writeJson`, extrinsic_calibration.py:15-19). -/
def guessPaths : List Text :=
  ["delay".toList, "rotation/i".toList, "rotation/j".toList, "rotation/k".toList, "rotation/w".toList, "translation/x".toList,
   "translation/y".toList, "translation/z".toList]

/-- The file of the initial guess with the given values. -/
def guessStore (values : Text → Text) : Text → Option Text := fun path => if path ∈ guessPaths then some (values path) else none

/-- BE:169-177 `vs_model`. -/
def modelStore (model_config : Text) (values : Text → Text) : Text → Option Text :=
  layered [extraConfig model_config, prefixRemoved (guessStore values) "pose2".toList, configModel]

/-- A text as a Boolean. -/
def boolValue (t : Text) : Option Bool :=
  if t = "true".toList ∨ t = "1".toList then some true
  else if t = "false".toList ∨ t = "0".toList then some false
  else none

/-- BE:163-181: what the two sensors find for `absoluteMeasurements`, of a batch estimator that is started with these words. -/
def estimatorAbsolute (values : Text → Text) (argv : List Text) : Option (Option Bool × Option Bool) := do
  let parsed ← parseFlags estimatorFlags none argv
  let vs_model := modelStore (flagOf parsed.1 "model_config".toList []) values
  return ((vs_model "pose1/absoluteMeasurements".toList).bind boolValue, (vs_model "pose2/absoluteMeasurements".toList).bind boolValue)

end HandEye
