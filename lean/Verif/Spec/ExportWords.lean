import Verif.Model.ExportWords
import Verif.Spec.Export
import Verif.Spec.Commands

/-! # Specification vocabulary: configurations whose names survive as words of command lines -/

namespace HandEye.Spec

/-- None of the names of a source begins with a dash. -/
def Undashed : PoseSource → Prop
  | .tf path name source target => NoDash (path ++ name) ∧ NoDash name ∧ NoDash source ∧ NoDash target
  | .camera path name topic camera target => NoDash (path ++ name) ∧ NoDash name ∧ NoDash topic ∧ NoDash camera ∧ NoDash target

/-- The numbers of a target survive being written by `str` and read by `strtod`; the counts have 32 bits. -/
structure Survives (str : ℝ → Text) (strtod : Text → Option ℝ) (y : AprilTarget) : Prop where
  vertical : -2 ^ 31 ≤ y.april_tag_number_vertical ∧ y.april_tag_number_vertical < 2 ^ 31
  horizontal : -2 ^ 31 ≤ y.april_tag_number_horizontal ∧ y.april_tag_number_horizontal < 2 ^ 31
  boarder : -2 ^ 31 ≤ y.april_tag_number_pixel_boarder ∧ y.april_tag_number_pixel_boarder < 2 ^ 31
  size : strtod (str y.april_tag_size_m) = some y.april_tag_size_m
  gap : strtod (str y.april_tag_gap_size_m) = some y.april_tag_gap_size_m

/-- A flag in a command line of a program with `gflags`: `--name value`, `--name=value`, `--name` and `--noname`. -/
inductive FlagGiven where
  | separate (name value : Text)
  | joined (name value : Text)
  | on (name : Text)
  | off (name : Text)

/-- Its words. -/
def FlagGiven.words : FlagGiven → List Text
  | .separate name value => ["--".toList ++ name, value]
  | .joined name value => ["--".toList ++ name ++ '=' :: value]
  | .on name => ["--".toList ++ name]
  | .off name => ["--no".toList ++ name]

/-- What it means. -/
def FlagGiven.meaning : FlagGiven → Text × Text
  | .separate name value => (name, value)
  | .joined name value => (name, value)
  | .on name => (name, ['1'])
  | .off name => (name, ['0'])

/-- The program has a flag like this; truth values take no word of their own. -/
def FlagGiven.Known (values bools : List Text) : FlagGiven → Prop
  | .separate name _ => name ∈ values
  | .joined name _ => name ∈ values ∨ name ∈ bools
  | .on name => name ∈ bools
  | .off name => name ∈ bools ∧ "no".toList ++ name ∉ values ∧ "no".toList ++ name ∉ bools

end HandEye.Spec
