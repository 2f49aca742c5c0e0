import Mathlib.Data.List.Count

/-!
# Reading a table with a header line
-/

namespace HandEye.Spec

/-- The cells of a line without its newline: the pieces between the commas. -/
def cells (line : List Char) : List (List Char) := line.splitOn ','

/-- The cell of a line under the column of the given name, if there is such a column and such a cell. -/
def column (header line : List Char) (name : String) : Option (List Char) :=
  ((cells header.dropLast).zip (cells line.dropLast)).lookup name.toList

end HandEye.Spec
