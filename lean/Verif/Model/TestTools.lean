import Verif.Model.TimeAlign
import Mathlib.Data.Finset.Sort
import Mathlib.Order.Interval.Finset.Nat
import Mathlib.Algebra.Order.Floor.Semiring

/-!
# Model of `hand_eye_calibration/test_tools.py`

`TT.py` abbreviates `/repo/hand_eye_calibration/python/hand_eye_calibration/test_tools.py`.  The random source is
a stream of natural numbers.
-/

namespace HandEye

/-- `random.randint(0, hi)` with a float bound, which must be a whole number; `u` is reduced to the range, so
every number from 0 to `hi` can come out.  (Python 2.7 and 3 up to 3.11; later versions refuse every float.) -/
noncomputable def pyRandint (u : ℕ) (hi : ℝ) : Py ℕ := do
  pyRequire (0 ≤ hi ∧ hi = ⌊hi⌋₊) .value
  return u % (⌊hi⌋₊ + 1)

/-- TT.py:32-43: the while loop, for at most `rounds` more rounds; `none` if it is still running then.  The
`t`-th round uses the `t`-th pair of random numbers. -/
noncomputable def dropLoop (num_datapoints : ℕ) (max_datapoints_per_drop overall_num_datapoints_to_drop : ℝ)
    (draws : ℕ → ℕ × ℕ) : (rounds t : ℕ) → (dropped : Finset ℕ) → Py (Option (Finset ℕ))
  | 0, _, dropped => .ok (if (dropped.card : ℝ) < overall_num_datapoints_to_drop then none else some dropped)
  | rounds + 1, t, dropped =>
    if (dropped.card : ℝ) < overall_num_datapoints_to_drop then do
      let remaining := overall_num_datapoints_to_drop - dropped.card
      let drop_start ← pyRandint (draws t).1 (num_datapoints - 1)
      let drop_size ← pyRandint (draws t).2 (min remaining max_datapoints_per_drop)
      let drop_end := min (drop_start + drop_size) (num_datapoints - 1)
      dropLoop num_datapoints max_datapoints_per_drop overall_num_datapoints_to_drop draws rounds (t + 1)
        (dropped ∪ Finset.Ico drop_start drop_end)
    else .ok (some dropped)

/-- TT.py:14-52 `introduce_data_drops`, with `none` for the Python value `None` in the data: the data as changed,
or `none` if the loop is still running after the given number of rounds. -/
noncomputable def introduceDataDrops {α : Type} (data : List (Option α))
    (max_percentage_for_single_drop overall_drop_percentage : ℝ) (set_to_none : Bool) (draws : ℕ → ℕ × ℕ)
    (rounds : ℕ) : Py (Option (List (Option α))) := do
  pyAssert (max_percentage_for_single_drop < overall_drop_percentage)
  let max_datapoints_per_drop := max_percentage_for_single_drop / 100 * data.length
  let overall_num_datapoints_to_drop := overall_drop_percentage / 100 * data.length
  match ← dropLoop data.length max_datapoints_per_drop overall_num_datapoints_to_drop draws rounds 0 ∅ with
  | none => return none
  | some dropped =>
    pyAssert ((dropped.card : ℝ) = overall_num_datapoints_to_drop)
    return some ((dropped.sort (· ≥ ·)).foldl (fun data i => if set_to_none then data.set i none else data.eraseIdx i) data)

/-- TT.py:6-8: the values of a `DataDropConfig`, single and overall. -/
noncomputable def defaultDropConfig : ℝ × ℝ := (20, 20)

end HandEye
