import Mathlib.Algebra.Order.Floor.Ring
import Mathlib.Algebra.Order.Archimedean.Real.Basic
import Verif.Model.Experiments
import Verif.Model.PyList
import Verif.Model.TimeAlign

/-!
# Model of the plots of the experiment results

`GP.py` is `/repo/hand_eye_calibration_experiments/bin/generate_plots.py`.  A figure is modelled by the numbers that
are handed to matplotlib; colours of the error plot, labels, fonts and the drawing itself are not modelled.
-/

namespace HandEye

/-- `d[dataset][method]`, with KeyError. -/
def NestedDict.at (d : NestedDict) (dataset method : String) : Py (List ℝ) :=
  match dictGet d dataset with
  | none => .error .key
  | some inner =>
    match dictGet inner method with
    | none => .error .key
    | some values => .ok values

/-- GP.py:318 (and 319, 76): `[d[dataset][method] for method in methods]`. -/
def NestedDict.boxes (d : NestedDict) (methods : List String) (dataset : String) : Py (List (List ℝ)) :=
  methods.mapM fun method => d.at dataset method

/-- A box of a plot: where it stands, its width and the values it summarises. -/
structure Box where
  position : ℝ
  width : ℝ
  values : List ℝ

/-- GP.py:27, 66: `np.linspace(0., 1., num_methods)`. -/
noncomputable def xTicks (num_methods : ℕ) : List ℝ :=
  if num_methods = 1 then [0]
  else (List.range num_methods).map fun (i : ℕ) => (i : ℝ) * (1 / ((num_methods : ℝ) - 1))

/-- The numbers of one call of `generate_box_plot`. -/
structure BoxPlot where
  dataset : String
  /-- The ticks of the horizontal axis with their names, line 56. -/
  ticks : List (ℝ × String)
  position : List Box
  orientation : List Box
  /-- Line 57. -/
  xlim : ℝ × ℝ

/-- GP.py:24-59 `generate_box_plot`.  Python divides in lines 29-30 before it uses the methods: no methods, no plot. -/
noncomputable def generateBoxPlot (dataset : String) (methods : List String) (position_rmses orientation_rmses :
    List (List ℝ)) : Py BoxPlot := do
  let x_ticks := xTicks methods.length
  pyRequire (methods.length ≠ 0) .zeroDivision
  let width : ℝ := 0.3 / methods.length
  let spacing : ℝ := 0.3 / methods.length
  let first ← pyAt x_ticks 0
  let last ← pyAt x_ticks (x_ticks.length - 1)
  return {
    dataset := dataset
    ticks := x_ticks.zip methods
    position := List.zipWith (fun t v => ⟨t - spacing, width, v⟩) x_ticks position_rmses
    orientation := List.zipWith (fun t v => ⟨t + spacing, width, v⟩) x_ticks orientation_rmses
    xlim := (first - 2.5 * spacing, last + 2.5 * spacing) }

/-- GP.py:307. -/
def plotColors : List String := ["b", "g", "c", "m", "y", "k", "r"]

/-- The boxes of one dataset in the plot of the runtimes. -/
structure TimeBoxes where
  dataset : String
  color : String
  boxes : List Box

/-- GP.py:75-91: one turn of the loop over the datasets. -/
noncomputable def timeBoxes (methods : List String) (num_datasets : ℕ) (runtimes_per_method : NestedDict)
    (colors : List String) (i : ℕ) (dataset : String) : Py TimeBoxes := do
  let width : ℝ := 0.6 / methods.length / num_datasets
  let spacing : ℝ := 0.4 / methods.length / num_datasets
  let runtimes ← runtimes_per_method.boxes methods dataset
  let color ← pyAt colors i
  return ⟨dataset, color, List.zipWith
    (fun t v => ⟨t + ((i : ℝ) - num_datasets / 2 + 0.5) * spacing * 2, width, v⟩) (xTicks methods.length) runtimes⟩

/-- GP.py:75: `enumerate`. -/
noncomputable def timeBoxesFrom (methods : List String) (num_datasets : ℕ) (runtimes_per_method : NestedDict)
    (colors : List String) : ℕ → List String → Py (List TimeBoxes)
  | _, [] => .ok []
  | i, dataset :: datasets => do
    let b ← timeBoxes methods num_datasets runtimes_per_method colors i dataset
    let bs ← timeBoxesFrom methods num_datasets runtimes_per_method colors (i + 1) datasets
    return b :: bs

/-- What `generate_time_plot` shows. -/
structure TimePlot where
  ticks : List (ℝ × String)
  groups : List TimeBoxes
  xlim : ℝ × ℝ

/-- GP.py:62-96 `generate_time_plot`. -/
noncomputable def generateTimePlot (methods datasets : List String) (runtimes_per_method : NestedDict)
    (colors : List String) : Py TimePlot := do
  let x_ticks := xTicks methods.length
  pyRequire (methods.length ≠ 0) .zeroDivision
  pyRequire (datasets.length ≠ 0) .zeroDivision
  let spacing : ℝ := 0.4 / methods.length / datasets.length
  let groups ← timeBoxesFrom methods datasets.length runtimes_per_method colors 0 datasets
  let first ← pyAt x_ticks 0
  let last ← pyAt x_ticks (x_ticks.length - 1)
  return ⟨x_ticks.zip methods, groups,
    (first - 2.5 * spacing * datasets.length, last + 2.5 * spacing * datasets.length)⟩

/-- The dictionaries of GP.py:330-404. -/
structure MinMaxStep where
  start : ℝ
  «end» : ℝ
  step : ℝ

/-- `np.arange(start, stop, step)`. -/
noncomputable def npArange (start stop step : ℝ) : Py (List ℝ) :=
  if step = 0 then .error .zeroDivision
  else .ok ((List.range ⌈(stop - start) / step⌉.toNat).map fun (i : ℕ) => start + i * step)

/-- GP.py:109-120. -/
noncomputable def MinMaxStep.grid (s : MinMaxStep) : Py (List ℝ) := npArange s.start (s.end + s.step) s.step

/-- The main loop of `bisect.bisect_right` between `lo` and `hi`. -/
noncomputable def bisectRightGo (a : List ℝ) (x : ℝ) (lo hi : ℕ) : ℕ :=
  if _h : lo < hi then
    if x < a.getD ((lo + hi) / 2) 0 then bisectRightGo a x lo ((lo + hi) / 2)
    else bisectRightGo a x ((lo + hi) / 2 + 1) hi
  else lo
termination_by hi - lo
decreasing_by all_goals omega

/-- `bisect.bisect_right(a, x)`. -/
noncomputable def bisectRight (a : List ℝ) (x : ℝ) : ℕ := bisectRightGo a x 0 a.length

/-- One turn of the loop in GP.py:177-182. -/
structure SpoiledError where
  x_spoil : ℝ
  y_spoil : ℝ
  plot_spoil : ℝ
  loop_error_position_m : ℝ
  loop_error_orientation_deg : ℝ

/-- GP.py:177-182: `zip` of the five lists. -/
def zipSpoils : List ℝ → List ℝ → List ℝ → List ℝ → List ℝ → List SpoiledError
  | x :: xs, y :: ys, p :: ps, t :: ts, a :: as => ⟨x, y, p, t, a⟩ :: zipSpoils xs ys ps ts as
  | _, _, _, _, _ => []

/-- GP.py:130-161: which grid and which column belong to the axes. -/
structure PlotAxes where
  loop_x : List ℝ
  loop_y : List ℝ
  loop_plot : List ℝ
  x_spoils : List ℝ
  y_spoils : List ℝ
  plot_spoils : List ℝ

/-- GP.py:130-163.  For another `plot_order` the name `loop_x` is not bound in line 163. -/
noncomputable def plotAxes (plot_order : String) (times translation_norms angles : List ℝ) (data : Collected) :
    Py PlotAxes :=
  if plot_order = "translation_time_angle" then
    .ok ⟨angles, times, translation_norms, data.spoiled_initial_guess_angle_offsets,
      data.spoiled_initial_guess_time_offsets, data.spoiled_initial_guess_translation_norm_offsets⟩
  else if plot_order = "angle_time_translation" then
    .ok ⟨translation_norms, times, angles, data.spoiled_initial_guess_translation_norm_offsets,
      data.spoiled_initial_guess_time_offsets, data.spoiled_initial_guess_angle_offsets⟩
  else if plot_order = "time_translation_angle" then
    .ok ⟨angles, translation_norms, times, data.spoiled_initial_guess_angle_offsets,
      data.spoiled_initial_guess_translation_norm_offsets, data.spoiled_initial_guess_time_offsets⟩
  else .error .name

/-- The lists of GP.py:167-173: `bins[plot][y][x]`. -/
abbrev ErrorBins := List (List (List (List ℝ)))

/-- GP.py:167-173. -/
def emptyBins (plot_steps y_steps x_steps : ℕ) : ErrorBins :=
  List.replicate plot_steps (List.replicate y_steps (List.replicate x_steps []))

/-- `bins[plot][y][x]`, with IndexError. -/
def ErrorBins.cell (bins : ErrorBins) (plot y x : ℕ) : Py (List ℝ) := do
  let matrix ← pyAt bins plot
  let row ← pyAt matrix y
  pyAt row x

/-- `bins[plot][y][x].append(value)`, with IndexError. -/
def ErrorBins.append (bins : ErrorBins) (plot y x : ℕ) (value : ℝ) : Py ErrorBins := do
  let matrix ← pyAt bins plot
  let row ← pyAt matrix y
  let cell ← pyAt row x
  return bins.set plot (matrix.set y (row.set x (cell ++ [value])))

/-- GP.py:184-199: one turn of the loop.  `np.linalg.norm` of a number is its absolute value. -/
noncomputable def binRow (loop_x loop_y loop_plot : List ℝ) (bins : ErrorBins × ErrorBins) (r : SpoiledError) :
    Py (ErrorBins × ErrorBins) := do
  let x_idx := bisectRight loop_x |r.x_spoil|
  let y_idx := bisectRight loop_y |r.y_spoil|
  let plot_idx := bisectRight loop_plot |r.plot_spoil|
  pyAssert (x_idx > 0)
  pyAssert (y_idx > 0)
  pyAssert (plot_idx > 0)
  pyAssert (x_idx < loop_x.length)
  pyAssert (y_idx < loop_y.length)
  pyAssert (plot_idx < loop_plot.length)
  let error_bins_translations ← bins.1.append (plot_idx - 1) (y_idx - 1) (x_idx - 1) r.loop_error_position_m
  let error_bins_angles ← bins.2.append (plot_idx - 1) (y_idx - 1) (x_idx - 1) r.loop_error_orientation_deg
  return (error_bins_translations, error_bins_angles)

/-- GP.py:177-199. -/
noncomputable def binRows (loop_x loop_y loop_plot : List ℝ) : List SpoiledError → ErrorBins × ErrorBins →
    Py (ErrorBins × ErrorBins)
  | [], bins => .ok bins
  | r :: rows, bins => do
    let bins ← binRow loop_x loop_y loop_plot bins r
    binRows loop_x loop_y loop_plot rows bins

/-- GP.py:208-227: the entries of the two matrices.  The caps of lines 125-128 are switched off in the source. -/
noncomputable def meanErrors (num_measurements_per_bin : ℕ) (bins : ErrorBins × ErrorBins) (plot_idx y_idx x_idx : ℕ) :
    Py (ℝ × ℝ) := do
  let translations ← bins.1.cell plot_idx y_idx x_idx
  pyAssert (translations.length = num_measurements_per_bin)
  let angles ← bins.2.cell plot_idx y_idx x_idx
  pyAssert (angles.length = num_measurements_per_bin)
  let mean_translation ← npMean translations
  let mean_angles ← npMean angles
  return (mean_translation, mean_angles)

/-- GP.py:201-227: the two matrices of each figure, `[plot][y][x]`; both in one, entry by entry. -/
noncomputable def errorMatrices (loop_x loop_y loop_plot : List ℝ) (num_measurements_per_bin : ℕ)
    (bins : ErrorBins × ErrorBins) : Py (List (List (List (ℝ × ℝ)))) :=
  (List.range (loop_plot.length - 1)).mapM fun plot_idx =>
    (List.range (loop_y.length - 1)).mapM fun y_idx =>
      (List.range (loop_x.length - 1)).mapM fun x_idx =>
        meanErrors num_measurements_per_bin bins plot_idx y_idx x_idx

/-- GP.py:99-283 `generate_optimization_circle_error_plot`. -/
noncomputable def generateErrorPlot (times translation angle : MinMaxStep) (data : Collected) (plot_order : String)
    (num_measurements_per_bin : ℕ) : Py (List (List (List (ℝ × ℝ)))) := do
  pyAssert (data.loop_errors_position_m.length = data.loop_errors_orientation_deg.length)
  let times ← times.grid
  let translation_norms ← translation.grid
  let angles ← angle.grid
  let a ← plotAxes plot_order times translation_norms angles data
  let bins := emptyBins a.loop_plot.length a.loop_y.length a.loop_x.length
  let bins ← binRows a.loop_x a.loop_y a.loop_plot
    (zipSpoils a.x_spoils a.y_spoils a.plot_spoils data.loop_errors_position_m data.loop_errors_orientation_deg)
    (bins, bins)
  errorMatrices a.loop_x a.loop_y a.loop_plot num_measurements_per_bin bins

/-- What GP.py:329-404 sets for a value of `plot_order`: the three grids and the order that is used. -/
structure PlotSettings where
  times : MinMaxStep
  translation : MinMaxStep
  angle : MinMaxStep
  plot_order : String

/-- GP.py:329-404.  For another value the names of line 423 are not bound. -/
noncomputable def plotSettings (plot_order : String) : Py PlotSettings :=
  if plot_order = "translation_time_angle" then
    .ok ⟨⟨0, 0.23, 0.03⟩, ⟨0, 0.1, 0.1⟩, ⟨0, 120 / 180 * Real.pi, 15 / 180 * Real.pi⟩, plot_order⟩
  else if plot_order = "angle_time_translation" then
    .ok ⟨⟨0, 0.23, 0.03⟩, ⟨0, 0.8, 0.1⟩, ⟨0, 15 / 180 * Real.pi, 15 / 180 * Real.pi⟩, plot_order⟩
  else if plot_order = "time_translation_angle" then
    .ok ⟨⟨0, 0.03, 0.03⟩, ⟨0, 0.8, 0.1⟩, ⟨0, 120 / 180 * Real.pi, 15 / 180 * Real.pi⟩, plot_order⟩
  else if plot_order = "time_translation_angle_max" then
    .ok ⟨⟨0, 0.1, 0.1⟩, ⟨0, 1, 0.1⟩, ⟨0, 179 / 180 * Real.pi, 15 / 180 * Real.pi⟩, "time_translation_angle"⟩
  else .error .name

/-- GP.py:314-319. -/
noncomputable def boxPlots (c : Collected) : Py (List BoxPlot) :=
  c.datasets.mapM fun dataset => do
    let position ← c.position_rmses_per_method.boxes c.methods dataset
    let orientation ← c.orientation_rmses_per_method.boxes c.methods dataset
    generateBoxPlot dataset c.methods position orientation

/-- All figures of the script. -/
structure Figures where
  boxes : List BoxPlot
  times : TimePlot
  errors : List (List (List (ℝ × ℝ)))

/-- GP.py:286-424: the script, for the rows of the result files.  In the source `plot_order` is
`"translation_time_angle"` and `num_measurements_per_bin` is 60 (lines 323 and 327, to be edited by hand). -/
noncomputable def generatePlots (plot_order : String) (num_measurements_per_bin : ℕ) (rows : List ResultRow) :
    Py Figures := do
  let c ← collectData rows
  let boxes ← boxPlots c
  let times ← generateTimePlot c.methods c.datasets c.runtimes_per_method plotColors
  let s ← plotSettings plot_order
  let errors ← generateErrorPlot s.times s.translation s.angle c s.plot_order num_measurements_per_bin
  return ⟨boxes, times, errors⟩

end HandEye
