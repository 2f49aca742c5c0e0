import Verif.Lemmas.Align
import Verif.Lemmas.Arc
import Verif.Lemmas.Batch
import Verif.Lemmas.Chance
import Verif.Lemmas.ChanceFirst
import Verif.Lemmas.Classic
import Verif.Lemmas.Collect
import Verif.Lemmas.Commands
import Verif.Lemmas.Csv
import Verif.Lemmas.DualQuat
import Verif.Lemmas.ErrorPlot
import Verif.Lemmas.Export
import Verif.Lemmas.ExportWords
import Verif.Lemmas.Extractor
import Verif.Lemmas.FilterNoise
import Verif.Lemmas.HelixAxes
import Verif.Lemmas.IntQuat
import Verif.Lemmas.Interp
import Verif.Lemmas.Kernel
import Verif.Lemmas.Motion
import Verif.Lemmas.MotionError
import Verif.Lemmas.NearSvd
import Verif.Lemmas.Noise
import Verif.Lemmas.Noise2
import Verif.Lemmas.OutlierSigns
import Verif.Lemmas.Outliers
import Verif.Lemmas.Outliers2
import Verif.Lemmas.Plots
import Verif.Lemmas.Pool
import Verif.Lemmas.Prefilter
import Verif.Lemmas.Py
import Verif.Lemmas.Quat
import Verif.Lemmas.Quoting
import Verif.Lemmas.Ransac
import Verif.Lemmas.Readme
import Verif.Lemmas.RotationNoise
import Verif.Lemmas.RoundDouble
import Verif.Lemmas.RoundOrder
import Verif.Lemmas.Rounded
import Verif.Lemmas.RoundedBaseline
import Verif.Lemmas.RoundedComplete
import Verif.Lemmas.RoundedDual
import Verif.Lemmas.RoundedFar
import Verif.Lemmas.RoundedInterp
import Verif.Lemmas.RoundedOutliers
import Verif.Lemmas.RoundedOutliers2
import Verif.Lemmas.RoundedPrefilter
import Verif.Lemmas.RoundedRansac
import Verif.Lemmas.RoundedRebase
import Verif.Lemmas.RoundedSolver
import Verif.Lemmas.RoundedSolver2
import Verif.Lemmas.RoundedTables
import Verif.Lemmas.RoundedTables2
import Verif.Lemmas.SignalNoise
import Verif.Lemmas.Slerp
import Verif.Lemmas.Solver
import Verif.Lemmas.SpoilExperiments
import Verif.Lemmas.Svd
import Verif.Lemmas.SvdExists
import Verif.Lemmas.System
import Verif.Lemmas.TestPaths
import Verif.Lemmas.TestSpoiled
import Verif.Lemmas.ThreePoses
import Verif.Lemmas.TimeAlign
import Verif.Model.AlgorithmFilter
import Verif.Model.AlignScript
import Verif.Model.Baseline
import Verif.Model.Batch
import Verif.Model.Circle
import Verif.Model.Commands
import Verif.Model.CompleteScript
import Verif.Model.Csv
import Verif.Model.DualQuat
import Verif.Model.Evaluate
import Verif.Model.ExperimentLoop
import Verif.Model.Experiments
import Verif.Model.Export
import Verif.Model.ExportWords
import Verif.Model.Extractor
import Verif.Model.Extrinsic
import Verif.Model.FigureOptions
import Verif.Model.Figures
import Verif.Model.Figures3d
import Verif.Model.HandEye
import Verif.Model.IntQuat
import Verif.Model.ModelConfig
import Verif.Model.Pipeline
import Verif.Model.Plots
import Verif.Model.Pool
import Verif.Model.Py
import Verif.Model.PyList
import Verif.Model.Quat
import Verif.Model.Ransac
import Verif.Model.Readme
import Verif.Model.Rounded
import Verif.Model.RoundedAlign
import Verif.Model.RoundedBaseline
import Verif.Model.RoundedEval
import Verif.Model.RoundedFilter
import Verif.Model.RoundedInterp
import Verif.Model.RoundedPrefilter
import Verif.Model.RoundedRansac
import Verif.Model.RoundedSolver
import Verif.Model.RoundedTables
import Verif.Model.Script
import Verif.Model.Spoil
import Verif.Model.SpoilExperiments
import Verif.Model.TestPaths
import Verif.Model.TestSpoiled
import Verif.Model.TestTimeAlign
import Verif.Model.TestTools
import Verif.Model.TestTransform
import Verif.Model.TfExport
import Verif.Model.TimeAlign
import Verif.Props.Algorithms
import Verif.Props.AlgorithmsExample
import Verif.Props.AlignScript
import Verif.Props.AlignedContent
import Verif.Props.AlignedPoses
import Verif.Props.AlignedRegular
import Verif.Props.Alignment
import Verif.Props.Baseline
import Verif.Props.Baseline2
import Verif.Props.Batch
import Verif.Props.Batch2
import Verif.Props.BoxPlots
import Verif.Props.Clock
import Verif.Props.ClockDefault
import Verif.Props.ClockExperiments
import Verif.Props.ClockFrames
import Verif.Props.ClockNoise
import Verif.Props.CloseCircle
import Verif.Props.Collect
import Verif.Props.Commands
import Verif.Props.Commands2
import Verif.Props.Commands3
import Verif.Props.Commands4
import Verif.Props.Commands5
import Verif.Props.CompleteScript
import Verif.Props.CreatePath
import Verif.Props.Csv
import Verif.Props.DataDrops
import Verif.Props.DropsChance
import Verif.Props.DualQuat1
import Verif.Props.DualQuat2
import Verif.Props.DualQuat3
import Verif.Props.EndToEnd
import Verif.Props.ErrorPlots
import Verif.Props.Evaluate
import Verif.Props.Evaluate2
import Verif.Props.ExperimentLoop
import Verif.Props.Export
import Verif.Props.ExportWords
import Verif.Props.Extractor
import Verif.Props.Extractor2
import Verif.Props.Extrinsic
import Verif.Props.FigureOptions
import Verif.Props.Figures
import Verif.Props.Figures2
import Verif.Props.Figures3d
import Verif.Props.Figures3d2
import Verif.Props.Filter
import Verif.Props.Frames
import Verif.Props.Frames2
import Verif.Props.HandEye1
import Verif.Props.HandEye2
import Verif.Props.HandEye3
import Verif.Props.HandEye4
import Verif.Props.IntQuat
import Verif.Props.LoopError
import Verif.Props.ModelConfig
import Verif.Props.Mounting
import Verif.Props.Noise
import Verif.Props.Noise2
import Verif.Props.Noise3
import Verif.Props.Noise4
import Verif.Props.NoisySolver
import Verif.Props.OrientationNoise
import Verif.Props.OutlierScript
import Verif.Props.OutlierScript2
import Verif.Props.OutlierScript3
import Verif.Props.OutlierScript4
import Verif.Props.Pipeline
import Verif.Props.Pool
import Verif.Props.PoseError
import Verif.Props.Prefilter
import Verif.Props.Quat1
import Verif.Props.Quat2
import Verif.Props.Quat3
import Verif.Props.Quat4
import Verif.Props.Quat5
import Verif.Props.Quoting
import Verif.Props.Ransac1
import Verif.Props.Ransac10
import Verif.Props.Ransac10Example
import Verif.Props.Ransac11
import Verif.Props.Ransac11Example
import Verif.Props.Ransac12
import Verif.Props.Ransac12Example
import Verif.Props.Ransac13
import Verif.Props.Ransac13Example
import Verif.Props.Ransac14
import Verif.Props.Ransac14Example
import Verif.Props.Ransac2
import Verif.Props.Ransac3
import Verif.Props.Ransac4
import Verif.Props.Ransac5
import Verif.Props.Ransac5Example
import Verif.Props.Ransac6
import Verif.Props.Ransac7
import Verif.Props.Ransac8
import Verif.Props.Ransac9
import Verif.Props.Ransac9Example
import Verif.Props.Readme
import Verif.Props.Readme2
import Verif.Props.Resample
import Verif.Props.ResultFiles
import Verif.Props.Results
import Verif.Props.Rounded
import Verif.Props.Rounded2
import Verif.Props.Rounded3
import Verif.Props.RoundedAlign
import Verif.Props.RoundedAlign2
import Verif.Props.RoundedBaseline
import Verif.Props.RoundedBaseline2
import Verif.Props.RoundedComplete
import Verif.Props.RoundedDual
import Verif.Props.RoundedDual2
import Verif.Props.RoundedEval
import Verif.Props.RoundedEval2
import Verif.Props.RoundedEval3
import Verif.Props.RoundedEval4
import Verif.Props.RoundedExact
import Verif.Props.RoundedExact2
import Verif.Props.RoundedFilter
import Verif.Props.RoundedFilter2
import Verif.Props.RoundedInterp
import Verif.Props.RoundedInterp2
import Verif.Props.RoundedOffset
import Verif.Props.RoundedOutliers
import Verif.Props.RoundedOutliers2
import Verif.Props.RoundedPoses
import Verif.Props.RoundedPrefilter
import Verif.Props.RoundedRansac
import Verif.Props.RoundedRansac2
import Verif.Props.RoundedRansac3
import Verif.Props.RoundedSolver
import Verif.Props.RoundedSolver2
import Verif.Props.RoundedTables
import Verif.Props.RoundedTables2
import Verif.Props.RoundedTables3
import Verif.Props.RoundedVelocity
import Verif.Props.SampleCount
import Verif.Props.SampleCount2
import Verif.Props.Script
import Verif.Props.SignalNoise
import Verif.Props.Spacing
import Verif.Props.Spoil
import Verif.Props.SpoilExperiments
import Verif.Props.SpoilPlots
import Verif.Props.SpoilRows
import Verif.Props.TestPaths
import Verif.Props.TestPaths2
import Verif.Props.TestPaths3
import Verif.Props.TestPaths4
import Verif.Props.TfExport
import Verif.Props.TfWarnings
import Verif.Props.TimeOffset
import Verif.Props.UnitTests
import Verif.Props.UnitTests2
import Verif.Props.UnitTests3
import Verif.Props.UnitTests4
import Verif.Props.UnitTests5
import Verif.Props.UnitTests6
import Verif.Props.UnitTests7
import Verif.Props.UnitTests7Example
import Verif.Spec.Algorithms
import Verif.Spec.AlignedTables
import Verif.Spec.Arc
import Verif.Spec.Baseline
import Verif.Spec.Batch
import Verif.Spec.Bins
import Verif.Spec.Chance
import Verif.Spec.Circle
import Verif.Spec.Clock
import Verif.Spec.CommandLine
import Verif.Spec.Commands
import Verif.Spec.CompleteScript
import Verif.Spec.Csv
import Verif.Spec.Drops
import Verif.Spec.Experiments
import Verif.Spec.Export
import Verif.Spec.ExportWords
import Verif.Spec.Extractor
import Verif.Spec.Figures
import Verif.Spec.Filter
import Verif.Spec.Frames
import Verif.Spec.Groups
import Verif.Spec.HandEye
import Verif.Spec.IntQuat
import Verif.Spec.Interp
import Verif.Spec.LinearSystem
import Verif.Spec.Motion
import Verif.Spec.Mounted
import Verif.Spec.NearSvd
import Verif.Spec.Noise
import Verif.Spec.NoisyMeasurements
import Verif.Spec.OutlierPoses
import Verif.Spec.Outliers
import Verif.Spec.Pipeline
import Verif.Spec.Pool
import Verif.Spec.Pose
import Verif.Spec.Prefilter
import Verif.Spec.Quoting
import Verif.Spec.Ransac
import Verif.Spec.Readme
import Verif.Spec.Recorded
import Verif.Spec.Recording
import Verif.Spec.Resample
import Verif.Spec.Rotation
import Verif.Spec.Rounded
import Verif.Spec.RoundedComplete
import Verif.Spec.RoundedOutliers
import Verif.Spec.RoundedPrefilter
import Verif.Spec.RoundedTables
import Verif.Spec.Sensor
import Verif.Spec.Signal
import Verif.Spec.SignalNoise
import Verif.Spec.Supported
import Verif.Spec.TestPaths
import Verif.Spec.TfExport
import Verif.Spec.Track
import Verif.Spec.UnitTests
