# Design: a machine-checked model of hand_eye_calibration

The object of study is the Python package `ethz-asl/hand_eye_calibration` as found in `/repo`
(quaternion and dual quaternion algebra, Daniilidis' hand-eye solver, RANSAC and BASELINE
drivers, time alignment, CSV/JSON input-output, and the surrounding scripts).
The list of properties is `properties.jsonl`; the status of each is in `MANIFEST.json`.

## How the code is modelled

* **Shallow embedding.** Every modelled Python function is one Lean definition that follows the
  Python text branch by branch. Each definition carries a comment with file and lines.
* **Numbers.** `float` values are real numbers (`ℝ`). Rounding is *not* modelled.
  Where Python/numpy would produce `nan`, `inf` or a `RuntimeWarning` (division by zero, `sqrt` of
  a negative number, `arccos` outside [-1,1]) the model stops with the explicit error
  `PyErr.nonFinite`; Lean's totalised `x / 0 = 0`, `Real.sqrt`, `Real.arccos` are never reached
  outside of their domain. Control-flow results (prefilter, RANSAC bookkeeping, selection of samples)
  are proved parametrically in the numerical kernels where possible, and then hold for IEEE floats as well.
* **numpy tolerance tests** are modelled with their real semantics: `np.isclose(a,b,atol)` is
  `|a-b| <= atol + 1e-5*|b|` (the default `rtol=1e-5` stays active when only `atol` is given).
* **Exceptions** are values: functions that can raise return `Except PyErr α`
  with one constructor per Python exception class used.
* **Mutation.** A method that mutates its object returns the new object next to its result. Functions that
  mutate their arguments return the mutated arguments.
* **Lists and arrays** are Lean lists; Python indexing is `Option`/`Except`-valued, with negative indices
  where the code can reach them. Loops are structural recursion, `foldl`, or well-founded recursion.
* **External code is a parameter**: SVD (constrained by the definition of a singular value
  decomposition only), random generators (arbitrary streams), the file system, ROS `tf` lookups.
* **Specifications** are separate from the model: Mathlib's `Quaternion ℝ`, `Matrix`, `DualNumber`,
  `Matrix.specialOrthogonalGroup`, list predicates, real sums. They never call model functions.

## Layout

* `lean/Verif/Model/*.lean` definitions transcribed from Python, no theorems beyond what termination needs.
* `lean/Verif/Spec/*.lean` specification vocabulary.
* `lean/Verif/Lemmas/*.lean` helper lemmas.
* `lean/Verif/Props/*.lean` the property theorems (named `Cxx_...`), each next to an `example` showing
  that its hypotheses are satisfiable in a non-trivial case. Names ending in `_partial` prove less than the property;
  names containing `_refuted` prove that the property as stated fails for the code.

## Plan per property

The files are those in `lean/Verif/Props`.

| id | property | status | model and proof | files |
|---|---|---|---|---|
| C01 | Quaternion arithmetic is Hamilton's algebra | proved | Components over ℝ. `Quat` with the code's `__mul__`, `+`, `-`, conjugate, norm. Spec: Mathlib's `Quaternion ℝ`; prove the coordinate map is an injective algebra homomorphism and derive the laws. | Quat1 |
| C02 | Quaternion inverse and division undo multiplication | proved | `inverse`/`truediv` in the error monad (`nonFinite` on division by zero). Prove two-sided inverse for non-zero norm and the error for the zero quaternion. | Quat1 |
| C03 | rotate_vector is a rotation and agrees with the rotation matrix | proved | `rotateVector` transcribed; spec is the sandwich product v ↦ q v q* in Mathlib's quaternions, and matrix-vector product. | Quat1 |
| C04 | to_rotation_matrix produces proper rotations | proved | `toRotationMatrix : Matrix (Fin 3) (Fin 3) ℝ`; prove membership in `Matrix.specialOrthogonalGroup`, homomorphism, transpose, sign invariance. | Quat1 |
| C05 | Quaternion <-> rotation matrix round trip | partial | `fromRotationMatrix` with guards for negative radicand and zero divisor. Prove round trip for w ≠ 0, round trip of matrices of trace ≠ -1, and the negation (error) on every half turn. | Quat2 |
| C06 | from_angle_axis builds the unit quaternion of that rotation | partial | `fromAngleAxis` transcribed with its 1e-16 cut-off; prove unit norm, scalar part, axis fixed; show the short-axis exception. | Quat3 |
| C07 | angle_axis inverts from_angle_axis | partial | `angleAxis` with numpy's isclose (rtol 1e-5). Prove exactness outside the tolerance branch, an error bound inside, and the negation (rotations up to ~0.5 degrees read as zero; w = -1 not finite). | Quat3 |
| C08 | Slerp interpolates on the unit sphere | proved | `slerp` transcribed. Prove end points, the norm interval [1-1e-16, 1], exact unit norm outside the degenerate branch, and the closed form of the inner product with the (sign-aligned) end point: cos(fraction*theta). | Quat4 |
| C09 | Interpolation between stamped quaternions stays in range | proved | `quaternionsInterpolate` over lists in the error monad; prove length, end points, exact failure condition. | Quat5 |
| C10 | Angular velocity of a constant-rate rotation | partial | Prove the value the code really returns for constant-rate motion (-omega/2 outside the tolerance branch, 0 inside); the stated property is refuted. | Quat5 |
| C11 | angle_between_quaternions is the relative rotation angle | proved | `angleBetween` with numpy's allclose and inverse; range, zero on equal, bi-invariance of the non-tolerance value, symmetry of it. | Quat5 |
| C12 | Dual quaternion arithmetic is an associative algebra | proved | `DQuat` as pair of `Quat`; laws by algebra; spec is Mathlib's `DualNumber (Quaternion ℝ)`. | DualQuat1 |
| C13 | Dual quaternion inverse | proved | `DQuat.inverse` in the error monad with the assertion; both products are identity; exact failure condition. | DualQuat1 |
| C14 | Pose <-> dual quaternion round trip | partial | `fromPose`, `toPose` (returns pose and mutated object). Prove round trip; invariance under positive scaling and sign (w ≠ 0); half-turn exception shown. | DualQuat1 |
| C15 | Transforming points is a group action of rigid motions | proved | `passiveTransformPoint`, `activeTransformPoint`; spec: rotation matrix times p plus t. | DualQuat2 |
| C16 | Dual quaternion <-> 4x4 matrix | proved | `toMatrix`, `fromTransformationMatrix`, block matrix spec. | DualQuat2 |
| C17 | normalize establishes is_normalized, and construction rejects unnormalised values | partial | `normalize`, `isNormalized`, constructor. Refuted in both halves (dual part not orthogonalised; assertion tests a bound method). Partial: exact condition under which normalize works. | DualQuat2 |
| C18 | Screw parameters are conjugation invariant | partial | `screwAxis`; spec: rotation angle and displacement along axis; congruence for all unit x. | DualQuat3 |
| C19 | Equality of dual quaternions | partial | `dqEq` with allclose; reflexive; symmetry and motion-equality refuted with witnesses; partial: equality within tolerance. | DualQuat3 |
| C20 | Reading a dual quaternion does not change the motion it represents | proved | `toPose`/`toMatrix` return the mutated object; prove it represents the same motion and is unchanged if unit; for any sequence of reads by induction. | DualQuat3 |
| C21 | Path alignment re-bases a trajectory | proved | `alignPathsAtIndex` over lists in the error monad with Python negative-index and slice semantics. | HandEye1 |
| C22 | Path alignment ignores the choice of world frame and quaternion signs | proved | Same model; gauge invariance exact, sign behaviour exact up to the w = 0 case, idempotence. | HandEye1 |
| C23 | Offset trajectories satisfy the hand-eye equation | proved | `computeDualQuaternionsWithOffset`; composition with alignment. | HandEye1 |
| C24 | Noise-free pose pairs pass the scalar-part gate | proved | Scalar parts and congruence; the `allclose` gates of the solver. | HandEye2 |
| C25 | The true calibration solves the linear system | proved | `setupSMatrix` as 6x8 rows; `setupTMatrix` as concatenation; kernel membership for all n. | HandEye2 |
| C26 | Two non-parallel rotation axes determine the calibration | partial | Kernel characterisation; the exception for half-turn X shown as a refutation of the unrestricted claim. | HandEye2 |
| C27 | The solver recovers the exact calibration | proved | Solver with SVD as a parameter constrained only by the definition of an SVD; uniqueness of the result. | HandEye3 |
| C28 | The solver does not refuse exact data | partial | Refuted: an explicit valid SVD of exact data makes the `a != 0` assertion fire. Partial: it is the only failing assertion on exact data. | HandEye3 |
| C29 | Any returned calibration is a unit dual quaternion with non-negative scalar part | proved | Post-condition on all successful returns, no assumption on data. | HandEye3 |
| C30 | The bad_singular_values flag is the documented rank test | proved | Loop over enumerated singular values vs. a quantified statement. | HandEye3 |
| C31 | The solver ignores the sign of input dual quaternions | partial | The sign-enforcement loop is idempotent and absorbs signs. | HandEye4 |
| C32 | Prefiltering keeps a dispersed, order-preserving, still-paired subset | proved | In-place pops modelled index by index on the list (while loops by well-founded recursion); refinement to a greedy selection spec; properties of the selection. | Prefilter |
| C33 | Prefiltering twice changes nothing | proved | Corollary of the refinement. | Prefilter |
| C34 | Pose error is a proper discrepancy | proved | `computePoseError`; range, zero on equal, sign invariance, symmetric position error. | PoseError |
| C35 | evaluate_alignment counts inliers and RMSE as documented | proved | `evaluateAlignment` over lists; RMSE spec as sqrt of mean of squares. | Alignment |
| C36 | A perfect calibration has zero alignment error | proved | `getAlignedPoses` + `evaluateAlignment` on exact data. | Alignment |
| C37 | RANSAC reports a candidate no evaluated candidate beats | proved | RANSAC main loop as a transition system over an arbitrary sample stream; numerical kernels are parameters so the result holds for any arithmetic (incl. IEEE NaN) whose `<` is a strict partial order. | Ransac1 |
| C38 | RANSAC succeeds iff some sample was accepted | proved | Same. | Ransac1 |
| C39 | Exhaustive RANSAC evaluates every sample exactly once and terminates | proved | Exhaustive mode: `itertools.combinations` modelled; every k-subset once; termination. | Ransac1 |
| C40 | RANSAC terminates within its iteration budget | partial | Refuted by an explicit non-terminating run; partial: bound on full iterations, termination if finitely many samples are rejected. | Ransac2 |
| C41 | RANSAC early abort keeps the promised confidence | proved | `earlyAbort` condition with Real.log; equivalence with the probability bound. | Ransac2 |
| C42 | RANSAC aligns the data at the first sampled pose | partial | Refuted with prefiltering (index mismatch, explicit witness); proved without prefiltering. | Ransac4 |
| C43 | BASELINE calibration supports both of its documented modes | partial | BASELINE transcribed; exhaustive mode always ends in NameError / assertion (refuted); partial: non-exhaustive mode. | Baseline, Baseline2 |
| C44 | Time offset is equivariant under clock shifts | proved | `calculateTimeOffsetFromSignals` over lists of reals. | TimeOffset |
| C45 | Time offset of a shifted copy is the shift | proved | Discrete full cross-correlation; strict Cauchy-Schwarz. | TimeOffset |
| C46 | Resampled orientations are interpolated between their neighbours | partial | `resampleQuaternionsFromSamples` with bisect and isclose; refuted for Unix times; proved under the explicit scale condition. | Resample |
| C47 | Aligned pose tables correspond row by row | proved | `computeAlignedPoses` selection loop. | AlignedPoses |
| C48 | Angular velocity filtering clips and smooths without overshoot | proved | `filterAndSmooth` with percentile value as parameter. | Filter |
| C49 | JPL input is converted to Hamilton convention | partial | CSV read model; refuted with witness; partial for the second returned array. | Csv |
| C50 | CSV pose tables survive a write/read round trip | partial | Character-level model of "%.18f" / ", " / float(); round-trip error bound. | Csv |
| C51 | Extrinsic calibration files round trip | proved | JSON object as key/value record; round trip. | Extrinsic |
| C52 | Composing extrinsic calibrations composes motions and adds offsets | proved | Algebra of (offset, dual quaternion) pairs. | Extrinsic |
| C53 | Loop error uses the right edges and vanishes on consistent calibrations | proved | Index arithmetic against lexicographic pair enumeration for all n; loop product telescopes. | LoopError |
| C54 | Data dropping removes exactly the requested number of samples | partial | Random-draw stream; exactness, survivors; termination refuted for inadmissible, characterised. The chance of still running after N rounds is bounded by an induction over N: every round adds a missing sample with a chance of at least 1/(2n), whatever the state (average_le), and fewer_step is the recursion of the binomial distribution. | DataDrops, DropsChance |
| C55 | Cached pipeline steps are re-run after a crash | partial | File system of modification times; refuted for partial outputs with a crash between writes; partial statement. | Pipeline |
| C56 | create_path makes the directory or reports an error | partial | Directory-set model with a racing creator; refuted (NameError). | CreatePath |
| C57 | tf export reports the number of exported poses | partial | Fold over lookup events; row count proved, reported count refuted; partial: exact relation. | TfExport |
| C58 | Experiment results record the configuration that was run | partial | Record + CSV line; refuted for prefiltering; rest proved. | Results |
| C59 | Collected results are grouped by method without loss | proved | Fold over rows; refinement to filter spec. | Collect |
| C60 | Spoiled initial guesses respect the requested ranges | partial | `spoilInitialGuess` over arbitrary draws in the unit interval; the motion of the result is compared with the perturbation of the motion. | Spoil |
| C61 | RANSAC on noise-free data finds the true transform | proved | Invariant of the RANSAC loop on exact data, with the solver's uniqueness theorem (C27) for every sample that passes the rank test. | Ransac3 |
| C62 | No supported stamp of the slower table is lost | partial | Selection loop of `compute_aligned_poses` against the set of supported stamps; the last stamp of the faster table is the exception. | AlignedPoses |
| C63 | The velocity filter treats both senses of rotation alike | partial | `filterAndSmooth` with numpy's percentile (linear interpolation of the sorted list); negation law where the percentiles agree, counter-example for all lengths. | Filter |
| C64 | Synchronised sensors on one body have no time offset | partial | Invariance of the angular velocity norms under mounting and world frame; counter-example through all of `calculate_time_offset`. | Mounting |
| C65 | Resampling honours the requested period | partial | `resampleQuaternions`: number of samples and `linspace` step; the exact step and its bounds. | Spacing |
| C66 | Gap warnings of the tf export point at the gaps | proved | Running mean of `tf_to_csv` along a constant-rate stream with at most one missing sample. | TfWarnings |
| C67 | Names of the algorithms say what was run | proved | The fixed list of configurations against the dictionary of short names. | ResultFiles |
| C68 | Result files of the experiments can be read by the plotting tools | partial | Header and lines of `ResultEntry` against the columns of `collect_data_from_csv`; cells by splitting at commas. | ResultFiles |
| C69 | A failed calibration of one pair does not lose the results of the others | partial | One iteration of `compute_set_of_hand_eye_calibrations` with `None` for failed calibrations and an arbitrary optimizer. | ExperimentLoop |
| C70 | Aligned rows are the poses of the two trajectories at their time | partial | Reuse the outcome of `interpolatePosesFromSamples` (C62) with facts on `np.interp` at and between recorded stamps. | AlignedContent |
| C71 | Evaluating the true calibration reports no error | proved | `evaluateCalibration` over the aligned tables of C62; a separate spec (`Spec.SameBody`) says the two tables are of one body in terms of motions of points. | Evaluate, Evaluate2 |
| C72 | The calibration script writes the true transform | proved | `calibrationScript` (Model/Script.lean) composes input, alignment, RANSAC and output; `Spec.SameBodyPoses` says what the poses are of, `Spec.Inverses` what an inverted table is, both by motions of points. | Script |
| C73 | The time offset of two recordings of one motion is exact | partial | Resampling regular data keeps them; the velocities do not depend on the mounting; limit and window sums commute with shifting when the ends are at rest; then C45. The counterexample: a body with a fast start; the limits are the 99.5 and the 99 percentile, two correlation values are compared by kernel computation | Clock, ClockDefault, ClockExperiments, ClockFrames |
| C74 | The alignment script writes the poses of both recordings in Hamilton's convention | partial | `alignScript` (Model/AlignScript.lean) composes reading, offset and alignment; the rows are those of C70 on the tables as read (`Spec.ReadAs`). | AlignScript |
| C75 | Alignment and calibration scripts together recover the true calibration | proved | `Spec.Recorded` describes the two recordings by motions of points. C73_frames gives the offset, `aligned_regular` the rows (which are recorded ones), C72 the calibration; C72_succeeds is generalised to recordings that begin at rest. | EndToEnd |
| C76 | The circle of three sensors closes | proved | `Spec.Sensor`, `Spec.Carries` describe each sensor relative to the body; each pair then satisfies `Spec.Recorded` (`sensor_pair`), so C75 applies to it; C51 gives the JSON round trip of the initial guess and C52 the product. | CloseCircle |
| C77 | The plots of the experiments show exactly the results that count | partial | Follow the loops over methods and datasets in collected dictionaries; C67 gives their content; arithmetic of tick positions for the layout; KeyError, IndexError and ZeroDivisionError as separate theorems. | BoxPlots |
| C78 | The error plot shows the mean loop error of each range of perturbations | partial | np.arange as start + k step, bisect by its loop invariant, so that a value gets index k iff it is in bin k; induction over rows for the content of a bin; mean of the content. | ErrorPlots |
| C79 | The experiments with spoiled initial guesses cover all ranges, and the plots show them | partial | A lemma on loops that number their results gives the list of inputs as all combinations; index arithmetic for blocks of rows; C60 with strict upper ends puts each row in its bin, so that the cell of C78 is a block of rows; C77 and C78 for the figures; AssertionErrors for settings that do not fit. | SpoilExperiments, SpoilPlots, SpoilRows |
| C80 | The trajectories of the tests are what the tests need | partial | The loop with the invariant that the samples not yet reached are still those of the curve; half angle formulas for the Euler angles; C22, C23 and the sign lemma for the aligned paths; the axes of the second and the last sample; C61 for the calibration; conjugation keeps the scalar part of a quaternion. For the filter: the axes of the second, of the last and of the sample nearest to three quarters of the time are far apart by bounds on sine and cosine, and no axis is close to two of them. | TestPaths, TestPaths2, TestPaths3, TestPaths4 |
| C81 | The export of bags writes the table of every configured source to a file of its own | partial | Every call is turned into the list of its writes; the last write of a file counts; the last underscore, or the last W, splits a file name in one way only. | Export |
| C82 | The assertions of the repository's unit tests hold | partial | Exact arithmetic with brackets for the square roots; slerp at one half is the scaled sum; the calibration test follows from C80 and C61; the test with outliers from C91 after replacing every pose by one that is seen through the two transformations, which keeps scalar parts; the time alignment test from C08, C10, C11 and bounds on the gaussian; the data drops from C54. | TestPaths4, UnitTests, UnitTests2, UnitTests3, UnitTests4, UnitTests6, UnitTests7 |
| C83 | The figures of the time alignment show the data and the offset that they are said to show | partial | The maximum of np.correlate in full mode over a sum over all overlaps (Spec.correlationAt); the drift from regular times; the refutation is for every body that turns at constant speed. | Figures, Figures2 |
| C84 | The figures of trajectories and errors show the poses that they are given | partial | Smallest and largest of the concatenation from those of the parts; frames from C03; the errors from C35. | FigureOptions, Figures3d2 |
| C85 | The error of the hand-eye solver is bounded by a multiple of the noise of the poses | partial | Rows of T change by at most 4 eta in Frobenius norm per pair; the singular value decomposition turns residuals into distances from the plane of the last two right-singular vectors; the gap between the two planes is symmetric; quaternion norms for rotation and translation; the refutation: flipped half turns about x and y are exact data for a half turn about z (C27); the right root: by the intermediate value theorem there is a root whose rotation part is at least 1/(2 sqrt(2 + \|t0\|^2/4)) long, and the solver takes the root with the longer rotation part; the wrong root: seven pairs whose residual is an explicit quadratic form that splits into blocks, so that the eigenvalue equations of any right-singular vector with a small singular value leave two kinds of vectors, and the quadratic of the solver then has the roots 0 and one of the order of 1/eta^2 with the longer rotation part. | Noise, Noise2, Noise3, Noise4 |
| C86 | The target extractor writes one row per good image, and the row is the pose of the camera in the frame of the target | partial | The loop as a fold with the detector, the estimator, the conversion of Eigen and the projection as parameters; induction over the images gives the rows as a filterMap, compared with the filtered list of good images; the header is followed through the model of csv_io at the level of characters. | Extractor, Extractor2 |
| C87 | The batch estimator and csv_io read each other's tables of poses | partial | Both readers and the printed format as functions on lists of characters; std::stod of a printed number; cells of a printed line; rounding to eighteen digits changes the length of a quaternion by at most 1e-18; the conversion of conventions is an involution. | Batch, Batch2 |
| C88 | The complete calibration script computes the calibration of the two files it is given, or reports a failure | partial | A file system as a partial function on paths, the three programs as partial functions of the contents they read; the reads of the later steps are followed through the writes of the earlier ones. | CompleteScript |
| C89 | Rounding errors of the quaternion class stay small and trip none of its checks | partial | The lines of quaternion.py with a rounding after every operation, in the order of the code; componentwise error bounds, Cauchy-Schwarz, and the norm of the quaternions of Mathlib; float64 as round half even to 53 digits; the refutation evaluates every operation of one example. | Rounded, Rounded2, Rounded3 |
| C90 | Rounding errors do not change poses noticeably and do not stop the alignment of paths | partial | Error propagation through inverse, product, normalize, from_pose and to_pose; the assertion of align_paths_at_index from the bound on inverse times pose; the refutation evaluates every operation of one example in float64. | RoundedDual, RoundedDual2 |
| C91 | RANSAC ignores outliers that are visible in the scalar parts | proved | The trajectories aligned at a measurement, as a list of pairs; the inliers are the pairs that agree with it; if these fit one mounting they are exact data (C23, C27, C36); a loop invariant for the absence of exceptions, and counting for the end of the random search. | OutlierScript, Ransac5 |
| C92 | RANSAC reports the calibration that most measurements support | partial | The outcome of a sample whose first measurement lies in a group that fits one mounting; the rotations of all poses fit both mountings, so its orientation error is zero; the fold over the candidates keeps it. Counting for the positive part. | Ransac6, Ransac7 |
| C93 | Command lines reach the programs with the values that they name | partial | shlex as a state machine, argparse as classification, grouping and conversion of the words, gflags as a fold; induction over the words. The commands are cut into words by computation. | Commands, Commands2, Commands3, Commands4, Commands5, Quoting |
| C94 | The experiments tell the batch estimator which sensors are absolute | partial | Pairs by induction over the list; the command is cut into words as in C93; gflags; the text at commas and equals signs; lookup in the three layers by computation for each of the four combinations of flags. | ModelConfig |
| C95 | The calibration does not depend on the choice of the world frames | partial | align_seen from C22_gauge and C22_signs; RANSAC by induction over its passes, all of which only look at aligned data; for samples of one measurement the sample is not used. Refutation: small turns, seen from a frame turned by a half turn, all have nearly the same axis. | Frames, Frames2 |
| C96 | The calibration script copes with outliers in its tables | partial | Every measurement that fits up to sign is replaced by the one that fits exactly; this changes neither the alignments (C95) nor the scalar parts, so that the lemmas of C91 apply. The script aligns both tables first, which does not change later alignments. Refutation with explicit tables; the prefilter is evaluated by its greedy description (C32). | OutlierScript, OutlierScript2, OutlierScript3 |
| C97 | A calibration that fits is not rejected because of rounding | partial | The evaluation of a calibration is modelled with a rounding after each operation and with nan for the angles. The witness repeats the pair of orientations of C89_angle_refuted; that no rounding changes the other steps is computed. The sufficient condition follows from the error bounds of C89. | RoundedEval, RoundedEval2, RoundedEval3, RoundedEval4 |
| C98 | The tools of the export get the arguments that are meant | partial | The words of the calls are modelled, and argparse (from C93/C94) and gflags as functions on words. parse_words gives the arguments for words without dashes; the words for the extractor are evaluated flag by flag, with the decimal notation of the integers inverted. | ExportWords |
| C99 | The commands of the documentation are accepted | partial | The commands are literals in the model. A layout (words with blanks and line ends before them) gives the lines of a command; joining the lines and splitting them gives the words back (command_layout, from C93 for words with quotes). The literals are layouts for the documented names (by evaluation), and the parsers are applied to the words with arbitrary names (parse_words, C93_options_partial). | Readme, Readme2 |
| C100 | Quaternions made of integers behave as quaternions | partial | Arrays of type int64 are modelled with a function that wraps to 64 bits after every operation. Wrapping respects sums and products modulo 2^64, so a result is exact if the exact result fits; bounds on the components give that. The witnesses are evaluated. | IntQuat |
| C101 | The experiments with spoiled initial guesses have their own random numbers and files | partial | The pool is modelled by the size of the pieces of Pool.map, an arbitrary function from pieces to processes, and a stream of numbers that each process reads from the same place. The number of numbers used before an experiment is a multiple of the piece size plus its place in the piece, which gives both the disjointness within a range and the repetitions. | Pool |
| C102 | Noise in the recordings moves the time offset by no more than the shape of the motion allows | proved | The correlation at a lag is c times (energy of the clean signal minus half the energy of its difference from its shift) up to the cross terms with the noise, which are bounded by the Cauchy-Schwarz inequality. The percentile of two lists that differ by at most e differs by at most e, because the sorted lists do (counting argument); clipping and averaging are contractions. The rotation vector of a unit quaternion (v, w) with w >= 0 is v times 2*arccos(w)/sqrt(1-w^2), which is at most pi and has a derivative of at most 2. | ClockNoise, OrientationNoise, SignalNoise |
| C103 | The classic RANSAC, which classifies by pose errors, ignores outliers too | proved | As C91; the inliers of the classic mode are a selection of the measurements that match the base measurement, because the code rejects the sample otherwise. For success: the calibration of a sample of good measurements with two axes is X, for which the pose errors of good measurements are zero and those of the others reach a threshold; a calibration from a bad sample has a unit real part, and its inverse is a true inverse, so that the evaluation of poses with it meets no assertion. The chances by counting, as in C108. | Ransac14, Ransac8, Ransac9 |
| C104 | RANSAC with noisy measurements and outliers reports a calibration with a bounded error | proved | The inliers of a candidate, seen from the base, are measurements of exact data in the sense of C85 (signs chosen by the code do not matter), and the calibration of a candidate is the solver's; then the bounds of C85. For the noise of poses: the error of a product of dual quaternions in the Euclidean norm of the eight components. | Ransac10 |
| C105 | The sixteen algorithms of the experiments are what their names say and take the samples that their confidence asks for | partial | A small vocabulary for families of algorithms, evaluated on the sixteen configurations. For the samples: the course of a run (C40, C41), the abort rule as a comparison of powers (C41_confidence), and that the number of evaluated samples grows by one at a time. | Algorithms, ClockExperiments |
| C106 | With measurements of small noise the solver returns a calibration | partial | The scalar parts of measured pairs differ by at most 2 eta, so the tolerance checks pass. The true mounting plus and minus its own rotation in the dual half are close to the plane of the last two right-singular vectors, and the product of the halves has opposite signs there; so the quadratic has a positive discriminant, two different roots, and a positive length for one of them. The refutation: four poses for which the residual is a diagonal quadratic form, so that the seventh and eighth right-singular vectors are unit vectors along axes. | NoisySolver, Ransac11 |
| C107 | RANSAC raises no exception on rigid motions and succeeds exactly if a sample leads to a calibration | proved | Every step of the evaluation of one sample returns on unit poses, because aligned poses are unit again and every calibration found has a unit rotation; build_any and scalar_outcome give the outcome of a sample exactly, as a candidate if and only if Spec.LeadsToCalibration holds. The loop is then followed with the facts of C38 and C39; loop_stuck is the induction for a random search without candidates. | Ransac11 |
| C108 | With which probability the random search of RANSAC has ended, and how soon | proved | loop_course follows the loop for any description of the samples that become candidates and of the numbers of iterations at which the early abort takes place (C41_confidence). Lemmas/Chance.lean counts outcomes: card_pattern for a given set of successes, card_count for the binomial distribution, chance_blocks for M disjoint blocks of draws, card_draw_within for draws from a set, and share_lt compares drawing without and with replacement. | Ransac12, Ransac12Example, Ransac13Example |
| C109 | With which probability RANSAC reports which of two mountings | proved | first_candidate_reported: the first candidate, if it has no orientation error, stays the best one. leads_iff_either: exactly the samples from one of the groups become candidates. chance_first (Lemmas/ChanceFirst.lean): whether the first of the draws with property A or B has property A is independent of how many draws have one of them; by induction on the number of draws, splitting off the first draw. | Ransac13, Ransac13Example |
| C110 | Interpolation of orientations keeps its meaning under rounding | proved | Lemmas/Arc.lean: the point at a fraction of the arc between two unit quaternions, its dependence on the fraction (arcPoint_fraction) and on the angle and the ends (arcPoint_near); Lemmas/RoundedInterp.lean: errors of the dot product, of the orthogonal part and of the sum. Lemmas/RoundOrder.lean: roundDouble is monotone. If the orthogonal part is short, the arc is short as well and its direction does not matter; otherwise its relative error is small. resampleOne as in Props/Resample.lean with the rounded fraction. | RoundedInterp, RoundedInterp2, RoundedPoses, RoundedVelocity, SampleCount |
| C111 | Resampling makes as many samples as there are poses | partial | Spec.Sums for any order of additions; meanStep_near: relative error of (1.1 m + 2.2) u; quotient_near; the rounded quotient plus one is less than one away from m + 1, so that its integer part is m or m + 1. The witness is evaluated with rd_pos. | SampleCount2 |
| C112 | Rounding does not move the time offset by more than its own size | proved | offset_near: the last lines with four roundings and the mean step of meanStep_near (C111). corr_noise (C102) for the exact correlation; the computed maximum is within 2 kappa of the exact one. Spec.Sums (any order of additions) gives the errors of a direct correlation. | RoundedOffset |
| C113 | Rounding does not break the alignment of pose tables | proved | supportedFl: what the loop tests with rounded differences; selectRounded_eq: the loop is a filter by it. npSort_fl: a monotone rounding commutes with sorting, so that the computed median is near the exact one (median_rounded). Rows by C110 (rows_rounded). | RoundedAlign, RoundedAlign2 |
| C114 | Rounding in filters, speeds and the whole time offset | proved | Percentiles are unique (isPercentile_unique), so that any computed one is near npPercentile. clip_bound, near_clip (C102) and windowMean for the filter; position_near, weight_near, weighted_near for the weighted mean of two sorted elements (atPosition: continuous in the index, also where the floor jumps). C114_offset by C112_noise: the errors of the speeds are noise. C114_exact: exactArith turns every operation into that of Model/TimeAlign.lean. | RoundedExact, RoundedFilter, RoundedFilter2 |
| C115 | Rounding in the hand-eye solver | partial | Spec/NearSvd.lean: backward stable decompositions. residual_perturbed: the eighth and seventh right-singular vectors nearly solve the exact system although matrix, decomposition and sums are rounded (systemRows: the system before rounding). kernel_near: whatever root the quadratic gives, the result is, up to rounding, a combination of the two vectors, normalised. rounded_decomposition + motion_estimate: such a combination is near a dual number times the true calibration, and dual numbers do not change the motion, so that nothing is needed about the root or about rigidity. The run in float64 is evaluated by roundDouble_eq. | RoundedSolver, RoundedSolver2 |
| C116 | Rounding in the baseline algorithm | partial | Model/RoundedBaseline.lean: the same lines as Model/Baseline.lean with a rounding after every operation. Spec/Recorded.lean: recorded and true poses. Arith.relative_near: the motion from one recorded pose to another, whose error grows with the distance from the origin. selection_measured: whatever pair is aligned and whatever pairs are kept, the solver sees measurements of exact data with error eta (the signs are those of FitsMotion, which does not depend on them). Then calibrate_decomposition of C115, normalize_decomposition for the second normalisation, and the estimates of C115. exact_firstInliers: the search that returns at the first sufficient set is the loop of the model. | RoundedBaseline |
| C117 | Rounding in RANSAC | partial | Model/RoundedRansac.lean: the same lines as Model/Ransac.lean with a rounding after every operation; the errors of orientation may be nan. The samples, the test that ends the loop early and the prefilter are parameters. aligned_pairs (C116): an alignment of recorded pairs, however many, gives pairs within eta0 of exact data. GoodPair.normalise: the normalisation of the inliers before the refinement. CalibratedFrom: a calibration that the solver found for such pairs and that was normalised; the candidates of every sample (evaluateSample_from) and so the best one (ransacLoop_best) are such. Then normalize_decomposition for the last normalisation and the estimates of C115. C117_exact: a simulation of the loop, state by state. | RoundedRansac, RoundedRansac2 |
| C118 | Rounding in the prefilter | proved | Model/RoundedPrefilter.lean: the same lines as in Model/HandEye.lean with a rounding after every operation, loops with the functions that compute and compare axes as parameters. dropClose_keeps, keepDistinct_keeps: pairs are only ever removed. keepDistinct_eq: the loops are the greedy selection of C32. direction_near: normalising cancels the factor 1 / sin, whatever its error. product_near: the product of two such directions. greedy_congr: selections agree if axes and comparisons do (C118_exact). | RoundedPrefilter |
| C119 | Rounding rejects no recording that fits | proved | Spec/RoundedComplete.lean: FittingRecording (the hypotheses of C116 and C117 in one structure) and neededTolerance. scalar_near: scalar() never raises and is within 2.01 u of the scalar parts. goodPair_match: an aligned pair is near an exact pair (aligned_pairs of C116) whose scalar parts are equal (C24); the alignment makes both scalar parts non-negative, which decides the signs. align_recorded: C90_align. calibrate_aligned: the solver after the tests. | RoundedComplete |
| C120 | Rounding and measurement errors do not let visible outliers in | partial | Spec/RoundedOutliers.lean: VisibleOutliers and testedTolerance. match_corresponds: if the test accepts two aligned poses, the exact motions correspond within testedTolerance (scalar_near of C119, NearPositive decides the signs). So the accepted pairs of an alignment at a pair that fits all fit; an alignment at an outlier has too few of them. visible_signs, visible_sublist: enforce_same_sign and the prefilter do not matter. evaluateSample_outliers and baseline_outliers give CalibratedFrom, the hypothesis of the estimates of C116 and C117. | RoundedOutliers, RoundedOutliers2 |
| C121 | From the tables of measured poses to the calibration in floating point | partial | Model/RoundedTables.lean, Spec/RoundedTables.lean: MeasuredPose, rowError, rowDualError, preparedError, MeasuredTables. fromPose_recorded (C89_normalize, fromPose_near of C90) and inverse_recorded (dqInverse_near) give RecordedPose for the rows; aligned_recorded: the aligned poses are recorded from conj p0 * q0 up to signs (rebase_near), which fit X.conj and X (relative_fits), and the angles between the poses are the same (cosHalf_aligned). Then C119 and C117. With outliers: OutlierTables; aligned_visible (Lemmas/RoundedTables2.lean): RebasedFrom relates the aligned pairs to those of the tables, motions between them are conjugated (conj_rebased), so that two aligned pairs fit or correspond exactly if those of the tables do; then C120. C121_exact ties the model to calibrationScript of Model/Script.lean. | RoundedTables, RoundedTables2, RoundedTables3 |

## What is missing in the partial claims

* **C05** Round trip proved whenever the trace is not -1; at half turns the code divides by zero (C05_halfturn_refuted).
* **C06** Proved for axes longer than the cut-off 1e-16; a shorter non-zero axis gives a non-unit quaternion (C06_short_axis_refuted).
* **C07** Round trip proved outside of the tolerance branch; every rotation below 0.51 degrees is reported as none, and w = -1 has no finite result (refuted theorems).
* **C10** Refuted as stated: the code returns minus one half of the angular velocity (C10_refuted); C10_value_partial gives the value it does return, including the tolerance branch.
* **C14** Pose round trip and positive multiples proved; sign invariance proved up to half turns, where it fails (C14_halfturn_refuted).
* **C17** Refuted as stated: normalize() does not establish is_normalized() (C17_normalize_refuted), and the constructor never rejects (C17_constructor_refuted). Proved for orthogonal parts.
* **C18** Parameters proved; conjugation invariance proved above the cut-off and for pure translations; refuted for tiny non-zero rotations.
* **C19** Reflexive; symmetry and equality of equal motions are refuted; near-symmetry proved.
* **C26** Kernel and uniqueness proved except where X is a half turn about an axis perpendicular to every rotation axis; there it is refuted (C26_perpendicular_halfturn_refuted, C26_halfturn_refuted).
* **C28** Outcome decided by one inner product of the seventh right-singular vector (C28_outcome_partial). As stated it is refuted: for every exact data set some valid decomposition makes the solver fail an assertion.
* **C31** Proved for every pose but the first; flipping the first pose makes the solver fail (C31_first_pose_refuted).
* **C40** Refuted as stated: rejected samples do not count, and there are inputs on which the loop never ends whatever is drawn (C40_never_ends_refuted, C40_unbounded_refuted). Proved: a running loop has evaluated fewer than max samples, and it ends if all draws are evaluated.
* **C42** Without prefilter the alignment is at the first sampled pose. With prefilter the property is refuted: the index refers to the filtered list but is applied to the unfiltered one, so a sample of three perfect pairs is rejected (C42_prefilter_refuted).
* **C43** Refuted: with exhaustive search no input gives a result (undefined variable); without it an unused alignment raises IndexError although enough pairs agree (C43_index_refuted). Proved: the exact outcome for all unit trajectories without exhaustive search, and exact recovery on noise-free data.
* **C46** Refuted for absolute times: the recorded sample after a query is taken if it is within 1e-5 of its absolute value, so at Unix times every query snaps to the next recorded orientation (C46_unix_refuted, C46_refuted). Proved for all queries further away than that, and without restriction at recorded times.
* **C49** The returned quaternion list is converted (C49_quaternions_partial); the returned pose array is not, for every table in which some rotation has a vector part (C49_refuted). Reading the text of the file is covered by C50.
* **C50** Proved through the printed text, character by character, for non-empty tables whose quaternions are not printed as zero; for unit quaternions each component comes back within 1.5e-18. The file written for an empty table cannot be read (C50_empty_refuted).
* **C54** Whenever introduce_data_drops returns, exactly the requested samples are gone (or None) and the rest are unchanged and in order; no error for whole numbers; some draws finish it. Termination for all draws is refuted (zero draws loop for ever; dropping everything, or a fractional number of samples, can never finish) and the default configuration is rejected by its own assertion. With uniform draws it ends with probability one, after at most 2nk rounds on average (C54_almost_surely_partial, C54_uniform).
* **C55** requires_update is characterised exactly, and steps whose outputs are all present are re-run when an input is newer. Refuted: after a crash in a first run that wrote some but not all outputs, the step is skipped (C55_crash_refuted), and the next step then fails on every later run (C55_stuck_refuted).
* **C56** Whenever create_path returns, the parent is a directory; it is idempotent. Refuted: a concurrent creation of an ancestor makes it raise (C56_race_refuted), and a bare file name raises (C56_bare_refuted).
* **C57** The rows are exactly the successful lookups in bag order. Refuted: the reported count differs once lookups fail after the first success (C57_count_refuted), and when more than two lookups fail after the only successful one the export ends in a division by zero (C57_crash_refuted).
* **C58** Refuted for the prefiltering column, which always says False (C58_prefiltering_refuted), and for values with a comma (C58_comma_refuted). Proved for all other columns of the configuration and for the names, flags and errors of the pair, reading the line under the printed header.
* **C60** Proved for non-negative ranges, angles up to a full turn, angle ranges that begin at 0 or at 1e-4 at least, and draws without a zero vector; the ranges of the script are covered (C60_script_ranges). Refuted otherwise: C60_full_turn_refuted, C60_zero_refuted, C60_small_refuted. A turn below 1e-4 rad may be reported as 0.
* **C62** Refuted: the last stamp of the higher-rate table never supports a row, so equal tables lose their last row (C62_refuted). Proved: everything supported without that last stamp is kept, and nothing after the last but one stamp is.
* **C63** Refuted: a constant rotation about a negative axis is clipped to zero while its reverse passes (C63_refuted, all lengths, rates and kernel sizes). Proved when both signals have the same non-negative percentile.
* **C64** Refuted through the whole of calculate_time_offset: for two rigidly connected, synchronised sensors the offset found is the whole duration of the data (C64_refuted). Proved: the unfiltered angular velocities have equal length.
* **C65** Refuted: two recordings resampled with the same requested period get different periods (C65_refuted). Proved: the exact step, its bounds, and that it is dt iff the range is a whole number of periods.
* **C68** Refuted: the reader asks for 24 columns, the writer writes 23, so every non-empty set of files is a ValueError (C68_refuted); and a single file with a single row is a TypeError even with the column added (C68_single_refuted). With the missing column added the rows are read in order (C68_dataset_partial).
* **C69** Refuted: without optimization a failed pair of the loop ends the iteration in an exception (C69_no_opt_refuted), with optimization any failed calibration does (C69_opt_refuted). Proved for failed pairs outside the loop and for failures of the optimizer.
* **C70** Positions proved. Orientations proved for rows further from the next stamp than 1e-5 of its value (C70_orientations_partial); refuted for stamps of Unix times: position interpolated, orientation that of the next recorded pose (C70_unix_refuted).
* **C73** Proved for regular recordings with rates that are multiples of each other: in one frame, if both signals are filtered with the same kernel size and percentile (C73_clock_offset_partial); in different frames and for different percentiles, if no component of the rotation vectors exceeds the percentile limits (C73_frames_partial). Otherwise it is refuted for the default settings, which use different percentiles, even for a recording compared with itself (C73_default_refuted), and so for all configurations of the experiments (C73_experiments_refuted).
* **C74** Proved for Hamilton quaternions with the limits of C70 (C74_hamilton_partial), and the rejection of other formats (C74_format). For JPL quaternions the rows at recorded times are written unconverted (C74_jpl_refuted). Files are modelled by the numbers they hold.
* **C77** Proved if every algorithm has a row that counts on every dataset and there are at most seven datasets (C77_boxes_partial, C77_times_partial); the layout is proved for all inputs. Else all plots are lost: KeyError (C77_incomplete, C77_boxes_refuted), IndexError (C77_colors) or ZeroDivisionError (C77_no_rows). What matplotlib draws is not modelled.
* **C78** Proved if all rows lie in the grids and each bin has the expected number of rows (C78_matrices_partial); else AssertionError (C78_outside, C78_count). Bins are over exact reals. What matplotlib draws is not modelled.
* **C79** Proved: the enumeration (C79_inputs), the ranges (C79_ranges), one row in range for each combination, iteration and pair (C79_rows), normal end (C79_runs), and for fitting settings the figures (C79_error_plot_partial, C79_figures_partial). Refuted: the settings in the two scripts do not fit (C79_defaults_refuted), two iterations never give 60 rows (C79_sixty_refuted), failed optimizations enter the means with the value -1 (C79_failed_refuted). The rows are passed on as numbers; that the reader expects one more column is C68. evaluate_calibration is part of the optimizer here.
* **C80** Proved: the curve (C80_path), exact data (C80_exact), two axes exactly from four samples on (C80_two_axes), so that every calibration that RANSAC reports is the given transform (C80_calibration); outliers are at least nine away (C80_outliers), the other pairs stay valid if the first sample is no outlier (C80_inliers), and always after aligning again at a good sample (C80_realigned); noise of the position (C80_noise_position). Refuted: paths that do not start at the origin are a NameError (C80_other_start_refuted); an outlier at the start of one path breaks every pair (C80_first_outlier_refuted); the noise never changes the angle of an orientation (C80_noise_refuted). The screw axis filter leaves at least three poses of all paths of 20 to 10^11 samples (C80_prefilter), and with a suitable one of the correct singular value decompositions (C28) RANSAC finds the given transform on all of them, whatever valid samples are drawn (C80_succeeds). The random transforms are part of C82. Not modelled: the printing.
* **C81** Proved if the names are plain, i.e. cannot be confused when they are joined by underscores (C81_exported_partial; the configuration of the repository is plain); only csv files are written (C81_only_tables); lists of different lengths are an AssertionError that keeps what was exported before (C81_unequal_frames, C81_unequal_cameras). Refuted: bags with the same name in two directories, names that differ after the first dot, underscores in frames or topics share a file, and the earlier table is lost (C81_names_refuted, C81_shared_file, C81_shared_names); failing tools are not noticed (C81_failures_refuted); the inlier ratio of the configuration has no effect (C81_inlier_ratio_refuted). The tools are arbitrary functions.
* **C82** Each test of test_quaternion.py and test_dual_quaternion.py is one theorem (the empty tests and the parts that are commented out apart); the test of the calibration without noise passes exactly if RANSAC reports a success (C82_hand_eye_test), and with a suitable one of the correct singular value decompositions it passes for all draws (C82_hand_eye_passes). Partial, because the random transforms are not finite for drawn half turns (C82_random_transform_refuted). The test with outliers passes exactly if RANSAC reports a success, as long as the drawn outliers are visible in the scalar parts and nothing differs by a half turn (C82_outlier_test); the test with noise is reduced to what RANSAC reports: success, no half turn, and eight components within 0.04 (C82_noise_test; nothing is proved about how large the error gets). Both tests can end in few ways only: an exception if the prefilter leaves fewer than three poses, otherwise RANSAC goes on or reports a success, so that the test with outliers then passes and the test with noise depends on the eight components only; RANSAC has ended once 50 samples led to a calibration and goes on while none did (C82_outlier_outcome, C82_noise_outcome); test_plot_poses draws its figure (C82_plot_test). With a numpy that takes 100. as the number of samples (later ones raise TypeError), the test of the time alignment computes an offset for all draws and asserts nothing about it: all that is known is that it is 1.5 plus at most 98 steps (C82_time_alignment); the test of the data drops never raises an error, and the assertion that is commented out would fail whenever the call returns, since the entries are set to None and stay in the list (C82_data_drops, C82_data_drops_refuted). The third test of that file is nested in another one and is never run.
* **C83** Proved: the three panels of the correlation figure (C83_correlation, C83_panels, C83_overlay; for different periods the exact drift is given), the figures of the filter (C83_velocities), of the aligned poses (C83_aligned), and all panels of the input figure but one (C83_input_partial). Refuted: the panel of the norms before the filter shows the norms after the filter; for a body turning at constant speed it shows zeros (C83_input_refuted). Titles, colours, sizes and windows are left out.
* **C84** Proved: lines, colours and limits (C84_positions), arrows (C84_arrows_partial), thinning (C84_every_nth), errors (C84_errors), what the evaluation draws (C84_evaluation), rejection of empty input (C84_empty). Refuted: six trajectories are rejected although there are six colours (C84_six_refuted), the arrows of a sensor that turns in place have length zero (C84_arrows_refuted), heads of arrows can lie outside of the axes (C84_heads_refuted). The option for the thinning works in compute_hand_eye_calibration.py (C84_option) and before the calibration (C84_unaligned_figure), but the script of the experiments sets an attribute that nothing reads and always draws every tenth pose after it (C84_option_refuted).
* **C85** Proved, with explicit constants, for every run that returns: the rotation (C85_rotation_error_partial), the motion of every point (C85_motion_error_partial), that the result is a rigid motion (C85_rigid_partial), a bound in terms of the noise alone or else a translation longer than about 1/(2 gamma) (C85_proportional_partial), that the sixth singular value is positive on exact data (C85_exact_gap). Missing: the loop that makes the signs equal needs rotations that are further from half turns than the noise; without this, arbitrarily small noise makes the solver return a rotation that is wrong by 180 degrees with good singular values (C85_half_turns_refuted). The wrong root of the quadratic, which shows as a huge translation, is excluded if the rotation half of the seventh right-singular vector has length at least 28 gamma sqrt(2 + |t0|^2/4) (C85_right_root_partial). Without that the property is false for arbitrarily small noise and every correct library, far from half turns and with good singular values: the rotation is off by more than 179 degrees and the translation is at least 12 / eta long (C85_wrong_root_refuted).
* **C86** Proved for the loop, given a camera: rows (C86_rows), counters (C86_counts), corners (C86_reprojections), reading as Hamilton quaternions gives T_G_C (C86_read). Refuted: the program as it is uses a null pointer for the camera and never reaches the loop (C86_main_refuted, C86_interface); the default header makes the file unreadable for csv_io (C86_header_refuted); read in the documented way, as JPL quaternions, the rotation is inverted and the position is not, so that the pose is neither T_C_G nor T_G_C (C86_jpl, C86_jpl_refuted).
* **C87** Proved: reading of tables with unit quaternions (C87_reads_tables_partial), conventions (C87_conventions), sample times (C87_samples), round trip (C87_round_trip), csv_io reads the output (C87_python_reads). Refuted: quaternions that csv_io normalises end the batch estimator (C87_norm_refuted), outlier rows are not read by csv_io (C87_outlier_refuted), the header of the target extractor ends it (C87_header_refuted), malformed numbers are read as their beginning (C87_junk_refuted), a blank line ends it (C87_blank_line).
* **C88** Proved if the three programs succeed and the inputs are not files that the script writes: C88_complete_partial, C88_inputs_kept; C88_exit_code says what a zero exit code means. Refuted: after a failed alignment the script goes on with the files of an earlier run and reports success (C88_stale_refuted); an input with the name of an aligned table is overwritten before it is read again (C88_overwritten, C88_overwritten_refuted).
* **C89** Proved for every machine in the standard model and for float64: C89_double, C89_product, C89_normalize, C89_chain, C89_slerp_check; the angle is within about 4e-7 rad in float64 when it is a number (C89_angle_partial). Refuted: for two almost equal float64 unit quaternions angle_between_quaternions and compute_pose_error give nan (C89_angle_refuted). Overflow, underflow and the solver (SVD) are not covered.
* **C90** Proved: C90_round_trip, C90_align, C90_align_double (within 2000 km), C90_offset. Refuted for large translations: a pose 268435 km away makes the assertion of align_paths_at_index fail by rounding (C90_far_refuted); what happens between the two distances is open.
* **C92** Refuted in general: a candidate replaces the best one only if it is strictly better in both errors, so a candidate with orientation error zero is never replaced. C92_first_wins_refuted: of two mountings that differ in translation only, the one of the first sample is reported; C92_majority_refuted: an exhaustive search with default values reports the mounting of ten measurements although thirty fit another. C92_most_inliers_partial proves the claim under the hypotheses of C91 (outliers visible and fewer than min_num_inliers). Missing: groups of min_num_inliers or more that agree among themselves, where the claim is false.
* **C93** shlex.split, argparse and gflags are modelled for the forms that the scripts use. Proved: shlex.split gives the words, also those written with quotes and backslashes, and fails for unfinished ones; run returns exactly for exit code zero; options have the values that their words mean (texts, numbers, lists, true); the three commands of close_the_circle_test.py and those of the shell script arrive with their file names, if these have no white space, quotes or backslashes. Refuted: options of type bool are true for every text but the empty one, so --visualize False visualises, and so does the shell script with --visualize=0; a name with a space makes the batch estimator read another file, a name may add options, backslashes vanish. C93_negative and C93_abbreviations: negative numbers are values, the beginning of exactly one option is this option, and that of several is an error. C93_argparse: exactly which lines of options and words are accepted (number of words, numbers, required options, no words before the first option) and that the last value counts. C93_flags, C93_last_flag: the same for gflags. Missing: the remaining syntax of argparse (short options, two dashes alone) and of gflags (flags without values).
* **C94** C94_pairs, C94_default and C94_count: the pairs of files come with the flags of their files, without flags no sensor is absolute, a wrong number of flags is an AssertionError. Refuted (C94_flags_refuted): the scripts lower the case of the whole text, so the keys are not those of config.info, and the first sensor is always absolute and the second one never; C94_flags_partial: right exactly for the flags 1 0; C94_intended: lowering only the values would be right. Assumed: boost property trees distinguish upper and lower case (their documented behaviour) and loadStrings reads path=value; aslam_calibration itself is not in the repository.
* **C95** C95_align: aligning at any index removes the world frame and the signs, unless two poses differ by a half turn; C95_script: the calibration script writes or raises the same. C95_ransac_partial: RANSAC itself, without the prefilter. Refuted with the prefilter (C95_prefilter_refuted): the screw axes that it compares are those of the poses in the world frame; with the configuration of the script, exact data calibrate in one frame and raise an AssertionError in another. The script is not affected as it aligns both trajectories first.
* **C96** C96_outliers: every output is the true transform. C96_succeeds_partial: with ten good rows the script succeeds if the first or the second row is good and enough poses are left by the prefilter. Refuted without that condition (C96_first_refuted): with two equal outliers in the first two rows and ten exact rows the script ends with an AttributeError for every correct linear algebra library, because the indices of the poses that are left by the prefilter are used for the unfiltered tables (C42), so that only rows 0 and 1 are tried; the ten exact rows alone calibrate. C91_signs is the corresponding statement about RANSAC, with free signs.
* **C97** Refuted for float64 (C97_refuted): for every number of poses there are recordings with pairs that differ by less than 1e-10 rad for which the calibration that fits evaluates to an orientation error of nan and is discarded, in favour of any other candidate; without another candidate there is no result. C97_nan_spreads: the error is nan exactly if the angle of one pair is. C97_selection: what RANSAC takes when some errors are nan. C97_number_partial and C97_number_double: the error is a number if the orientations of every pair are equal or differ by more than 5e-7 rad. C97_exact_arithmetic and C97_agrees: without rounding this is the model of the other claims. Not modelled: overflow, and the order in which numpy adds the squares.
* **C98** C98_export_partial: for configurations without names that begin with a dash, the files after the script and the exception that ended it are those of C81. C98_exported_partial: the consequence for the tables. C98_flags: gflags gives the extractor every name whatever its characters, and the numbers of the target. C98_gflags, C98_gflags_unknown and C98_gflags_values: how the extractor reads words in general, and which it rejects. C98_dash_refuted: a frame called -imu is taken as an option, nothing is exported and no exception is raised. str and strtod for the two lengths are parameters that have to be inverse to each other on them; rosrun is assumed to pass the words on.
* **C99** C99_texts: the commands are the texts of the READMEs, line by line. C99_tf, C99_extract, C99_calibrate, C99_estimate, C99_complete, C99_experiment: these commands are accepted with any names, and every option has the value that is meant. C99_align_refuted: the command for the time alignment is rejected with any names, because of a backslash before a blank in README:125; C99_align_partial: it is accepted if the option is in the next line. C99_backslash_refuted: the command of the second experiment ends with a backslash, so a command in the line after it becomes one more flag, and the script does not start. Missing: the shell beyond blanks, quotes, backslashes and joined lines; rosrun is assumed to find the program and to pass the words on.
* **C100** C100_product: a product of integer quaternions agrees with the exact one modulo 2^64, and is exact if that fits. C100_moderate_partial, C100_from_pose_partial: for integers of at most 1518500249 all operations agree with those of floats. C100_sharp_refuted: for 1518500250 the norm is nan, normalize does nothing and the inverse has the wrong sign. C100_wrap_refuted: from_pose of (2^32, 0, 0, 0) is not a unit quaternion. C100_construct, C100_vector: constructors; C100_list_refuted: Quaternion(q=[x, y, z, w]), which is documented, is rejected. Missing: integers that do not fit into 64 bits, arrays of other types and lengths; the rounding of integers to floats.
* **C101** C101_once, C101_draws: each experiment is run once, whatever the assignment. C101_repetitions_partial: repetitions of the same ranges, and pairs of an experiment, share no number of numpy. Refuted for different ranges: the processes are forked with the same state of the generator, so all experiments of the first pieces of the processes use the numbers of the first piece (C101_pieces_refuted), and their translations are moved in the same direction by the same fraction of the range (C101_direction_refuted). C101_files: different files; C101_label_refuted: the number after it_ is always that of the last iteration. The numbers of the module random, which is seeded again in each process, are arbitrary.
* **C105** C105_configurations and C105_complete: names and settings. C105_spoiled: the algorithm of the optimization experiments. C105_scalar_samples: every finished run with inliers by scalar parts evaluates exactly seven samples, as the confidence asks for. C105_confidence_refuted: every finished run with inliers by pose errors evaluates exactly 20 samples, where 35 are needed (disagreement 62). C105_time_alignment: all algorithms use the same settings for the time alignment, those of the class, which limit the two signals to different percentiles. The probability is that of the code (independent samples, each measurement an outlier with the configured probability).
* **C106** C106_outcome_partial decides every case: the solver returns, unless the halves of the seventh right-singular vector are exactly orthogonal; then it fails the assertion a != 0.0. C106_balanced_refuted: this happens for arbitrarily small noise and every correct library, far from half turns and with good singular values (disagreement 63). C106_ransac_partial applies this to the group of measurements that RANSAC by scalar parts forms from a sample. As in C85, no rotation may be within the noise of a half turn if the loop makes the signs equal.
* **C111** C111_exact proves the property for exact arithmetic. C111_refuted: in float64 eight poses at 0, 1, 2, 3, 4, 5, 7, 9 seconds give seven samples, because 9 / (9 / 7) rounds to less than seven. C111_count_partial: the number is always that of the poses or one less, for every order of the additions (C111_sum: the order of numpy for short arrays); missing is that it is the number of the poses, which is wrong.
* **C115** Proved for every run that returns: C115_rotation_partial, C115_motion_partial, C115_exact (exact arithmetic gives the model of the other properties). Missing: a bound that does not contain the returned translation is impossible without more hypotheses (C85_wrong_root_refuted is the case u = 0); overflow is left out, as in C89; that numpy.linalg.svd is backward stable is assumed. Refuted: the returned dual quaternion is not a unit dual quaternion to rounding accuracy, on exact data with poses that are float64 numbers (C115_rigid_refuted; the examples beside it give the bounds for the same run, below 1e-13).
* **C116** Proved for every run that returns a calibration: C116_rotation_partial, C116_motion_partial, C116_exact; the examples evaluate a run in float64 (two_run). Missing: pairs of poses within eta of a half turn; outliers (for them see C120); the exhaustive search, which always ends in a NameError (C43); the evaluation of the result, for which see C90 and C97; that numpy.linalg.svd is backward stable is assumed.
* **C117** Proved for every run that returns a calibration: C117_rotation_partial, C117_motion_partial, C117_prefilter, C117_exact; the examples evaluate a run in float64 (two_ransac). Missing: pairs of poses within eta of a half turn; outliers (for them see C120); eta0 above 1/10; that numpy.linalg.svd is backward stable is assumed. C117_exact speaks of runs that return over the real numbers; it does not say that the two models raise the same exceptions.
* **C120** C120_rotation_partial, C120_motion_partial (RANSAC), C120_baseline_partial, C120_baseline_motion_partial, C120_flags, C120_first, C120_sample, C120_ransac; the examples have four pairs in float64, one of them an outlier. Missing: poses within eta of a half turn of each other; relative errors above 1/10; RANSAC that classifies inliers by the RMSE without refining the model; outliers that agree with the hand in the scalar parts, which these tests cannot see. That numpy.linalg.svd is backward stable is assumed.
* **C121** C121_exact (without rounding it is the preparation of calibrationScript), C121_lengths, C121_prepared, C121_baseline, C121_rotation_partial, C121_motion_partial (RANSAC and exhaustive search); with outliers C121_outliers (no condition on the first row, which may be one), C121_outliers_rotation_partial, C121_outliers_motion_partial, C121_outliers_baseline_partial; the examples have two rows in float64 with errors of 0.1 mm and 0.0001, and four rows with an outlier. Missing in the partial ones: poses within eta of a half turn of each other, prepared errors above 1/100, outliers below the tolerance of C120, and with outliers a classification by the RMSE without refinement. That numpy.linalg.svd is backward stable is assumed; the text of the files is in Model/Csv.lean and not rounded here.

## Trusted base

* Lean 4.33's kernel, and the axioms `propext`, `Classical.choice`, `Quot.sound` (reached through Mathlib's
  real numbers). No other axiom, no `sorry`, no `native_decide`, no `bv_decide`.
* The reading of the Python text into the definitions in `Verif/Model`. This is by inspection; the
  line citations are there so that it can be checked.
* The documented semantics of numpy/scipy/Python library calls used (`isclose`, `allclose`, `clip`, `argmax`,
  `correlate`, `bisect_left`, `itertools.combinations`, `%`-formatting, `csv`).

## Not modelled

* Floating-point rounding, except for the quaternion and dual quaternion classes, the alignment of paths, the offset, the evaluation of calibrations, the time alignment and the hand-eye solver (C89, C90, C97, C110-C115;
  without overflow and underflow); all other models are over the reals; wall-clock `runtime` values; how matplotlib draws (the values it is given are modelled, C77-C79, C83, C84); printing (except where a
  printed number is the property); the syntax of `argparse` and `gflags` that the scripts do not use (C93).
* In `target_extractor.cc`: the libraries (detector, pose estimation, Eigen, cameras, cv_bridge), which are parameters of the model; drawing. In
  `batch_estimator.cc`: the estimator itself (`aslam_calibration`) and its configuration tree. The external optimisers.
* ROS itself: bags are lists of messages, tf lookups an arbitrary function.
* `numpy.linalg.svd` and `matrix_rank` internals (exact decompositions in most properties, backward stable ones in C115).

## Disagreements between code and properties found while reading

1. `Quaternion.angle_axis` passes only `atol=1e-12` to `np.isclose`; `rtol=1e-5` stays active, so every rotation of
   up to about 0.5 degrees is reported as no rotation (C07). It does not treat w = -1.
2. `angular_velocity_between_quaternions` returns minus one half of the angular velocity (C10).
3. `from_rotation_matrix` divides by zero for half turns (C05).
4. `DualQuaternion.assert_normalization` tests the method object, so it never fires; `normalize` does not
   orthogonalise the dual part (C17).
5. `DualQuaternion.__eq__` is not symmetric and distinguishes q from -q (C19).
6. `to_pose` is ambiguous at w = 0 (C14).
7. The solver's `a != 0` assertion can refuse exact, well-conditioned data (C28); for half-turn X two non-parallel axes do not
   determine the calibration of the reduced system (C26).
8. RANSAC uses indices of the prefiltered list to align the unfiltered list (C42); it does not terminate if samples are
   rejected forever (C40).
9. BASELINE with exhaustive search reads an undefined name (C43).
10. `resample_quaternions_from_samples`: `isclose(sample, t, atol=1e-16)` is always true for Unix times, so no
    interpolation happens (C46).
11. `read_time_stamped_poses_from_csv_file` converts JPL quaternions only in one of its two results (C49).
12. `introduce_data_drops` may loop forever, and its default configuration is rejected by its own assertion (C54);
    `requiresUpdate` ignores missing outputs (C55); `create_path` raises if an ancestor is created concurrently or the
    path has no directory (C56); `tf_to_csv` counts failed lookups as exported poses and may divide by zero (C57);
    `ResultEntry` records prefiltering under a different attribute name than it writes (C58).
13. `from_angle_axis` uses a rotation axis shorter than 1e-16 unscaled, giving a non-unit quaternion (C06).
14. The screw axis of a tiny non-zero rotation depends on the frame (C18).
15. Flipping the sign of the first pose makes the solver fail, because the sign loop starts at the second pose (C31).
16. A table of poses that is written empty cannot be read back (C50).
17. `spoil_initial_guess` asserts things that need not hold: angles above a full turn, small angles, zero vectors (C60).
18. The last stamp of the higher-rate table never supports an aligned row (C62).
19. The percentile clipping of angular velocities clips one sign only: slow or reversed rotations vanish (C63), and two rigidly
    connected sensors may get a time offset as long as the recording (C64).
20. `resample_quaternions` rounds the number of samples, so that the period is not the requested one (C65).
21. The plotting tools ask for 24 columns, the experiments write 23 (C68).
22. A failed calibration of one pair ends the whole iteration of an experiment in an exception (C69).
23. At Unix times an aligned row has an interpolated position with the orientation of the next recorded pose (C70).
24. The default filter settings limit the two velocity signals to different percentiles; a recording compared with itself may get
    a non-zero time offset (C73).
25. `calculate_time_offset` resamples with the larger of the two mean steps; its comments say the smaller.
26. `compute_aligned_poses.py` uses converted JPL quaternions for the time offset only; the poses that it aligns and writes are not
    converted (C74).
27. `generate_plots.py` raises KeyError, and shows nothing, if all runs of one algorithm failed on one dataset; IndexError for more than
    seven datasets; ZeroDivisionError if no row counts (C77).
28. The error plot raises AssertionError if a perturbation is exactly at the end of the grid, or if some bin has another number of rows
    than the expected 60 (C78).
29. The ranges set in `optimization_experiments.py` (line 450) do not fit the plot set in `generate_plots.py` (line 323), and the default of
    two iterations never gives the 60 rows for each bin that `generate_plots.py` expects (C79).
30. Runs whose optimization failed count for the error plot, with the loop error -1 (C79).
31. `generate_test_paths` cannot be used with `paths_start_at_origin=False`: the second path is generated inside the first `if`, because of
    its indentation (C80).
32. The noise of `generate_test_path` conjugates the orientation with a random rotation, so it turns the axis and never changes the angle; the
    first orientation has no noise at all (C80).
33. If the first sample of exactly one of the two test paths is an outlier, no pair of poses satisfies the hand-eye equation any more until
    the paths are aligned again (C80).
34. `bag_to_csv_with_config.py` gives the same output file to bags with the same name in different directories, to bags whose names differ only
    after the first dot, and to frames or topics with underscores in unlucky places; the earlier table is overwritten. It ignores the exit
    codes of the tools (C81).
35. `target_extractor_interface.py` never passes on `inlier_ratio_for_good_camera_pose`, and reads the bag from a global variable (C81).
36. `random_transform_as_dual_quaternion` draws transforms that are not finite for half turns, and its option has no effect, as the scalar
    part of `from_transformation_matrix` is never negative (C82).
37. The two tests `test_angular_velocity_between_quaternions` and `test_quaternions_interpolate` are empty, and most of the test of the division of
    dual quaternions is commented out (C82).
38. In the figure of the input data the panel "Norm of angular velocity" shows the same filtered norms as the panel next to it, titled
    "median filter"; the filter is a clipped mean (C83).
39. `plot_poses` defines six colours but accepts only five trajectories (`<` for `<=`, C84).
40. `plot_poses` scales its arrows with the extent of the positions, so that the orientations of a sensor that only turns are invisible; heads
    of arrows can be cut off, as the axes are limited to the positions (C84).
41. `compute_set_of_hand_eye_calibrations.py`:101 sets `plot_every_nth_pose` of the configuration; the attribute that is read is called
    `visualize_plot_every_nth_pose`, so that the option has no effect on the figures of the evaluation (C84_option_refuted).
42. `compute_hand_eye_calibration` makes the signs of the scalar parts of a pair equal. For rotations by almost 180 degrees the signs are
    noise; the loop can turn a good pair into a wrong one, and the solver then returns a rotation that is wrong by 180 degrees while the
    singular values look good (C85).
43. `target_extractor.cc` declares `aslam::Camera::Ptr camera;`, which is null, and calls `camera->deserializeFromFile(...)` on it; even if the
    call came back, `CHECK(camera)` fails. No run writes a camera pose (C86).
44. The flags of `target_extractor.cc` call the poses `T_C_G` with JPL quaternions. The rows hold the position of the camera in the frame
    of the target and the Hamilton quaternion of `T_G_C`. Read with the JPL flag of `csv_io`, the rotation is that of `T_C_G` and the
    position that of `T_G_C` (C86).
45. The target extractor writes a header by default, which `csv_io` cannot read (ValueError) and the batch estimator cannot either
    (`std::stod` throws). The interface script switches it off (C86, C87).
46. `batch_estimator.cc` documents its input as `[frame_id, x[mm], ...]`; it is given tables with time stamps and metres, and does not
    convert anything. It rejects quaternions whose length is off by more than 1e-8, which `csv_io` normalises, and reads `0.5.7` as
    `0.5`, which `csv_io` rejects (C87).
47. `compute_complete_handeye_calibration.sh` has no `set -e`: after a failed alignment it calibrates with the aligned tables and the
    time offset that an earlier run left, and its exit code is that of the batch estimator only. Its variables are not quoted, so that
    paths with spaces are split (C88).
48. `angle_between_quaternions` does not clip the argument of `np.arccos`: in float64 two unit quaternions less than 1e-10 rad apart (but not equal
    up to 1e-12) can give 1 + 2^-52 and thus nan, also for the orientation error of `compute_pose_error` (C89).
49. `align_paths_at_index` compares the dual part of the first pose with zero up to an absolute 1e-8: for translations of some 1e8 m (or
    the same number of smaller units) rounding errors alone make the assertion fail (C90).
50. RANSAC does not prefer calibrations with more inliers, and a candidate replaces the best one only if both errors are strictly smaller
    (dual_quaternion_hand_eye_calibration.py:869-870). A first candidate with orientation error zero is therefore final: with
    thirty measurements of one mounting and ten of another, shifted one, the exhaustive search reports the shifted one
    (`C92_majority_refuted`).
51. `type=bool` does not parse words: every text that is not empty is true (compute_aligned_poses.py:52,
    compute_hand_eye_calibration.py:54, compute_set_of_hand_eye_calibrations.py:48, optimization_experiments.py:406).
    `--visualize False` visualises (`C93_false_refuted`), and the shell script, which passes `--visualize=0`
    (compute_complete_handeye_calibration.sh:25), opens the plots (`C93_script_refuted`).
52. File names are put into commands without quotes, and `run` splits the commands with `shlex.split`
    (bash_utils.py:22). With a space in a name the batch estimator reads the file whose name ends at the space and ignores the rest
    (`C93_space_refuted`); a name may add options (`C93_injection_refuted`); backslashes vanish (`C93_quotes_refuted`).
53. The flags of `--is_absolute_pose_sensor` have no effect: `.lower()` is applied to the whole configuration text
    (compute_set_of_hand_eye_calibrations.py:223-225, optimization_experiments.py:288-290), so the batch estimator gets
    `pose1/absolutemeasurements`, which no one reads, and uses `absoluteMeasurements` of config.info (:13 true, :41 false). With
    the flags 0 0 0 of the README the first sensor of every pair is still absolute (`C94_flags_refuted`).
54. The prefilter compares the screw axes of the poses in the world frame, not of relative motions (HE.py:659-673), so the
    outcome of RANSAC depends on the world frame: exact data calibrate in one frame and raise an AssertionError in another
    (`C95_prefilter_refuted`). compute_hand_eye_calibration.py aligns the trajectories before, which hides this (`C95_script`).
55. As a consequence of 8 (C42), whether compute_hand_eye_calibration.py finds a calibration can depend on the order of the rows: if the
    prefilter leaves k poses, only the first k rows of the tables are ever used as a base, and if these are outliers there
    is no result and the script ends with an AttributeError (`C96_first_refuted`).
56. As a consequence of the angle that is not a number (C89), a candidate of RANSAC that fits is dropped without a message when one pair of poses differs by
    a rounding error only: its orientation error is nan, and `rmse_orientation < best_rmse_orientation` is then false, also against `np.inf`
    (`C97_refuted`).  Clipping the argument of `np.arccos`, as `quaternion_slerp` does, would avoid it.
57. A name of the configuration that begins with a dash (a frame `-imu`, or a bag `-1.bag` with an empty `bag_path`) is taken as an option by `argparse`
    in the tool that gets it; the tool exits with status 2, `call` ignores the status, and the table is missing without a message from the script itself
    (`C98_dash_refuted`).  Also, `configs/falcon.yaml` refers to a `target.yaml` that is not in `calib/` and lists one bag twice.
58. The command for the time alignment in README.md:123-127 does not work: in line 125 a backslash is followed by a blank and another option instead of the
    end of the line, so the option gets a blank as its first character and `argparse` rejects the command (`C99_align_refuted`).  The command of the
    second experiment (`hand_eye_calibration_experiments/README.md`:47-54) ends with a backslash (`C99_backslash_refuted`).
59. `Quaternion` keeps integers as `int64` (quaternion.py:23), so that norms and products of components of more than 1518500249 wrap around: the norm may
    become `nan`, 0 or 1, and `normalize` and `from_pose` then return quaternions that are not normalized (`C100_sharp_refuted`, `C100_wrap_refuted`).
    The docstring offers `Quaternion(q=[x, y, z, w])` (quaternion.py:13), which fails with an AssertionError (`C100_list_refuted`).
60. The processes of the pool (optimization_experiments.py:537) are forked with the same state of `np.random` and are not seeded, so experiments that run at
    the same place in different processes spoil their initial guesses in the same direction (`C101_pieces_refuted`, `C101_direction_refuted`).  With the
    default settings the first 64 of 240 experiments use eight sets of numbers.
    The names of the files contain the global variable `iteration` (lines 264-275, 293-303) instead of the argument `iteration_idx`, so all of them state the
    last iteration (`C101_label_refuted`).
61. The solver chooses between the two roots of its quadratic (dual_quaternion_hand_eye_calibration.py:274-291) by the length of the rotation part of
    `s v_7 + v_8` without regard to the length of the dual part.  If the rotation half of the seventh right-singular vector is short, the wrong root has the
    longer rotation part: with arbitrarily small noise, no rotation near a half turn and good singular values the solver returns a rotation that is off by almost
    180 degrees and a translation of the order of one over the noise (`C85_wrong_root_refuted`).
62. `get_basic_config` (algorithm_config.py:38-41) asks RANSAC for a confidence of 99 % with half of the measurements being outliers, and limits it to 20 samples.
    With the three measurements per sample of the classic RANSAC (algorithm_config.py:74), 35 samples are needed (dual_quaternion_hand_eye_calibration.py:898-908):
    the limit always comes first, every run ends after exactly 20 samples with a confidence below 94 %, and the early abort never happens (`C105_confidence_refuted`).
63. `assert a != 0.0` (dual_quaternion_hand_eye_calibration.py:259) rejects a linear equation in `s`, which has a solution: with `a = 0` one of the two roots is that of the
    seventh right-singular vector alone, and the other is `-c / b`. Measurements with arbitrarily small noise that is balanced (two poses off by the same amount in
    opposite directions) make every correct library return such vectors, and the solver fails although the mounting is well determined (`C106_balanced_refuted`).
64. The number of iterations for the early abort (dual_quaternion_hand_eye_calibration.py:898-908) is computed from the power of the share of inliers, but `random.sample`
    draws without replacement, so a smaller share of the samples is free of outliers: even if every sample is evaluated and the outliers are exactly as many as configured,
    the probability in the printed message ("Reached a 99.0% probability that RANSAC succeeded in finding a sample containing only inliers") is overstated
    (`C108_confidence_refuted`); with ten outliers among 20 poses it is below 98 %. Samples rejected beforehand are not counted, which has the opposite effect.
65. With two groups of exact measurements the random search does not find the mounting that most pairs support with a probability tending to one: the smaller group wins
    whenever one of its samples is the first to be evaluated, with the probability given in C109 (`C109_minority`: ten pairs win against thirty in almost three
    percent of the runs, and with the configuration RS_no_filter of the experiments in a quarter, `C109_RS`), because only a candidate that is better in both errors replaces the best one (dual_quaternion_hand_eye_calibration.py:869-873).
66. In floating-point arithmetic `resample_quaternions` (time_alignment.py:97-98) can make one sample less than there are poses, because it takes the integer part of a quotient
    that is a whole number in exact arithmetic: eight poses at 0, 1, 2, 3, 4, 5, 7, 9 seconds give seven samples (`C111_refuted`); computing the same formula by hand for time stamps 0.02 s apart shows
    the same for many numbers of poses, e.g. 17. The samples are then spread over the same time, so that they are more than
    `dt` apart, while the correlation of the two signals takes the steps of both recordings as equal. `C111_count_partial`: it is never more than one sample.
67. In floating-point arithmetic `compute_hand_eye_calibration` (dual_quaternion_hand_eye_calibration.py:259-299) returns dual quaternions that are not unit to rounding accuracy, even for exact data: the smaller root of
    the quadratic equation is computed as the difference of two nearly equal numbers, and can come out as 0 instead of -2^-28, which leaves a product of real and dual part of 3.7e-9 (`C115_rigid_refuted`, float64, all
    poses float64 numbers). The motion that the result stands for is not affected (`C115_motion_partial`). `normalize`, which the code calls "to get rid of numerical errors" (line 295), only scales (disagreement 4).
