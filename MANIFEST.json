{
 "claims": [
  {
   "property": "C01",
   "status": "proved",
   "theorems": [
    "HandEye.C01_agrees_with_hamilton",
    "HandEye.C01_laws"
   ],
   "note": "The operators are the Hamilton product, sum, scaling and conjugation, for all quaternions; ring laws follow."
  },
  {
   "property": "C02",
   "status": "proved",
   "theorems": [
    "HandEye.C02_inverse",
    "HandEye.C02_inverse_zero",
    "HandEye.C02_division",
    "HandEye.C02_scalar_division"
   ],
   "note": "Two-sided inverse and division for every non-zero quaternion; for zero the code has no finite result."
  },
  {
   "property": "C03",
   "status": "proved",
   "theorems": [
    "HandEye.C03_matrix",
    "HandEye.C03_sandwich",
    "HandEye.C03_isometry",
    "HandEye.C03_composition"
   ],
   "note": "For all unit quaternions and all vectors."
  },
  {
   "property": "C04",
   "status": "proved",
   "theorems": [
    "HandEye.C04_special_orthogonal",
    "HandEye.C04_homomorphism",
    "HandEye.C04_transformation_matrix"
   ],
   "note": "For all unit quaternions."
  },
  {
   "property": "C05",
   "status": "partial",
   "theorems": [
    "HandEye.C05_quaternion_roundtrip",
    "HandEye.C05_matrix_roundtrip_partial",
    "HandEye.C05_halfturn_refuted",
    "HandEye.C05_halfturn_quaternion_refuted"
   ],
   "note": "Round trip proved whenever the trace is not -1; at half turns the code divides by zero (C05_halfturn_refuted)."
  },
  {
   "property": "C06",
   "status": "partial",
   "theorems": [
    "HandEye.C06_from_angle_axis_partial",
    "HandEye.C06_short_axis_refuted"
   ],
   "note": "Proved for axes longer than the cut-off 1e-16; a shorter non-zero axis gives a non-unit quaternion (C06_short_axis_refuted)."
  },
  {
   "property": "C07",
   "status": "partial",
   "theorems": [
    "HandEye.C07_roundtrip_partial",
    "HandEye.C07_tolerance_branch",
    "HandEye.C07_small_rotations_refuted",
    "HandEye.C07_full_turn_refuted"
   ],
   "note": "Round trip proved outside of the tolerance branch; every rotation below 0.51 degrees is reported as none, and w = -1 has no finite result (refuted theorems)."
  },
  {
   "property": "C08",
   "status": "proved",
   "theorems": [
    "HandEye.C08_endpoints",
    "HandEye.C08_out_of_range",
    "HandEye.C08_slerp",
    "HandEye.C08_textbook_formula"
   ],
   "note": "Angle from both ends, length (within the stated 1e-16), end points, refusal outside [0,1], and the textbook closed form."
  },
  {
   "property": "C09",
   "status": "proved",
   "theorems": [
    "HandEye.C09_success_iff",
    "HandEye.C09_result"
   ],
   "note": "Exact success condition, one result per time, end points and proportional angle."
  },
  {
   "property": "C10",
   "status": "partial",
   "theorems": [
    "HandEye.C10_value_partial",
    "HandEye.C10_refuted"
   ],
   "note": "Refuted as stated: the code returns minus one half of the angular velocity (C10_refuted); C10_value_partial gives the value it does return, including the tolerance branch."
  },
  {
   "property": "C11",
   "status": "proved",
   "theorems": [
    "HandEye.C11_value",
    "HandEye.C11_self",
    "HandEye.C11_bi_invariant",
    "HandEye.C11_symmetric",
    "HandEye.C11_antipode"
   ],
   "note": "Value, range, zero on equal arguments, bi-invariance and symmetry outside of the tolerance branch; a bound inside it."
  },
  {
   "property": "C12",
   "status": "proved",
   "theorems": [
    "HandEye.C12_agrees_with_dual_numbers",
    "HandEye.C12_laws"
   ],
   "note": "Homomorphism into dual numbers over the quaternions, and the algebra laws."
  },
  {
   "property": "C13",
   "status": "proved",
   "theorems": [
    "HandEye.C13_fails_iff",
    "HandEye.C13_inverse"
   ],
   "note": "Exact failure condition; two-sided inverse for every dual quaternion on which it succeeds."
  },
  {
   "property": "C14",
   "status": "partial",
   "theorems": [
    "HandEye.C14_pose_roundtrip",
    "HandEye.C14_positive_multiples",
    "HandEye.C14_sign_partial",
    "HandEye.C14_halfturn_refuted"
   ],
   "note": "Pose round trip and positive multiples proved; sign invariance proved up to half turns, where it fails (C14_halfturn_refuted)."
  },
  {
   "property": "C15",
   "status": "proved",
   "theorems": [
    "HandEye.C15_rotate_then_translate",
    "HandEye.C15_composition",
    "HandEye.C15_isometry",
    "HandEye.C15_active_inverts_passive"
   ],
   "note": "Rotation-then-translation, composition, isometry, active inverts passive, for all unit dual quaternions and points."
  },
  {
   "property": "C16",
   "status": "proved",
   "theorems": [
    "HandEye.C16_rigid",
    "HandEye.C16_product",
    "HandEye.C16_roundtrip"
   ],
   "note": "Homogeneous rigid matrix, product law, and the round trip except at half turns as the property states."
  },
  {
   "property": "C17",
   "status": "partial",
   "theorems": [
    "HandEye.C17_normalize_partial",
    "HandEye.C17_normalize_refuted",
    "HandEye.C17_constructor_refuted"
   ],
   "note": "Refuted as stated: normalize() does not establish is_normalized() (C17_normalize_refuted), and the constructor never rejects (C17_constructor_refuted). Proved for orthogonal parts."
  },
  {
   "property": "C18",
   "status": "partial",
   "theorems": [
    "HandEye.C18_parameters",
    "HandEye.C18_congruence_partial",
    "HandEye.C18_tiny_rotation_refuted"
   ],
   "note": "Parameters proved; conjugation invariance proved above the cut-off and for pure translations; refuted for tiny non-zero rotations."
  },
  {
   "property": "C19",
   "status": "partial",
   "theorems": [
    "HandEye.C19_reflexive",
    "HandEye.C19_nearly_symmetric_partial",
    "HandEye.C19_symmetry_refuted",
    "HandEye.C19_same_motion_refuted"
   ],
   "note": "Reflexive; symmetry and equality of equal motions are refuted; near-symmetry proved."
  },
  {
   "property": "C20",
   "status": "proved",
   "theorems": [
    "HandEye.C20_reads"
   ],
   "note": "For every sequence of reads."
  },
  {
   "property": "C21",
   "status": "proved",
   "theorems": [
    "HandEye.C21_align",
    "HandEye.C21_bad_index"
   ],
   "note": "For all trajectories and all indices, negative ones included; failure exactly at indices that name no element."
  },
  {
   "property": "C22",
   "status": "proved",
   "theorems": [
    "HandEye.C22_gauge",
    "HandEye.C22_signs",
    "HandEye.C22_idempotent",
    "HandEye.C22_sign_visible"
   ],
   "note": "Gauge invariance, signs and idempotence for all unit trajectories."
  },
  {
   "property": "C23",
   "status": "proved",
   "theorems": [
    "HandEye.C23_offset_trajectory"
   ],
   "note": "For all unit trajectories and offsets."
  },
  {
   "property": "C24",
   "status": "proved",
   "theorems": [
    "HandEye.C24_scalar_parts",
    "HandEye.C24_gate"
   ],
   "note": "For all exact data: equal scalar parts, so the gate passes for every non-negative tolerance and T is built."
  },
  {
   "property": "C25",
   "status": "proved",
   "theorems": [
    "HandEye.C25_true_calibration_solves"
   ],
   "note": "For all exact data of any length."
  },
  {
   "property": "C26",
   "status": "partial",
   "theorems": [
    "HandEye.C26_kernel_partial",
    "HandEye.C26_unique_partial",
    "HandEye.C26_perpendicular_halfturn_refuted",
    "HandEye.C26_halfturn_refuted"
   ],
   "note": "Kernel and uniqueness proved except where X is a half turn about an axis perpendicular to every rotation axis; there it is refuted (C26_perpendicular_halfturn_refuted, C26_halfturn_refuted)."
  },
  {
   "property": "C27",
   "status": "proved",
   "theorems": [
    "HandEye.C27_exact_recovery",
    "HandEye.C27_exact_recovery_positive"
   ],
   "note": "For every valid singular value decomposition; half turns are covered too unless perpendicular to all rotation axes. Such decompositions exist (Lemmas/SvdExists)."
  },
  {
   "property": "C28",
   "status": "partial",
   "theorems": [
    "HandEye.C28_outcome_partial",
    "HandEye.C28_orthogonal_halves_refuted"
   ],
   "note": "Outcome decided by one inner product of the seventh right-singular vector (C28_outcome_partial). As stated it is refuted: for every exact data set some valid decomposition makes the solver fail an assertion."
  },
  {
   "property": "C29",
   "status": "proved",
   "theorems": [
    "HandEye.C29_returned_calibration",
    "HandEye.C29_best_combination"
   ],
   "note": "For arbitrary data and arbitrary output of the linear algebra library."
  },
  {
   "property": "C30",
   "status": "proved",
   "theorems": [
    "HandEye.C30_flag",
    "HandEye.C30_flag_exact"
   ],
   "note": "Quantified form of the flag for all runs; on exact data the sixth singular value decides."
  },
  {
   "property": "C31",
   "status": "partial",
   "theorems": [
    "HandEye.C31_sign_pattern_partial",
    "HandEye.C31_first_pose_refuted"
   ],
   "note": "Proved for every pose but the first; flipping the first pose makes the solver fail (C31_first_pose_refuted)."
  },
  {
   "property": "C32",
   "status": "proved",
   "theorems": [
    "HandEye.C32_selection",
    "HandEye.C32_unit_trajectories"
   ],
   "note": "Selection by greedy removal; the kept poses are a sublist, pairwise not close, and every dropped pose is unusable or close to a kept one."
  },
  {
   "property": "C33",
   "status": "proved",
   "theorems": [
    "HandEye.C33_idempotent"
   ],
   "note": "Running the filter on its own output returns it unchanged."
  },
  {
   "property": "C34",
   "status": "proved",
   "theorems": [
    "HandEye.C34_value",
    "HandEye.C34_self",
    "HandEye.C34_sign",
    "HandEye.C34_position"
   ],
   "note": "Value, self distance, sign invariance outside the 1e-5 tolerance branch, and metric laws of the position error."
  },
  {
   "property": "C35",
   "status": "proved",
   "theorems": [
    "HandEye.C35_evaluation",
    "HandEye.C35_rejects"
   ],
   "note": "Every evaluated list; lists of different lengths and empty lists are never evaluated (C35_rejects)."
  },
  {
   "property": "C36",
   "status": "proved",
   "theorems": [
    "HandEye.C36_perfect_up_to_sign",
    "HandEye.C36_perfect_calibration"
   ],
   "note": "The hand poses must be expressed relative to the first one (its pose is the identity), which is what align_paths_at_index produces."
  },
  {
   "property": "C37",
   "status": "proved",
   "theorems": [
    "HandEye.C37_best_candidate",
    "HandEye.C37_candidate"
   ],
   "note": "The samples drawn are pinned down by the course of the run (Spec.Course, unique: course_unique); the result is a candidate that no other one beats in both errors, with the errors and inlier count of that candidate."
  },
  {
   "property": "C38",
   "status": "proved",
   "theorems": [
    "HandEye.C38_success_iff"
   ],
   "note": "Success iff some drawn sample became a candidate; otherwise the exact failure tuple."
  },
  {
   "property": "C39",
   "status": "proved",
   "theorems": [
    "HandEye.C39_exhaustive",
    "HandEye.C39_terminates",
    "HandEye.C39_deterministic"
   ],
   "note": "All combinations once each, termination within their number, independence of the random generator."
  },
  {
   "property": "C40",
   "status": "partial",
   "theorems": [
    "HandEye.C40_budget_partial",
    "HandEye.C40_all_evaluated_partial",
    "HandEye.C40_never_ends_refuted",
    "HandEye.C40_unbounded_refuted"
   ],
   "note": "Refuted as stated: rejected samples do not count, and there are inputs on which the loop never ends whatever is drawn (C40_never_ends_refuted, C40_unbounded_refuted). Proved: a running loop has evaluated fewer than max samples, and it ends if all draws are evaluated."
  },
  {
   "property": "C41",
   "status": "proved",
   "theorems": [
    "HandEye.C41_confidence",
    "HandEye.C41_early_stop"
   ],
   "note": "The abort test is the stated probability bound; a run that stops early satisfies it."
  },
  {
   "property": "C42",
   "status": "partial",
   "theorems": [
    "HandEye.C42_alignment_partial",
    "HandEye.C42_prefilter_refuted"
   ],
   "note": "Without prefilter the alignment is at the first sampled pose. With prefilter the property is refuted: the index refers to the filtered list but is applied to the unfiltered one, so a sample of three perfect pairs is rejected (C42_prefilter_refuted)."
  },
  {
   "property": "C43",
   "status": "partial",
   "theorems": [
    "HandEye.C43_exhaustive_refuted",
    "HandEye.C43_outcome_partial",
    "HandEye.C43_noise_free_partial",
    "HandEye.C43_index_refuted"
   ],
   "note": "Refuted: with exhaustive search no input gives a result (undefined variable); without it an unused alignment raises IndexError although enough pairs agree (C43_index_refuted). Proved: the exact outcome for all unit trajectories without exhaustive search, and exact recovery on noise-free data."
  },
  {
   "property": "C44",
   "status": "proved",
   "theorems": [
    "HandEye.C44_shift"
   ],
   "note": "Shifts of either clock, all signals, including the failing ones."
  },
  {
   "property": "C45",
   "status": "proved",
   "theorems": [
    "HandEye.C45_delay"
   ],
   "note": "Uniqueness of the correlation maximum is proved for all non-zero signals (strict Cauchy-Schwarz)."
  },
  {
   "property": "C46",
   "status": "partial",
   "theorems": [
    "HandEye.C46_resample_partial",
    "HandEye.C46_recorded",
    "HandEye.C46_out_of_range",
    "HandEye.C46_unix_refuted",
    "HandEye.C46_refuted"
   ],
   "note": "Refuted for absolute times: the recorded sample after a query is taken if it is within 1e-5 of its absolute value, so at Unix times every query snaps to the next recorded orientation (C46_unix_refuted, C46_refuted). Proved for all queries further away than that, and without restriction at recorded times."
  },
  {
   "property": "C47",
   "status": "proved",
   "theorems": [
    "HandEye.C47_rows"
   ],
   "note": "Times of the rows characterised exactly; tables strictly increasing with at least two rows."
  },
  {
   "property": "C48",
   "status": "proved",
   "theorems": [
    "HandEye.C48_filter",
    "HandEye.C48_limit_nonneg",
    "HandEye.C48_negative_limit"
   ],
   "note": "For a non-negative percentile, as stated; C48_negative_limit says what happens otherwise."
  },
  {
   "property": "C49",
   "status": "partial",
   "theorems": [
    "HandEye.C49_quaternions_partial",
    "HandEye.C49_refuted"
   ],
   "note": "The returned quaternion list is converted (C49_quaternions_partial); the returned pose array is not, for every table in which some rotation has a vector part (C49_refuted). Reading the text of the file is covered by C50."
  },
  {
   "property": "C50",
   "status": "partial",
   "theorems": [
    "HandEye.C50_round_trip_partial",
    "HandEye.C50_unit_quaternion",
    "HandEye.C50_empty_refuted"
   ],
   "note": "Proved through the printed text, character by character, for non-empty tables whose quaternions are not printed as zero; for unit quaternions each component comes back within 1.5e-18. The file written for an empty table cannot be read (C50_empty_refuted)."
  },
  {
   "property": "C51",
   "status": "proved",
   "theorems": [
    "HandEye.C51_round_trip",
    "HandEye.C51_other_convention"
   ],
   "note": "For every dual quaternion with non-zero real part: same flags give the same offset and motion and a unit dual quaternion; different flags keep offset and translation and invert the rotation. The JSON text is not modelled."
  },
  {
   "property": "C52",
   "status": "proved",
   "theorems": [
    "HandEye.C52_product",
    "HandEye.C52_circle"
   ],
   "note": "Associativity, unit, offsets and motions of products, and the product printed by computeCircle for any number of calibrations."
  },
  {
   "property": "C53",
   "status": "proved",
   "theorems": [
    "HandEye.C53_edges",
    "HandEye.C53_consistent",
    "HandEye.C53_value"
   ],
   "note": "The chain for every number of sets in the order of itertools.combinations, the value of the error for unit results, and zero error for consistent ones."
  },
  {
   "property": "C54",
   "status": "partial",
   "theorems": [
    "HandEye.C54_exact_partial",
    "HandEye.C54_no_error_partial",
    "HandEye.C54_can_finish_partial",
    "HandEye.C54_endless_refuted",
    "HandEye.C54_everything_refuted",
    "HandEye.C54_fraction_refuted",
    "HandEye.C54_default_refuted",
    "HandEye.C54_uniform",
    "HandEye.C54_almost_surely_partial"
   ],
   "note": "Whenever introduce_data_drops returns, exactly the requested samples are gone (or None) and the rest are unchanged and in order; no error for whole numbers; some draws finish it. Termination for all draws is refuted (zero draws loop for ever; dropping everything, or a fractional number of samples, can never finish) and the default configuration is rejected by its own assertion. With uniform draws it ends with probability one, after at most 2nk rounds on average (C54_almost_surely_partial, C54_uniform)."
  },
  {
   "property": "C55",
   "status": "partial",
   "theorems": [
    "HandEye.C55_value",
    "HandEye.C55_all_present_partial",
    "HandEye.C55_extremes_partial",
    "HandEye.C55_crash_outdated_partial",
    "HandEye.C55_crash_refuted",
    "HandEye.C55_stuck_refuted",
    "HandEye.C55_dependencies"
   ],
   "note": "requires_update is characterised exactly, and steps whose outputs are all present are re-run when an input is newer. Refuted: after a crash in a first run that wrote some but not all outputs, the step is skipped (C55_crash_refuted), and the next step then fails on every later run (C55_stuck_refuted)."
  },
  {
   "property": "C56",
   "status": "partial",
   "theorems": [
    "HandEye.C56_returns_partial",
    "HandEye.C56_works_partial",
    "HandEye.C56_alone_partial",
    "HandEye.C56_idempotent",
    "HandEye.C56_race_refuted",
    "HandEye.C56_bare_refuted",
    "HandEye.C56_errors"
   ],
   "note": "Whenever create_path returns, the parent is a directory; it is idempotent. Refuted: a concurrent creation of an ancestor makes it raise (C56_race_refuted), and a bare file name raises (C56_bare_refuted)."
  },
  {
   "property": "C57",
   "status": "partial",
   "theorems": [
    "HandEye.C57_rows",
    "HandEye.C57_count_partial",
    "HandEye.C57_returns_partial",
    "HandEye.C57_crash_refuted",
    "HandEye.C57_count_refuted"
   ],
   "note": "The rows are exactly the successful lookups in bag order. Refuted: the reported count differs once lookups fail after the first success (C57_count_refuted), and when more than two lookups fail after the only successful one the export ends in a division by zero (C57_crash_refuted)."
  },
  {
   "property": "C58",
   "status": "partial",
   "theorems": [
    "HandEye.C58_writes",
    "HandEye.C58_columns_partial",
    "HandEye.C58_prefiltering_refuted",
    "HandEye.C58_comma_refuted"
   ],
   "note": "Refuted for the prefiltering column, which always says False (C58_prefiltering_refuted), and for values with a comma (C58_comma_refuted). Proved for all other columns of the configuration and for the names, flags and errors of the pair, reading the line under the printed header."
  },
  {
   "property": "C59",
   "status": "proved",
   "theorems": [
    "HandEye.C59_names_injective",
    "HandEye.C59_outcome",
    "HandEye.C59_methods",
    "HandEye.C59_groups",
    "HandEye.C59_every_row",
    "HandEye.C59_per_dataset",
    "HandEye.C59_spoiled"
   ],
   "note": "For all tables. The text of the translation offset (parsed at lines 95-102) is not modelled; the row holds its norm."
  },
  {
   "property": "C60",
   "status": "partial",
   "theorems": [
    "HandEye.C60_spoil_partial",
    "HandEye.C60_full_turn_refuted",
    "HandEye.C60_zero_refuted",
    "HandEye.C60_small_refuted",
    "HandEye.C60_script_ranges"
   ],
   "note": "Proved for non-negative ranges, angles up to a full turn, angle ranges that begin at 0 or at 1e-4 at least, and draws without a zero vector; the ranges of the script are covered (C60_script_ranges). Refuted otherwise: C60_full_turn_refuted, C60_zero_refuted, C60_small_refuted. A turn below 1e-4 rad may be reported as 0."
  },
  {
   "property": "C61",
   "status": "proved",
   "theorems": [
    "HandEye.C61_noise_free",
    "HandEye.C61_succeeds"
   ],
   "note": "Scalar-part classification mode. The success half assumes that the solver returns on the aligned data (see C28); body_run shows this is satisfiable."
  },
  {
   "property": "C62",
   "status": "partial",
   "theorems": [
    "HandEye.C62_kept_partial",
    "HandEye.C62_refuted"
   ],
   "note": "Refuted: the last stamp of the higher-rate table never supports a row, so equal tables lose their last row (C62_refuted). Proved: everything supported without that last stamp is kept, and nothing after the last but one stamp is."
  },
  {
   "property": "C63",
   "status": "partial",
   "theorems": [
    "HandEye.C63_refuted",
    "HandEye.C63_symmetric_partial"
   ],
   "note": "Refuted: a constant rotation about a negative axis is clipped to zero while its reverse passes (C63_refuted, all lengths, rates and kernel sizes). Proved when both signals have the same non-negative percentile."
  },
  {
   "property": "C64",
   "status": "partial",
   "theorems": [
    "HandEye.C64_velocity_partial",
    "HandEye.C64_refuted"
   ],
   "note": "Refuted through the whole of calculate_time_offset: for two rigidly connected, synchronised sensors the offset found is the whole duration of the data (C64_refuted). Proved: the unfiltered angular velocities have equal length."
  },
  {
   "property": "C65",
   "status": "partial",
   "theorems": [
    "HandEye.C65_spacing_partial",
    "HandEye.C65_refuted"
   ],
   "note": "Refuted: two recordings resampled with the same requested period get different periods (C65_refuted). Proved: the exact step, its bounds, and that it is dt iff the range is a whole number of periods."
  },
  {
   "property": "C66",
   "status": "proved",
   "theorems": [
    "HandEye.C66_regular",
    "HandEye.C66_one_missing"
   ],
   "note": "Exact real arithmetic; the times of a constant-rate stream and of one with a single missing sample."
  },
  {
   "property": "C67",
   "status": "proved",
   "theorems": [
    "HandEye.C67_names"
   ],
   "note": "Over the fixed list of 16 configurations and that of optimization_experiments."
  },
  {
   "property": "C68",
   "status": "partial",
   "theorems": [
    "HandEye.C68_header",
    "HandEye.C68_refuted",
    "HandEye.C68_single_refuted",
    "HandEye.C68_dataset_partial"
   ],
   "note": "Refuted: the reader asks for 24 columns, the writer writes 23, so every non-empty set of files is a ValueError (C68_refuted); and a single file with a single row is a TypeError even with the column added (C68_single_refuted). With the missing column added the rows are read in order (C68_dataset_partial)."
  },
  {
   "property": "C69",
   "status": "partial",
   "theorems": [
    "HandEye.C69_no_opt_refuted",
    "HandEye.C69_opt_refuted",
    "HandEye.C69_no_opt_partial",
    "HandEye.C69_opt_partial"
   ],
   "note": "Refuted: without optimization a failed pair of the loop ends the iteration in an exception (C69_no_opt_refuted), with optimization any failed calibration does (C69_opt_refuted). Proved for failed pairs outside the loop and for failures of the optimizer."
  },
  {
   "property": "C70",
   "status": "partial",
   "theorems": [
    "HandEye.C70_positions",
    "HandEye.C70_recorded",
    "HandEye.C70_orientations_partial",
    "HandEye.C70_unix_refuted"
   ],
   "note": "Positions proved. Orientations proved for rows further from the next stamp than 1e-5 of its value (C70_orientations_partial); refuted for stamps of Unix times: position interpolated, orientation that of the next recorded pose (C70_unix_refuted)."
  },
  {
   "property": "C71",
   "status": "proved",
   "theorems": [
    "HandEye.C71_perfect",
    "HandEye.C71_no_overlap",
    "HandEye.C71_errors"
   ],
   "note": "Full statement over the model (exact reals): zero errors for the true calibration, and for any rigid calibration and tables with the same stamps the errors are the root mean squares of the distances and of the angles between the poses of the hand and those that follow from the eye (C71_errors)."
  },
  {
   "property": "C72",
   "status": "proved",
   "theorems": [
    "HandEye.C72_noise_free",
    "HandEye.C72_no_result",
    "HandEye.C72_arguments",
    "HandEye.C72_succeeds"
   ],
   "note": "Full statement over the model (exact reals); success for some correct singular value decomposition, correctness for every one. A RANSAC run without success would end in AttributeError if files are asked for (C72_no_result)."
  },
  {
   "property": "C73",
   "status": "partial",
   "theorems": [
    "HandEye.C73_clock_offset_partial",
    "HandEye.C73_default_refuted",
    "HandEye.C73_experiments_refuted",
    "HandEye.C73_frames_partial"
   ],
   "note": "Proved for regular recordings with rates that are multiples of each other: in one frame, if both signals are filtered with the same kernel size and percentile (C73_clock_offset_partial); in different frames and for different percentiles, if no component of the rotation vectors exceeds the percentile limits (C73_frames_partial). Otherwise it is refuted for the default settings, which use different percentiles, even for a recording compared with itself (C73_default_refuted), and so for all configurations of the experiments (C73_experiments_refuted)."
  },
  {
   "property": "C74",
   "status": "partial",
   "theorems": [
    "HandEye.C74_format",
    "HandEye.C74_hamilton_partial",
    "HandEye.C74_jpl_refuted"
   ],
   "note": "Proved for Hamilton quaternions with the limits of C70 (C74_hamilton_partial), and the rejection of other formats (C74_format). For JPL quaternions the rows at recorded times are written unconverted (C74_jpl_refuted). Files are modelled by the numbers they hold."
  },
  {
   "property": "C75",
   "status": "proved",
   "theorems": [
    "HandEye.C75_end_to_end",
    "HandEye.C75_succeeds"
   ],
   "note": "Full statement over the model (exact reals; the files between the scripts hold exact numbers). The conditions on the motion are part of the statement; C73_default_refuted shows that the one on the percentile limits cannot be dropped."
  },
  {
   "property": "C76",
   "status": "proved",
   "theorems": [
    "HandEye.C76_pair",
    "HandEye.C76_circle",
    "HandEye.C76_succeeds"
   ],
   "note": "Full statement over the model (exact reals, a first run in which all steps are executed, exit codes as exceptions, the files hold exact numbers). The circle after the batch estimator, a C++ program, is not part of the statement."
  },
  {
   "property": "C77",
   "status": "partial",
   "theorems": [
    "HandEye.C77_boxes_partial",
    "HandEye.C77_times_partial",
    "HandEye.C77_layout",
    "HandEye.C77_layout_times",
    "HandEye.C77_incomplete",
    "HandEye.C77_no_rows",
    "HandEye.C77_colors",
    "HandEye.C77_boxes_refuted"
   ],
   "note": "Proved if every algorithm has a row that counts on every dataset and there are at most seven datasets (C77_boxes_partial, C77_times_partial); the layout is proved for all inputs. Else all plots are lost: KeyError (C77_incomplete, C77_boxes_refuted), IndexError (C77_colors) or ZeroDivisionError (C77_no_rows). What matplotlib draws is not modelled."
  },
  {
   "property": "C78",
   "status": "partial",
   "theorems": [
    "HandEye.C78_matrices_partial",
    "HandEye.C78_outside",
    "HandEye.C78_count",
    "HandEye.C78_grids"
   ],
   "note": "Proved if all rows lie in the grids and each bin has the expected number of rows (C78_matrices_partial); else AssertionError (C78_outside, C78_count). Bins are over exact reals. What matplotlib draws is not modelled."
  },
  {
   "property": "C79",
   "status": "partial",
   "theorems": [
    "HandEye.C79_ranges",
    "HandEye.C79_inputs",
    "HandEye.C79_no_iterations",
    "HandEye.C79_rows",
    "HandEye.C79_error_plot_partial",
    "HandEye.C79_runs",
    "HandEye.C79_no_guess",
    "HandEye.C79_figures_partial",
    "HandEye.C79_count",
    "HandEye.C79_sixty_refuted",
    "HandEye.C79_defaults_refuted",
    "HandEye.C79_failed_refuted",
    "HandEye.C79_columns"
   ],
   "note": "Proved: the enumeration (C79_inputs), the ranges (C79_ranges), one row in range for each combination, iteration and pair (C79_rows), normal end (C79_runs), and for fitting settings the figures (C79_error_plot_partial, C79_figures_partial). Refuted: the settings in the two scripts do not fit (C79_defaults_refuted), two iterations never give 60 rows (C79_sixty_refuted), failed optimizations enter the means with the value -1 (C79_failed_refuted). The rows are passed on as numbers; that the reader expects one more column is C68. evaluate_calibration is part of the optimizer here."
  },
  {
   "property": "C80",
   "status": "partial",
   "theorems": [
    "HandEye.C80_path",
    "HandEye.C80_exact",
    "HandEye.C80_no_samples",
    "HandEye.C80_other_start_refuted",
    "HandEye.C80_two_axes",
    "HandEye.C80_calibration",
    "HandEye.C80_outliers",
    "HandEye.C80_inliers",
    "HandEye.C80_first_outlier_refuted",
    "HandEye.C80_realigned",
    "HandEye.C80_noise_position",
    "HandEye.C80_noise_refuted",
    "HandEye.C80_negative_deviation",
    "HandEye.C80_prefilter",
    "HandEye.C80_succeeds"
   ],
   "note": "Proved: the curve (C80_path), exact data (C80_exact), two axes exactly from four samples on (C80_two_axes), so that every calibration that RANSAC reports is the given transform (C80_calibration); outliers are at least nine away (C80_outliers), the other pairs stay valid if the first sample is no outlier (C80_inliers), and always after aligning again at a good sample (C80_realigned); noise of the position (C80_noise_position). Refuted: paths that do not start at the origin are a NameError (C80_other_start_refuted); an outlier at the start of one path breaks every pair (C80_first_outlier_refuted); the noise never changes the angle of an orientation (C80_noise_refuted). The screw axis filter leaves at least three poses of all paths of 20 to 10^11 samples (C80_prefilter), and with a suitable one of the correct singular value decompositions (C28) RANSAC finds the given transform on all of them, whatever valid samples are drawn (C80_succeeds). The random transforms are part of C82. Not modelled: the printing."
  },
  {
   "property": "C81",
   "status": "partial",
   "theorems": [
    "HandEye.C81_exported_partial",
    "HandEye.C81_only_tables",
    "HandEye.C81_failures_refuted",
    "HandEye.C81_unequal_frames",
    "HandEye.C81_unequal_cameras",
    "HandEye.C81_no_yaml",
    "HandEye.C81_shared_file",
    "HandEye.C81_shared_names",
    "HandEye.C81_names_refuted",
    "HandEye.C81_inlier_ratio_refuted",
    "HandEye.C81_global_bag_refuted"
   ],
   "note": "Proved if the names are plain, i.e. cannot be confused when they are joined by underscores (C81_exported_partial; the configuration of the repository is plain); only csv files are written (C81_only_tables); lists of different lengths are an AssertionError that keeps what was exported before (C81_unequal_frames, C81_unequal_cameras). Refuted: bags with the same name in two directories, names that differ after the first dot, underscores in frames or topics share a file, and the earlier table is lost (C81_names_refuted, C81_shared_file, C81_shared_names); failing tools are not noticed (C81_failures_refuted); the inlier ratio of the configuration has no effect (C81_inlier_ratio_refuted). The tools are arbitrary functions."
  },
  {
   "property": "C82",
   "status": "partial",
   "theorems": [
    "HandEye.C82_hand_eye_passes",
    "HandEye.C82_addition",
    "HandEye.C82_multiplication",
    "HandEye.C82_multiplication_with_scalar",
    "HandEye.C82_division",
    "HandEye.C82_division_with_scalar",
    "HandEye.C82_conjugate",
    "HandEye.C82_norm",
    "HandEye.C82_inverse",
    "HandEye.C82_normalize",
    "HandEye.C82_slerp",
    "HandEye.C82_lerp",
    "HandEye.C82_nlerp",
    "HandEye.C82_from_rotation_matrix",
    "HandEye.C82_to_rotation_matrix",
    "HandEye.C82_to_transformation_matrix",
    "HandEye.C82_rotate_vector",
    "HandEye.C82_angle_between",
    "HandEye.C82_dq_addition",
    "HandEye.C82_dq_multiplication",
    "HandEye.C82_dq_multiplication_with_scalar",
    "HandEye.C82_dq_division",
    "HandEye.C82_dq_division_with_scalar",
    "HandEye.C82_dq_conjugate",
    "HandEye.C82_dq_conjugate_identity",
    "HandEye.C82_dq_normalize",
    "HandEye.C82_dq_scalar",
    "HandEye.C82_dq_inverse",
    "HandEye.C82_dq_equality",
    "HandEye.C82_dq_conversions",
    "HandEye.C82_dq_consecutive_transformations",
    "HandEye.C82_dq_transforming_points",
    "HandEye.C82_dq_to_matrix",
    "HandEye.C82_random_transform_partial",
    "HandEye.C82_random_transform_refuted",
    "HandEye.C82_random_quaternion",
    "HandEye.C82_check",
    "HandEye.C82_hand_eye_test",
    "HandEye.C82_plot_test",
    "HandEye.C82_outlier_test",
    "HandEye.C82_noise_test",
    "HandEye.C82_time_alignment",
    "HandEye.C82_data_drops",
    "HandEye.C82_data_drops_refuted",
    "HandEye.C82_outlier_outcome",
    "HandEye.C82_noise_outcome"
   ],
   "note": "Each test of test_quaternion.py and test_dual_quaternion.py is one theorem (the empty tests and the parts that are commented out apart); the test of the calibration without noise passes exactly if RANSAC reports a success (C82_hand_eye_test), and with a suitable one of the correct singular value decompositions it passes for all draws (C82_hand_eye_passes). Partial, because the random transforms are not finite for drawn half turns (C82_random_transform_refuted). The test with outliers passes exactly if RANSAC reports a success, as long as the drawn outliers are visible in the scalar parts and nothing differs by a half turn (C82_outlier_test); the test with noise is reduced to what RANSAC reports: success, no half turn, and eight components within 0.04 (C82_noise_test; nothing is proved about how large the error gets). Both tests can end in few ways only: an exception if the prefilter leaves fewer than three poses, otherwise RANSAC goes on or reports a success, so that the test with outliers then passes and the test with noise depends on the eight components only; RANSAC has ended once 50 samples led to a calibration and goes on while none did (C82_outlier_outcome, C82_noise_outcome); test_plot_poses draws its figure (C82_plot_test). With a numpy that takes 100. as the number of samples (later ones raise TypeError), the test of the time alignment computes an offset for all draws and asserts nothing about it: all that is known is that it is 1.5 plus at most 98 steps (C82_time_alignment); the test of the data drops never raises an error, and the assertion that is commented out would fail whenever the call returns, since the entries are set to None and stay in the list (C82_data_drops, C82_data_drops_refuted). The third test of that file is nested in another one and is never run."
  },
  {
   "property": "C83",
   "status": "partial",
   "theorems": [
    "HandEye.C83_correlation",
    "HandEye.C83_panels",
    "HandEye.C83_overlay",
    "HandEye.C83_input_partial",
    "HandEye.C83_input_refuted",
    "HandEye.C83_velocities",
    "HandEye.C83_aligned"
   ],
   "note": "Proved: the three panels of the correlation figure (C83_correlation, C83_panels, C83_overlay; for different periods the exact drift is given), the figures of the filter (C83_velocities), of the aligned poses (C83_aligned), and all panels of the input figure but one (C83_input_partial). Refuted: the panel of the norms before the filter shows the norms after the filter; for a body turning at constant speed it shows zeros (C83_input_refuted). Titles, colours, sizes and windows are left out."
  },
  {
   "property": "C84",
   "status": "partial",
   "theorems": [
    "HandEye.C84_option",
    "HandEye.C84_option_refuted",
    "HandEye.C84_unaligned_figure",
    "HandEye.C84_positions",
    "HandEye.C84_arrows_partial",
    "HandEye.C84_arrows_refuted",
    "HandEye.C84_six_refuted",
    "HandEye.C84_empty",
    "HandEye.C84_heads_refuted",
    "HandEye.C84_every_nth",
    "HandEye.C84_errors",
    "HandEye.C84_evaluation"
   ],
   "note": "Proved: lines, colours and limits (C84_positions), arrows (C84_arrows_partial), thinning (C84_every_nth), errors (C84_errors), what the evaluation draws (C84_evaluation), rejection of empty input (C84_empty). Refuted: six trajectories are rejected although there are six colours (C84_six_refuted), the arrows of a sensor that turns in place have length zero (C84_arrows_refuted), heads of arrows can lie outside of the axes (C84_heads_refuted). The option for the thinning works in compute_hand_eye_calibration.py (C84_option) and before the calibration (C84_unaligned_figure), but the script of the experiments sets an attribute that nothing reads and always draws every tenth pose after it (C84_option_refuted)."
  },
  {
   "property": "C85",
   "status": "partial",
   "theorems": [
    "HandEye.C85_rotation_error_partial",
    "HandEye.C85_motion_error_partial",
    "HandEye.C85_rigid_partial",
    "HandEye.C85_proportional_partial",
    "HandEye.C85_half_turns_refuted",
    "HandEye.C85_exact_gap",
    "HandEye.C85_right_root_partial",
    "HandEye.C85_wrong_root_refuted"
   ],
   "note": "Proved, with explicit constants, for every run that returns: the rotation (C85_rotation_error_partial), the motion of every point (C85_motion_error_partial), that the result is a rigid motion (C85_rigid_partial), a bound in terms of the noise alone or else a translation longer than about 1/(2 gamma) (C85_proportional_partial), that the sixth singular value is positive on exact data (C85_exact_gap). Missing: the loop that makes the signs equal needs rotations that are further from half turns than the noise; without this, arbitrarily small noise makes the solver return a rotation that is wrong by 180 degrees with good singular values (C85_half_turns_refuted). The wrong root of the quadratic, which shows as a huge translation, is excluded if the rotation half of the seventh right-singular vector has length at least 28 gamma sqrt(2 + |t0|^2/4) (C85_right_root_partial). Without that the property is false for arbitrarily small noise and every correct library, far from half turns and with good singular values: the rotation is off by more than 179 degrees and the translation is at least 12 / eta long (C85_wrong_root_refuted)."
  },
  {
   "property": "C86",
   "status": "partial",
   "theorems": [
    "HandEye.C86_rows",
    "HandEye.C86_counts",
    "HandEye.C86_reprojections",
    "HandEye.C86_read",
    "HandEye.C86_jpl",
    "HandEye.C86_jpl_refuted",
    "HandEye.C86_header_refuted",
    "HandEye.C86_main_refuted",
    "HandEye.C86_main",
    "HandEye.C86_interface"
   ],
   "note": "Proved for the loop, given a camera: rows (C86_rows), counters (C86_counts), corners (C86_reprojections), reading as Hamilton quaternions gives T_G_C (C86_read). Refuted: the program as it is uses a null pointer for the camera and never reaches the loop (C86_main_refuted, C86_interface); the default header makes the file unreadable for csv_io (C86_header_refuted); read in the documented way, as JPL quaternions, the rotation is inverted and the position is not, so that the pose is neither T_C_G nor T_G_C (C86_jpl, C86_jpl_refuted)."
  },
  {
   "property": "C87",
   "status": "partial",
   "theorems": [
    "HandEye.C87_reads_tables_partial",
    "HandEye.C87_conventions",
    "HandEye.C87_samples",
    "HandEye.C87_round_trip",
    "HandEye.C87_python_reads",
    "HandEye.C87_norm_refuted",
    "HandEye.C87_outlier_refuted",
    "HandEye.C87_header_refuted",
    "HandEye.C87_junk_refuted",
    "HandEye.C87_blank_line",
    "HandEye.C87_scientific",
    "HandEye.C87_cells"
   ],
   "note": "Proved: reading of tables with unit quaternions (C87_reads_tables_partial), conventions (C87_conventions), sample times (C87_samples), round trip (C87_round_trip), csv_io reads the output (C87_python_reads). Refuted: quaternions that csv_io normalises end the batch estimator (C87_norm_refuted), outlier rows are not read by csv_io (C87_outlier_refuted), the header of the target extractor ends it (C87_header_refuted), malformed numbers are read as their beginning (C87_junk_refuted), a blank line ends it (C87_blank_line)."
  },
  {
   "property": "C88",
   "status": "partial",
   "theorems": [
    "HandEye.C88_complete_partial",
    "HandEye.C88_inputs_kept",
    "HandEye.C88_stale_refuted",
    "HandEye.C88_overwritten",
    "HandEye.C88_exit_code",
    "HandEye.C88_overwritten_refuted"
   ],
   "note": "Proved if the three programs succeed and the inputs are not files that the script writes: C88_complete_partial, C88_inputs_kept; C88_exit_code says what a zero exit code means. Refuted: after a failed alignment the script goes on with the files of an earlier run and reports success (C88_stale_refuted); an input with the name of an aligned table is overwritten before it is read again (C88_overwritten, C88_overwritten_refuted)."
  },
  {
   "property": "C89",
   "status": "partial",
   "theorems": [
    "HandEye.C89_double",
    "HandEye.C89_product",
    "HandEye.C89_normalize",
    "HandEye.C89_chain",
    "HandEye.C89_slerp_check",
    "HandEye.C89_angle_partial",
    "HandEye.C89_angle_refuted"
   ],
   "note": "Proved for every machine in the standard model and for float64: C89_double, C89_product, C89_normalize, C89_chain, C89_slerp_check; the angle is within about 4e-7 rad in float64 when it is a number (C89_angle_partial). Refuted: for two almost equal float64 unit quaternions angle_between_quaternions and compute_pose_error give nan (C89_angle_refuted). Overflow, underflow and the solver (SVD) are not covered."
  },
  {
   "property": "C90",
   "status": "partial",
   "theorems": [
    "HandEye.C90_round_trip",
    "HandEye.C90_align",
    "HandEye.C90_align_double",
    "HandEye.C90_far_refuted",
    "HandEye.C90_offset"
   ],
   "note": "Proved: C90_round_trip, C90_align, C90_align_double (within 2000 km), C90_offset. Refuted for large translations: a pose 268435 km away makes the assertion of align_paths_at_index fail by rounding (C90_far_refuted); what happens between the two distances is open."
  },
  {
   "property": "C91",
   "status": "proved",
   "theorems": [
    "HandEye.C91_signs",
    "HandEye.C91_outliers",
    "HandEye.C91_exhaustive",
    "HandEye.C91_random"
   ],
   "note": "Full statement over the model (exact reals): C91_outliers (with and without the prefilter), C91_exhaustive and C91_signs (signs of the dual quaternions free), C91_random (without the prefilter; with it, samples are aligned at the wrong pose, see C42)."
  },
  {
   "property": "C92",
   "status": "partial",
   "theorems": [
    "HandEye.C92_first_wins_refuted",
    "HandEye.C92_most_inliers_partial",
    "HandEye.C92_majority_refuted"
   ],
   "note": "Refuted in general: a candidate replaces the best one only if it is strictly better in both errors, so a candidate with orientation error zero is never replaced. C92_first_wins_refuted: of two mountings that differ in translation only, the one of the first sample is reported; C92_majority_refuted: an exhaustive search with default values reports the mounting of ten measurements although thirty fit another. C92_most_inliers_partial proves the claim under the hypotheses of C91 (outliers visible and fewer than min_num_inliers). Missing: groups of min_num_inliers or more that agree among themselves, where the claim is false."
  },
  {
   "property": "C93",
   "status": "partial",
   "theorems": [
    "HandEye.C93_split",
    "HandEye.C93_run",
    "HandEye.C93_dry_run",
    "HandEye.C93_options_partial",
    "HandEye.C93_align_command_partial",
    "HandEye.C93_calibrate_command_partial",
    "HandEye.C93_estimate_command_partial",
    "HandEye.C93_space_refuted",
    "HandEye.C93_injection_refuted",
    "HandEye.C93_quotes_refuted",
    "HandEye.C93_visualize",
    "HandEye.C93_false_refuted",
    "HandEye.C93_script_align",
    "HandEye.C93_script_estimate",
    "HandEye.C93_script_refuted",
    "HandEye.C93_negative",
    "HandEye.C93_abbreviations",
    "HandEye.C93_argparse",
    "HandEye.C93_flags",
    "HandEye.C93_last_flag",
    "HandEye.C93_quoting",
    "HandEye.C93_unfinished"
   ],
   "note": "shlex.split, argparse and gflags are modelled for the forms that the scripts use. Proved: shlex.split gives the words, also those written with quotes and backslashes, and fails for unfinished ones; run returns exactly for exit code zero; options have the values that their words mean (texts, numbers, lists, true); the three commands of close_the_circle_test.py and those of the shell script arrive with their file names, if these have no white space, quotes or backslashes. Refuted: options of type bool are true for every text but the empty one, so --visualize False visualises, and so does the shell script with --visualize=0; a name with a space makes the batch estimator read another file, a name may add options, backslashes vanish. C93_negative and C93_abbreviations: negative numbers are values, the beginning of exactly one option is this option, and that of several is an error. C93_argparse: exactly which lines of options and words are accepted (number of words, numbers, required options, no words before the first option) and that the last value counts. C93_flags, C93_last_flag: the same for gflags. Missing: the remaining syntax of argparse (short options, two dashes alone) and of gflags (flags without values)."
  },
  {
   "property": "C94",
   "status": "partial",
   "theorems": [
    "HandEye.C94_pairs",
    "HandEye.C94_default",
    "HandEye.C94_count",
    "HandEye.C94_flags_refuted",
    "HandEye.C94_flags_partial",
    "HandEye.C94_intended"
   ],
   "note": "C94_pairs, C94_default and C94_count: the pairs of files come with the flags of their files, without flags no sensor is absolute, a wrong number of flags is an AssertionError. Refuted (C94_flags_refuted): the scripts lower the case of the whole text, so the keys are not those of config.info, and the first sensor is always absolute and the second one never; C94_flags_partial: right exactly for the flags 1 0; C94_intended: lowering only the values would be right. Assumed: boost property trees distinguish upper and lower case (their documented behaviour) and loadStrings reads path=value; aslam_calibration itself is not in the repository."
  },
  {
   "property": "C95",
   "status": "partial",
   "theorems": [
    "HandEye.C95_align",
    "HandEye.C95_ransac_partial",
    "HandEye.C95_script",
    "HandEye.C95_prefilter_refuted"
   ],
   "note": "C95_align: aligning at any index removes the world frame and the signs, unless two poses differ by a half turn; C95_script: the calibration script writes or raises the same. C95_ransac_partial: RANSAC itself, without the prefilter. Refuted with the prefilter (C95_prefilter_refuted): the screw axes that it compares are those of the poses in the world frame; with the configuration of the script, exact data calibrate in one frame and raise an AssertionError in another. The script is not affected as it aligns both trajectories first."
  },
  {
   "property": "C96",
   "status": "partial",
   "theorems": [
    "HandEye.C96_outliers",
    "HandEye.C96_succeeds_partial",
    "HandEye.C96_first_refuted"
   ],
   "note": "C96_outliers: every output is the true transform. C96_succeeds_partial: with ten good rows the script succeeds if the first or the second row is good and enough poses are left by the prefilter. Refuted without that condition (C96_first_refuted): with two equal outliers in the first two rows and ten exact rows the script ends with an AttributeError for every correct linear algebra library, because the indices of the poses that are left by the prefilter are used for the unfiltered tables (C42), so that only rows 0 and 1 are tried; the ten exact rows alone calibrate. C91_signs is the corresponding statement about RANSAC, with free signs."
  },
  {
   "property": "C97",
   "status": "partial",
   "theorems": [
    "HandEye.C97_nan_spreads",
    "HandEye.C97_selection",
    "HandEye.C97_agrees",
    "HandEye.C97_refuted",
    "HandEye.C97_exact_arithmetic",
    "HandEye.C97_number_partial",
    "HandEye.C97_number_double"
   ],
   "note": "Refuted for float64 (C97_refuted): for every number of poses there are recordings with pairs that differ by less than 1e-10 rad for which the calibration that fits evaluates to an orientation error of nan and is discarded, in favour of any other candidate; without another candidate there is no result. C97_nan_spreads: the error is nan exactly if the angle of one pair is. C97_selection: what RANSAC takes when some errors are nan. C97_number_partial and C97_number_double: the error is a number if the orientations of every pair are equal or differ by more than 5e-7 rad. C97_exact_arithmetic and C97_agrees: without rounding this is the model of the other claims. Not modelled: overflow, and the order in which numpy adds the squares."
  },
  {
   "property": "C98",
   "status": "partial",
   "theorems": [
    "HandEye.C98_export_partial",
    "HandEye.C98_exported_partial",
    "HandEye.C98_flags",
    "HandEye.C98_gflags",
    "HandEye.C98_gflags_unknown",
    "HandEye.C98_gflags_values",
    "HandEye.C98_dash_refuted"
   ],
   "note": "C98_export_partial: for configurations without names that begin with a dash, the files after the script and the exception that ended it are those of C81. C98_exported_partial: the consequence for the tables. C98_flags: gflags gives the extractor every name whatever its characters, and the numbers of the target. C98_gflags, C98_gflags_unknown and C98_gflags_values: how the extractor reads words in general, and which it rejects. C98_dash_refuted: a frame called -imu is taken as an option, nothing is exported and no exception is raised. str and strtod for the two lengths are parameters that have to be inverse to each other on them; rosrun is assumed to pass the words on."
  },
  {
   "property": "C99",
   "status": "partial",
   "theorems": [
    "HandEye.C99_texts",
    "HandEye.C99_tf",
    "HandEye.C99_extract",
    "HandEye.C99_align_partial",
    "HandEye.C99_align_refuted",
    "HandEye.C99_calibrate",
    "HandEye.C99_estimate",
    "HandEye.C99_complete",
    "HandEye.C99_experiment",
    "HandEye.C99_backslash_refuted"
   ],
   "note": "C99_texts: the commands are the texts of the READMEs, line by line. C99_tf, C99_extract, C99_calibrate, C99_estimate, C99_complete, C99_experiment: these commands are accepted with any names, and every option has the value that is meant. C99_align_refuted: the command for the time alignment is rejected with any names, because of a backslash before a blank in README:125; C99_align_partial: it is accepted if the option is in the next line. C99_backslash_refuted: the command of the second experiment ends with a backslash, so a command in the line after it becomes one more flag, and the script does not start. Missing: the shell beyond blanks, quotes, backslashes and joined lines; rosrun is assumed to find the program and to pass the words on."
  },
  {
   "property": "C100",
   "status": "partial",
   "theorems": [
    "HandEye.C100_product",
    "HandEye.C100_moderate_partial",
    "HandEye.C100_construct",
    "HandEye.C100_list_refuted",
    "HandEye.C100_vector",
    "HandEye.C100_from_pose_partial",
    "HandEye.C100_sharp_refuted",
    "HandEye.C100_wrap_refuted"
   ],
   "note": "C100_product: a product of integer quaternions agrees with the exact one modulo 2^64, and is exact if that fits. C100_moderate_partial, C100_from_pose_partial: for integers of at most 1518500249 all operations agree with those of floats. C100_sharp_refuted: for 1518500250 the norm is nan, normalize does nothing and the inverse has the wrong sign. C100_wrap_refuted: from_pose of (2^32, 0, 0, 0) is not a unit quaternion. C100_construct, C100_vector: constructors; C100_list_refuted: Quaternion(q=[x, y, z, w]), which is documented, is rejected. Missing: integers that do not fit into 64 bits, arrays of other types and lengths; the rounding of integers to floats."
  },
  {
   "property": "C101",
   "status": "partial",
   "theorems": [
    "HandEye.C101_once",
    "HandEye.C101_draws",
    "HandEye.C101_repetitions_partial",
    "HandEye.C101_pieces_refuted",
    "HandEye.C101_direction_refuted",
    "HandEye.C101_files",
    "HandEye.C101_label_refuted"
   ],
   "note": "C101_once, C101_draws: each experiment is run once, whatever the assignment. C101_repetitions_partial: repetitions of the same ranges, and pairs of an experiment, share no number of numpy. Refuted for different ranges: the processes are forked with the same state of the generator, so all experiments of the first pieces of the processes use the numbers of the first piece (C101_pieces_refuted), and their translations are moved in the same direction by the same fraction of the range (C101_direction_refuted). C101_files: different files; C101_label_refuted: the number after it_ is always that of the last iteration. The numbers of the module random, which is seeded again in each process, are arbitrary."
  },
  {
   "property": "C102",
   "status": "proved",
   "theorems": [
    "HandEye.C102_clock",
    "HandEye.C102_orientations",
    "HandEye.C102_noise",
    "HandEye.C102_filter",
    "HandEye.C102_offset"
   ],
   "note": "C102_noise: the correlation of noisy signals (noise measured by its energy). C102_filter: the filter does not amplify noise. C102_offset: calculate_time_offset of noisy and of clean recordings with the same stamps. C102_clock: the offset of two noisy sensors on a moving body in the setting of C73. There the noise is that of the angular velocities; C102_orientations starts from the noise of the recorded quaternions (of either sign), which enters a velocity with at most (pi + 2)/dt, plus 0.0094/dt for the rotations that the code takes for none."
  },
  {
   "property": "C103",
   "status": "proved",
   "theorems": [
    "HandEye.C103_chance",
    "HandEye.C103_outliers",
    "HandEye.C103_exhaustive",
    "HandEye.C103_random"
   ],
   "note": "C103_outliers: every reported calibration. C103_exhaustive, C103_random: success without exceptions, also for samples with outliers. C103_chance: lower bound for the chance of having found the true mounting within N independent samples, its limit one, and a bound for the expected number of samples. Exact data; noise is not part of the property, and the pose filter (C80) is off in the success theorems. That all scalar parts of the inliers match the base as well, which the code demands after the classification by pose errors, is what makes the first theorem hold without any assumption on the pose errors."
  },
  {
   "property": "C104",
   "status": "proved",
   "theorems": [
    "HandEye.C104_accuracy",
    "HandEye.C104_noise"
   ],
   "note": "C104_accuracy: the error of every reported calibration, in terms of reported numbers and of the noise. C104_noise: noise of the poses implies the hypothesis on the noise of the relative motions. A bound after the fact: nothing is said about when RANSAC succeeds with noisy data, and where the sixth singular value is small the bound says little."
  },
  {
   "property": "C105",
   "status": "partial",
   "theorems": [
    "HandEye.C105_configurations",
    "HandEye.C105_complete",
    "HandEye.C105_spoiled",
    "HandEye.C105_scalar_samples",
    "HandEye.C105_confidence_refuted",
    "HandEye.C105_time_alignment"
   ],
   "note": "C105_configurations and C105_complete: names and settings. C105_spoiled: the algorithm of the optimization experiments. C105_scalar_samples: every finished run with inliers by scalar parts evaluates exactly seven samples, as the confidence asks for. C105_confidence_refuted: every finished run with inliers by pose errors evaluates exactly 20 samples, where 35 are needed (disagreement 62). C105_time_alignment: all algorithms use the same settings for the time alignment, those of the class, which limit the two signals to different percentiles. The probability is that of the code (independent samples, each measurement an outlier with the configured probability)."
  },
  {
   "property": "C106",
   "status": "partial",
   "theorems": [
    "HandEye.C106_outcome_partial",
    "HandEye.C106_balanced_refuted",
    "HandEye.C106_ransac_partial"
   ],
   "note": "C106_outcome_partial decides every case: the solver returns, unless the halves of the seventh right-singular vector are exactly orthogonal; then it fails the assertion a != 0.0. C106_balanced_refuted: this happens for arbitrarily small noise and every correct library, far from half turns and with good singular values (disagreement 63). C106_ransac_partial applies this to the group of measurements that RANSAC by scalar parts forms from a sample. As in C85, no rotation may be within the noise of a half turn if the loop makes the signs equal."
  },
  {
   "property": "C107",
   "status": "proved",
   "theorems": [
    "HandEye.C107_no_exception",
    "HandEye.C107_exhaustive",
    "HandEye.C107_random"
   ],
   "note": "C107_no_exception (both modes of the classification, random and exhaustive search, with and without the prefilter), C107_exhaustive and C107_random (classification by scalar parts). That the random search goes on for ever without a usable sample is disagreement 8; C107_random says exactly when. With the prefilter the measurement that the code aligns at need not be the first of the sample (C42, disagreement 8), and Spec.LeadsToCalibration says so. C106_ransac_partial in the same module gives a condition on noisy measurements under which a sample leads to a calibration."
  },
  {
   "property": "C108",
   "status": "proved",
   "theorems": [
    "HandEye.C108_ends",
    "HandEye.C108_chance",
    "HandEye.C108_almost_surely",
    "HandEye.C108_expected",
    "HandEye.C108_outliers",
    "HandEye.C108_confidence_refuted",
    "HandEye.C108_default",
    "HandEye.C108_RS"
   ],
   "note": "C108_ends (deterministic), C108_chance (binomial distribution and bound), C108_almost_surely, C108_expected (m / p samples on average), C108_outliers (share of the samples and true mounting; assumptions of C91), C108_default (20 evaluated samples by default). Chances are numbers of outcomes over the number of all outcomes of N draws; that the generator of Python draws all ordered samples equally often and independently is assumed. C108_confidence_refuted: the message of the early abort overstates the confidence (disagreement 64)."
  },
  {
   "property": "C109",
   "status": "proved",
   "theorems": [
    "HandEye.C109_chance",
    "HandEye.C109_share",
    "HandEye.C109_minority",
    "HandEye.C109_RS"
   ],
   "note": "C109_chance (exact formula for every N) and C109_share (limit); C109_minority evaluates both for the forty pairs of C92_majority_refuted, C109_RS for the configuration RS_no_filter of the experiments, with which the ten pairs win in a quarter of the runs. The solver is assumed to return on exact motions about two axes, which exists_good_svd shows to be satisfiable. See C92_first_wins_refuted for the reason: a candidate without orientation error is never replaced."
  },
  {
   "property": "C110",
   "status": "proved",
   "theorems": [
    "HandEye.C110_ordered",
    "HandEye.C110_fraction",
    "HandEye.C110_slerp",
    "HandEye.C110_slerp_double",
    "HandEye.C110_resample",
    "HandEye.C110_velocity",
    "HandEye.C110_poses",
    "HandEye.C110_velocity_value",
    "HandEye.C110_linspace"
   ],
   "note": "C110_ordered (rounding to float64 keeps the order), C110_fraction, C110_slerp and C110_slerp_double, C110_resample, C110_poses (positions and orientations), C110_velocity and C110_velocity_value, C110_linspace. The constants are not optimal; sqrt(delta) is intrinsic because arccos is steep at one. Overflow and underflow are left out, as in C89, and np.isclose is exact."
  },
  {
   "property": "C111",
   "status": "partial",
   "theorems": [
    "HandEye.C111_sum",
    "HandEye.C111_count_partial",
    "HandEye.C111_exact",
    "HandEye.C111_refuted"
   ],
   "note": "C111_exact proves the property for exact arithmetic. C111_refuted: in float64 eight poses at 0, 1, 2, 3, 4, 5, 7, 9 seconds give seven samples, because 9 / (9 / 7) rounds to less than seven. C111_count_partial: the number is always that of the poses or one less, for every order of the additions (C111_sum: the order of numpy for short arrays); missing is that it is the number of the poses, which is wrong."
  },
  {
   "property": "C112",
   "status": "proved",
   "theorems": [
    "HandEye.C112_noise",
    "HandEye.C112_direct"
   ],
   "note": "C112_noise (any correlation with errors of at most kappa, e.g. by Fourier transforms) and C112_direct (the direct sum of products, in any order). The example beside C112_noise uses both in float64. Overflow is left out, as in C89. The rounding of the signals themselves is part of the noise of C112_noise."
  },
  {
   "property": "C113",
   "status": "proved",
   "theorems": [
    "HandEye.C113_rows",
    "HandEye.C113_exact"
   ],
   "note": "C113_rows for tables of at least two rows with increasing stamps (with one row the code compares with nan; see C62) and C113_exact. The example beside C113_rows is in float64. Overflow is left out, as in C89."
  },
  {
   "property": "C114",
   "status": "proved",
   "theorems": [
    "HandEye.C114_exact",
    "HandEye.C114_filter",
    "HandEye.C114_speed",
    "HandEye.C114_smooth",
    "HandEye.C114_percentile",
    "HandEye.C114_signal",
    "HandEye.C114_offset"
   ],
   "note": "C114_filter, C114_percentile, C114_smooth, C114_speed, C114_signal, C114_offset (hypotheses on the computed velocities, which C110_velocity_value bounds) and C114_exact. Examples in float64 beside C114_filter and C114_speed; the example of C114_offset is in exact arithmetic. Overflow is left out, as in C89."
  },
  {
   "property": "C115",
   "status": "partial",
   "theorems": [
    "HandEye.C115_rotation_partial",
    "HandEye.C115_motion_partial",
    "HandEye.C115_exact",
    "HandEye.C115_rigid_refuted"
   ],
   "note": "Proved for every run that returns: C115_rotation_partial, C115_motion_partial, C115_exact (exact arithmetic gives the model of the other properties). Missing: a bound that does not contain the returned translation is impossible without more hypotheses (C85_wrong_root_refuted is the case u = 0); overflow is left out, as in C89; that numpy.linalg.svd is backward stable is assumed. Refuted: the returned dual quaternion is not a unit dual quaternion to rounding accuracy, on exact data with poses that are float64 numbers (C115_rigid_refuted; the examples beside it give the bounds for the same run, below 1e-13)."
  },
  {
   "property": "C116",
   "status": "partial",
   "theorems": [
    "HandEye.C116_rotation_partial",
    "HandEye.C116_motion_partial",
    "HandEye.C116_exact"
   ],
   "note": "Proved for every run that returns a calibration: C116_rotation_partial, C116_motion_partial, C116_exact; the examples evaluate a run in float64 (two_run). Missing: pairs of poses within eta of a half turn; outliers (for them see C120); the exhaustive search, which always ends in a NameError (C43); the evaluation of the result, for which see C90 and C97; that numpy.linalg.svd is backward stable is assumed."
  },
  {
   "property": "C117",
   "status": "partial",
   "theorems": [
    "HandEye.C117_rotation_partial",
    "HandEye.C117_motion_partial",
    "HandEye.C117_prefilter",
    "HandEye.C117_exact"
   ],
   "note": "Proved for every run that returns a calibration: C117_rotation_partial, C117_motion_partial, C117_prefilter, C117_exact; the examples evaluate a run in float64 (two_ransac). Missing: pairs of poses within eta of a half turn; outliers (for them see C120); eta0 above 1/10; that numpy.linalg.svd is backward stable is assumed. C117_exact speaks of runs that return over the real numbers; it does not say that the two models raise the same exceptions."
  },
  {
   "property": "C118",
   "status": "proved",
   "theorems": [
    "HandEye.C118_keeps",
    "HandEye.C118_selection",
    "HandEye.C118_exact"
   ],
   "note": "C118_keeps, C118_selection, C118_exact; the example is a run in float64. The hypothesis SinePositive holds for a sine that is positive between 0 and 180 degrees; the rotation itself (and so whether the machine sees one) is whatever the library computes. Overflow and underflow are not modelled. C118_exact is about poses for which the model over the real numbers finds an axis; the other ones, whose scalar part is above one, are nan in numpy and treated as not rotating (model in Arith.axisFor)."
  },
  {
   "property": "C119",
   "status": "proved",
   "theorems": [
    "HandEye.C119_solver",
    "HandEye.C119_baseline",
    "HandEye.C119_sample",
    "HandEye.C119_ransac"
   ],
   "note": "C119_solver, C119_baseline, C119_sample, C119_ransac; the examples are runs in float64. Distances are limited by 60 u (D + theta) <= 1e-8, the condition of C90_align: for float64 dual parts up to about 1.5e6. Overflow and underflow are not modelled."
  },
  {
   "property": "C120",
   "status": "partial",
   "theorems": [
    "HandEye.C120_rotation_partial",
    "HandEye.C120_motion_partial",
    "HandEye.C120_baseline_partial",
    "HandEye.C120_baseline_motion_partial",
    "HandEye.C120_flags",
    "HandEye.C120_first",
    "HandEye.C120_sample",
    "HandEye.C120_ransac"
   ],
   "note": "C120_rotation_partial, C120_motion_partial (RANSAC), C120_baseline_partial, C120_baseline_motion_partial, C120_flags, C120_first, C120_sample, C120_ransac; the examples have four pairs in float64, one of them an outlier. Missing: poses within eta of a half turn of each other; relative errors above 1/10; RANSAC that classifies inliers by the RMSE without refining the model; outliers that agree with the hand in the scalar parts, which these tests cannot see. That numpy.linalg.svd is backward stable is assumed."
  },
  {
   "property": "C121",
   "status": "partial",
   "theorems": [
    "HandEye.C121_prepared",
    "HandEye.C121_baseline",
    "HandEye.C121_rotation_partial",
    "HandEye.C121_motion_partial",
    "HandEye.C121_outliers",
    "HandEye.C121_outliers_rotation_partial",
    "HandEye.C121_outliers_motion_partial",
    "HandEye.C121_outliers_baseline_partial",
    "HandEye.C121_exact",
    "HandEye.C121_lengths"
   ],
   "note": "C121_exact (without rounding it is the preparation of calibrationScript), C121_lengths, C121_prepared, C121_baseline, C121_rotation_partial, C121_motion_partial (RANSAC and exhaustive search); with outliers C121_outliers (no condition on the first row, which may be one), C121_outliers_rotation_partial, C121_outliers_motion_partial, C121_outliers_baseline_partial; the examples have two rows in float64 with errors of 0.1 mm and 0.0001, and four rows with an outlier. Missing in the partial ones: poses within eta of a half turn of each other, prepared errors above 1/100, outliers below the tolerance of C120, and with outliers a classification by the RMSE without refinement. That numpy.linalg.svd is backward stable is assumed; the text of the files is in Model/Csv.lean and not rounded here."
  }
 ]
}