{"id": "C01", "title": "Quaternion arithmetic is Hamilton's algebra", "statement": "Multiplying, adding, negating and conjugating Quaternion objects obeys Hamilton's quaternion algebra: multiplication is associative, distributes over addition, has (0,0,0,1) as two-sided identity, conjugation reverses products, and the norm of a product is the product of the norms.", "quantifier": "all pairs and triples of quaternions (any real components, unit or not)", "why_tests_cant": "The input space is a continuum; unit tests check a handful of literals. Associativity and norm multiplicativity are universally quantified identities.", "anchors": ["hand_eye_calibration/python/hand_eye_calibration/quaternion.py:Quaternion.__mul__", "hand_eye_calibration/python/hand_eye_calibration/quaternion.py:Quaternion.__add__", "hand_eye_calibration/python/hand_eye_calibration/quaternion.py:Quaternion.conjugate", "hand_eye_calibration/python/hand_eye_calibration/quaternion.py:Quaternion.norm"]}
{"id": "C02", "title": "Quaternion inverse and division undo multiplication", "statement": "For every quaternion of non-zero norm, q * q.inverse() and q.inverse() * q are the identity, (p / q) * q is p, and dividing by a non-zero scalar undoes multiplying by it; for the zero quaternion the inverse is not a finite quaternion.", "quantifier": "all quaternions, including non-unit and zero ones, and all scalars", "why_tests_cant": "The input space is a continuum; unit tests check a handful of literals.", "anchors": ["hand_eye_calibration/python/hand_eye_calibration/quaternion.py:Quaternion.inverse", "hand_eye_calibration/python/hand_eye_calibration/quaternion.py:Quaternion.__truediv__"]}
{"id": "C03", "title": "rotate_vector is a rotation and agrees with the rotation matrix", "statement": "For a unit quaternion q, q.rotate_vector(v) equals q.to_rotation_matrix() applied to v, preserves lengths and inner products, and rotating by p*q is rotating by q and then by p.", "quantifier": "all unit quaternions p, q and all 3-vectors v", "why_tests_cant": "The input space is a continuum; unit tests check a handful of literals.", "anchors": ["hand_eye_calibration/python/hand_eye_calibration/quaternion.py:Quaternion.rotate_vector", "hand_eye_calibration/python/hand_eye_calibration/quaternion.py:Quaternion.to_rotation_matrix"]}
{"id": "C04", "title": "to_rotation_matrix produces proper rotations", "statement": "For every unit quaternion the matrix is orthogonal with determinant one, the map sends products to matrix products, conjugates to transposes, and q and -q give the same matrix.", "quantifier": "all unit quaternions", "why_tests_cant": "The input space is a continuum; unit tests check a handful of literals.", "anchors": ["hand_eye_calibration/python/hand_eye_calibration/quaternion.py:Quaternion.to_rotation_matrix"]}
{"id": "C05", "title": "Quaternion <-> rotation matrix round trip", "statement": "from_rotation_matrix(q.to_rotation_matrix()) is q or -q, whichever has positive scalar part, for every unit quaternion that is not a half turn; and for every proper rotation matrix R, to_rotation_matrix(from_rotation_matrix(R)) is R.", "quantifier": "all unit quaternions / all proper rotation matrices, including half turns", "why_tests_cant": "The failing set (half turns) has measure zero, so random tests never reach it; the rest is a continuum.", "anchors": ["hand_eye_calibration/python/hand_eye_calibration/quaternion.py:Quaternion.from_rotation_matrix", "hand_eye_calibration/python/hand_eye_calibration/quaternion.py:Quaternion.to_rotation_matrix"]}
{"id": "C06", "title": "from_angle_axis builds the unit quaternion of that rotation", "statement": "For every non-zero axis (any length) and angle, from_angle_axis returns a unit quaternion that fixes the axis and whose scalar part is cos(angle/2).", "quantifier": "all angles and all axes, normalised or not", "why_tests_cant": "The input space is a continuum; unit tests check a handful of literals.", "anchors": ["hand_eye_calibration/python/hand_eye_calibration/quaternion.py:Quaternion.from_angle_axis"]}
{"id": "C07", "title": "angle_axis inverts from_angle_axis", "statement": "Reading angle and axis off a unit quaternion and building a quaternion from them again gives the same quaternion, for every unit quaternion.", "quantifier": "all unit quaternions, including arbitrarily small rotations and full turns", "why_tests_cant": "Small rotations are where tolerance branches bite; tests only use large angles.", "anchors": ["hand_eye_calibration/python/hand_eye_calibration/quaternion.py:Quaternion.angle_axis", "hand_eye_calibration/python/hand_eye_calibration/quaternion.py:Quaternion.from_angle_axis"]}
{"id": "C08", "title": "Slerp interpolates on the unit sphere", "statement": "For unit quaternions q1, q2 and a fraction in [0,1], slerp is q1 at 0, q2 at 1, unit (up to 1e-16) in between, and lies at rotation distance fraction * (distance between q1 and q2) from q1 along the shorter arc.", "quantifier": "all pairs of unit quaternions (identical, antipodal, orthogonal) and all fractions", "why_tests_cant": "The input space is a continuum; unit tests check a handful of literals. Degenerate pairs are a measure-zero set.", "anchors": ["hand_eye_calibration/python/hand_eye_calibration/quaternion.py:quaternion_slerp"]}
{"id": "C09", "title": "Interpolation between stamped quaternions stays in range", "statement": "quaternions_interpolate returns one quaternion per requested time, at the left time the left one, at the right time the right one, and fails exactly when a time lies outside the interval (or the inputs are not unit).", "quantifier": "all intervals with t_left < t_right and all lists of times", "why_tests_cant": "The input space is a continuum; unit tests check a handful of literals.", "anchors": ["hand_eye_calibration/python/hand_eye_calibration/quaternion.py:quaternions_interpolate", "hand_eye_calibration/python/hand_eye_calibration/quaternion.py:quaternion_slerp"]}
{"id": "C10", "title": "Angular velocity of a constant-rate rotation", "statement": "Given two orientations separated by a rotation at constant angular velocity omega for time t > 0, angular_velocity_between_quaternions(q1, q2, t) returns omega.", "quantifier": "all unit q1, all omega and t with rotation angle below pi", "why_tests_cant": "A single comparison against a hand-computed number cannot establish the law for all rates, and small angles fall in a tolerance branch.", "anchors": ["hand_eye_calibration/python/hand_eye_calibration/quaternion.py:angular_velocity_between_quaternions", "hand_eye_calibration/python/hand_eye_calibration/quaternion.py:Quaternion.angle_axis"]}
{"id": "C11", "title": "angle_between_quaternions is the relative rotation angle", "statement": "For unit quaternions the value is in [0, 2*pi], zero on equal arguments, unchanged by left- or right-multiplying both with the same unit quaternion, and symmetric, outside of the tolerance branch.", "quantifier": "all pairs of unit quaternions", "why_tests_cant": "The input space is a continuum; unit tests check a handful of literals.", "anchors": ["hand_eye_calibration/python/hand_eye_calibration/quaternion.py:angle_between_quaternions"]}
{"id": "C12", "title": "Dual quaternion arithmetic is an associative algebra", "statement": "Dual quaternion multiplication is associative, distributes over addition, has identity() as a two-sided unit, commutes with scalar factors, and conjugation reverses products.", "quantifier": "all triples of dual quaternions, unit or not", "why_tests_cant": "The input space is a continuum; unit tests check a handful of literals.", "anchors": ["hand_eye_calibration/python/hand_eye_calibration/dual_quaternion.py:DualQuaternion.__mul__", "hand_eye_calibration/python/hand_eye_calibration/dual_quaternion.py:DualQuaternion.conjugate", "hand_eye_calibration/python/hand_eye_calibration/dual_quaternion.py:DualQuaternion.identity"]}
{"id": "C13", "title": "Dual quaternion inverse", "statement": "inverse() raises exactly when the rotational part has norm at most 1e-8; otherwise dq * dq.inverse() and dq.inverse() * dq are the identity, even if dq is not unit.", "quantifier": "all dual quaternions", "why_tests_cant": "The input space is a continuum; unit tests check a handful of literals.", "anchors": ["hand_eye_calibration/python/hand_eye_calibration/dual_quaternion.py:DualQuaternion.inverse", "hand_eye_calibration/python/hand_eye_calibration/dual_quaternion.py:DualQuaternion.norm"]}
{"id": "C14", "title": "Pose <-> dual quaternion round trip", "statement": "to_pose(from_pose(x,y,z,q)) gives back the same translation and the same unit quaternion with non-negative scalar part, for every pose; to_pose gives the same pose for dq, -dq and any positive multiple of dq.", "quantifier": "all poses with a quaternion of norm above 1e-8, and all non-degenerate dual quaternions", "why_tests_cant": "Continuum of poses; the sign-ambiguous half-turn set has measure zero.", "anchors": ["hand_eye_calibration/python/hand_eye_calibration/dual_quaternion.py:DualQuaternion.from_pose", "hand_eye_calibration/python/hand_eye_calibration/dual_quaternion.py:DualQuaternion.to_pose"]}
{"id": "C15", "title": "Transforming points is a group action of rigid motions", "statement": "For a dual quaternion built from a pose, passive_transform_point(p) is rotation*p + translation, transforming by a*b is transforming by b and then by a, distances are preserved, and active_transform_point is the inverse of passive_transform_point.", "quantifier": "all poses and all points", "why_tests_cant": "The input space is a continuum; unit tests check a handful of literals.", "anchors": ["hand_eye_calibration/python/hand_eye_calibration/dual_quaternion.py:DualQuaternion.passive_transform_point", "hand_eye_calibration/python/hand_eye_calibration/dual_quaternion.py:DualQuaternion.active_transform_point"]}
{"id": "C16", "title": "Dual quaternion <-> 4x4 matrix", "statement": "to_matrix of a unit dual quaternion is a homogeneous rigid transformation; to_matrix(a*b) = to_matrix(a) to_matrix(b); from_transformation_matrix inverts it up to sign for all rotations that are not half turns.", "quantifier": "all unit dual quaternions", "why_tests_cant": "The input space is a continuum; unit tests check a handful of literals.", "anchors": ["hand_eye_calibration/python/hand_eye_calibration/dual_quaternion.py:DualQuaternion.to_matrix", "hand_eye_calibration/python/hand_eye_calibration/dual_quaternion.py:DualQuaternion.from_transformation_matrix"]}
{"id": "C17", "title": "normalize establishes is_normalized, and construction rejects unnormalised values", "statement": "After dq.normalize(), dq.is_normalized() is true; and constructing a dual quaternion that is not normalised fails with the documented assertion.", "quantifier": "all dual quaternions with non-zero rotational part", "why_tests_cant": "Tests use dual quaternions that happen to be built from poses.", "anchors": ["hand_eye_calibration/python/hand_eye_calibration/dual_quaternion.py:DualQuaternion.normalize", "hand_eye_calibration/python/hand_eye_calibration/dual_quaternion.py:DualQuaternion.is_normalized", "hand_eye_calibration/python/hand_eye_calibration/dual_quaternion.py:DualQuaternion.assert_normalization"]}
{"id": "C18", "title": "Screw parameters are conjugation invariant", "statement": "For a unit dual quaternion, screw_axis() returns rotation in [0,360), a unit axis whenever the rotation is above the cut-off, and a translation equal to the displacement along that axis; rotation and translation are the same for x * a * x.inverse() as for a, for every unit x.", "quantifier": "all unit dual quaternions a and x (screw congruence theorem)", "why_tests_cant": "The input space is a continuum; unit tests check a handful of literals.", "anchors": ["hand_eye_calibration/python/hand_eye_calibration/dual_quaternion.py:DualQuaternion.screw_axis"]}
{"id": "C19", "title": "Equality of dual quaternions", "statement": "dq == dq holds always; == is symmetric; and two dual quaternions that represent the same rigid motion compare equal.", "quantifier": "all pairs of dual quaternions", "why_tests_cant": "Asymmetry appears only in a thin band of values around the tolerance.", "anchors": ["hand_eye_calibration/python/hand_eye_calibration/dual_quaternion.py:DualQuaternion.__eq__"]}
{"id": "C20", "title": "Reading a dual quaternion does not change the motion it represents", "statement": "to_pose() and to_matrix() leave the rigid motion represented by the object unchanged, and leave a unit dual quaternion bitwise unchanged.", "quantifier": "all dual quaternions with non-zero rotational part; any sequence of reads", "why_tests_cant": "Aliasing and hidden mutation only show up in call histories that tests do not enumerate.", "anchors": ["hand_eye_calibration/python/hand_eye_calibration/dual_quaternion.py:DualQuaternion.to_pose", "hand_eye_calibration/python/hand_eye_calibration/dual_quaternion.py:DualQuaternion.to_matrix", "hand_eye_calibration/python/hand_eye_calibration/dual_quaternion.py:DualQuaternion.normalize"]}
{"id": "C21", "title": "Path alignment re-bases a trajectory", "statement": "align_paths_at_index(v, k) returns a list of the same length whose first element is the identity, whose remaining elements are the poses of v relative to v[k] in cyclic order from k, all with non-negative scalar part; the relative motion between any two returned poses equals that of the corresponding input poses.", "quantifier": "all non-empty trajectories of unit dual quaternions, all lengths, all valid indices", "why_tests_cant": "Quantifies over trajectories of every length and every index.", "anchors": ["hand_eye_calibration/python/hand_eye_calibration/dual_quaternion_hand_eye_calibration.py:align_paths_at_index"]}
{"id": "C22", "title": "Path alignment ignores the choice of world frame and quaternion signs", "statement": "Left-multiplying a whole trajectory by one rigid motion does not change the aligned trajectory; flipping the sign of individual dual quaternions changes it by signs at most; aligning an aligned trajectory at 0 changes nothing.", "quantifier": "all trajectories, all rigid motions, all sign patterns", "why_tests_cant": "Quantifies over trajectories of every length and every frame.", "anchors": ["hand_eye_calibration/python/hand_eye_calibration/dual_quaternion_hand_eye_calibration.py:align_paths_at_index"]}
{"id": "C23", "title": "Offset trajectories satisfy the hand-eye equation", "statement": "If one trajectory is produced from another with compute_dual_quaternions_with_offset for a unit hand-eye transform X, then after aligning both at the same index, every pair satisfies b_i * X = X * w_i up to sign.", "quantifier": "all trajectories, all unit X and world offsets, all indices", "why_tests_cant": "The input space is a continuum; unit tests check a handful of literals.", "anchors": ["hand_eye_calibration/python/hand_eye_calibration/dual_quaternion_hand_eye_calibration.py:compute_dual_quaternions_with_offset", "hand_eye_calibration/python/hand_eye_calibration/dual_quaternion_hand_eye_calibration.py:align_paths_at_index"]}
{"id": "C24", "title": "Noise-free pose pairs pass the scalar-part gate", "statement": "If b * X = X * w for a unit dual quaternion X, the scalar parts of b and w (real and dual) agree exactly, so the scalar-part assertions of the solver never reject exact data for any non-negative tolerance.", "quantifier": "all dual quaternions b, w and unit X; all tolerances >= 0", "why_tests_cant": "The input space is a continuum; unit tests check a handful of literals.", "anchors": ["hand_eye_calibration/python/hand_eye_calibration/dual_quaternion_hand_eye_calibration.py:compute_hand_eye_calibration", "hand_eye_calibration/python/hand_eye_calibration/dual_quaternion_hand_eye_calibration.py:setup_s_matrix", "hand_eye_calibration/python/hand_eye_calibration/dual_quaternion.py:DualQuaternion.scalar"]}
{"id": "C25", "title": "The true calibration solves the linear system", "statement": "For exact data, stacking the per-pose constraint matrices gives a matrix T with T*(X_rot; X_dual) = 0 and T*(0; X_rot) = 0; T has 6 rows per pose.", "quantifier": "all numbers of pose pairs, all unit X, all pairs satisfying the hand-eye equation", "why_tests_cant": "Holds for matrices of every size over a continuum of data.", "anchors": ["hand_eye_calibration/python/hand_eye_calibration/dual_quaternion_hand_eye_calibration.py:setup_s_matrix", "hand_eye_calibration/python/hand_eye_calibration/dual_quaternion_hand_eye_calibration.py:setup_t_matrix"]}
{"id": "C26", "title": "Two non-parallel rotation axes determine the calibration", "statement": "For exact data with at least two pose pairs whose rotation axes are not parallel, every solution of T*y = 0 is a combination of (X_rot; X_dual) and (0; X_rot), so the calibration is unique up to sign.", "quantifier": "all trajectories of any length containing two non-parallel rotation axes, all unit X", "why_tests_cant": "A uniqueness (non-existence of other solutions) statement; the exceptional configurations have measure zero.", "anchors": ["hand_eye_calibration/python/hand_eye_calibration/dual_quaternion_hand_eye_calibration.py:setup_t_matrix", "hand_eye_calibration/python/hand_eye_calibration/dual_quaternion_hand_eye_calibration.py:compute_hand_eye_calibration"]}
{"id": "C27", "title": "The solver recovers the exact calibration", "statement": "On exact data with two non-parallel rotation axes, whenever compute_hand_eye_calibration returns, the returned dual quaternion is the true X (with non-negative scalar part), regardless of which valid singular value decomposition the linear algebra library picks.", "quantifier": "all exact trajectories of any length, all unit X that are not half turns, all valid SVDs of T", "why_tests_cant": "Quantifies over every valid SVD a library could return, and all data.", "anchors": ["hand_eye_calibration/python/hand_eye_calibration/dual_quaternion_hand_eye_calibration.py:compute_hand_eye_calibration"]}
{"id": "C28", "title": "The solver does not refuse exact data", "statement": "On exact, well-conditioned data compute_hand_eye_calibration returns a result instead of failing an assertion.", "quantifier": "all exact trajectories, all valid SVDs of T", "why_tests_cant": "The refusal depends on the basis chosen by the SVD library for a degenerate singular subspace.", "anchors": ["hand_eye_calibration/python/hand_eye_calibration/dual_quaternion_hand_eye_calibration.py:compute_hand_eye_calibration"]}
{"id": "C29", "title": "Any returned calibration is a unit dual quaternion with non-negative scalar part", "statement": "Whenever compute_hand_eye_calibration returns for arbitrary (noisy) data, the returned dual quaternion has unit rotational part and non-negative scalar part, and its dual part is orthogonal to the rotational part whenever the quadratic has a real root.", "quantifier": "all inputs on which the solver returns, all SVD outputs", "why_tests_cant": "The input space is a continuum; unit tests check a handful of literals.", "anchors": ["hand_eye_calibration/python/hand_eye_calibration/dual_quaternion_hand_eye_calibration.py:compute_hand_eye_calibration"]}
{"id": "C30", "title": "The bad_singular_values flag is the documented rank test", "statement": "bad_singular_values is true iff one of the first six singular values is below 0.5 or one of the remaining ones is above 0.5; for exact data with two non-parallel axes it is decided by the sixth singular value alone.", "quantifier": "all lists of singular values", "why_tests_cant": "The input space is a continuum; unit tests check a handful of literals.", "anchors": ["hand_eye_calibration/python/hand_eye_calibration/dual_quaternion_hand_eye_calibration.py:compute_hand_eye_calibration"]}
{"id": "C31", "title": "The solver ignores the sign of input dual quaternions", "statement": "Flipping the sign of any of the eye-pose dual quaternions (same rigid motion) whose pose pair has non-zero scalar part does not change what compute_hand_eye_calibration builds and returns.", "quantifier": "all inputs, all sign patterns", "why_tests_cant": "There are 2^n sign patterns for n poses.", "anchors": ["hand_eye_calibration/python/hand_eye_calibration/dual_quaternion_hand_eye_calibration.py:compute_hand_eye_calibration"]}
{"id": "C32", "title": "Prefiltering keeps a dispersed, order-preserving, still-paired subset", "statement": "prefilter_using_screw_axis returns two equally long lists that are the same order-preserving selection of the inputs; every kept motion has a usable screw axis; any two kept pairs differ by more than the threshold in both lists; every dropped pair is degenerate or too close to a kept pair before it; the inputs are not modified; it fails exactly if fewer than two pairs are kept.", "quantifier": "all pairs of trajectories of equal length, all thresholds", "why_tests_cant": "In-place deletion while iterating is index-sensitive; correctness must hold for every list and similarity pattern.", "anchors": ["hand_eye_calibration/python/hand_eye_calibration/dual_quaternion_hand_eye_calibration.py:prefilter_using_screw_axis"]}
{"id": "C33", "title": "Prefiltering twice changes nothing", "statement": "Applying prefilter_using_screw_axis to its own output returns that output.", "quantifier": "all trajectories and thresholds on which the filter succeeds", "why_tests_cant": "Quantifies over all lists.", "anchors": ["hand_eye_calibration/python/hand_eye_calibration/dual_quaternion_hand_eye_calibration.py:prefilter_using_screw_axis"]}
{"id": "C34", "title": "Pose error is a proper discrepancy", "statement": "compute_pose_error returns a non-negative position error and an angle in [0,180] degrees; both vanish on equal poses; the angle is unchanged when either quaternion is negated (outside the tolerance branch); the position error is symmetric and obeys the triangle inequality.", "quantifier": "all pairs of poses with non-degenerate quaternions", "why_tests_cant": "The input space is a continuum; unit tests check a handful of literals.", "anchors": ["hand_eye_calibration/python/hand_eye_calibration/dual_quaternion_hand_eye_calibration.py:compute_pose_error", "hand_eye_calibration/python/hand_eye_calibration/quaternion.py:angle_between_quaternions"]}
{"id": "C35", "title": "evaluate_alignment counts inliers and RMSE as documented", "statement": "evaluate_alignment flags pose i iff both its position and orientation error are strictly below the thresholds, the returned RMSEs are the root mean squares of the individual errors over all pairs, hence zero iff all errors are zero and never above the largest error.", "quantifier": "all pairs of equally long, non-empty pose lists and all thresholds", "why_tests_cant": "Holds for every list length.", "anchors": ["hand_eye_calibration/python/hand_eye_calibration/dual_quaternion_hand_eye_calibration.py:evaluate_alignment", "hand_eye_calibration/python/hand_eye_calibration/dual_quaternion_hand_eye_calibration.py:compute_pose_error"]}
{"id": "C36", "title": "A perfect calibration has zero alignment error", "statement": "For exact aligned data and the true X, get_aligned_poses returns two pose lists with zero position and orientation error, so evaluate_alignment reports RMSE 0 and every pose an inlier for positive thresholds.", "quantifier": "all exact trajectories of any length, all unit X", "why_tests_cant": "The input space is a continuum; unit tests check a handful of literals.", "anchors": ["hand_eye_calibration/python/hand_eye_calibration/dual_quaternion_hand_eye_calibration.py:get_aligned_poses", "hand_eye_calibration/python/hand_eye_calibration/dual_quaternion_hand_eye_calibration.py:evaluate_alignment"]}
{"id": "C37", "title": "RANSAC reports a candidate no evaluated candidate beats", "statement": "When the RANSAC calibration succeeds, the reported (position, orientation) RMSE pair belongs to an evaluated candidate, no evaluated candidate is strictly better in both, the reported inlier count is at least min_num_inliers, and the reported calibration is that candidate's.", "quantifier": "all data, all random sample sequences, all configurations, all numbers of iterations", "why_tests_cant": "Quantifies over all random schedules.", "anchors": ["hand_eye_calibration/python/hand_eye_calibration/dual_quaternion_hand_eye_calibration.py:compute_hand_eye_calibration_RANSAC"]}
{"id": "C38", "title": "RANSAC succeeds iff some sample was accepted", "statement": "The RANSAC calibration reports success iff at least one drawn sample passed all checks and gave a calibration with finite errors; otherwise it returns (False, None, (inf, inf), 0, number of filtered poses, runtime, None, True).", "quantifier": "all data, all random sample sequences, all configurations", "why_tests_cant": "Quantifies over all random schedules.", "anchors": ["hand_eye_calibration/python/hand_eye_calibration/dual_quaternion_hand_eye_calibration.py:compute_hand_eye_calibration_RANSAC"]}
{"id": "C39", "title": "Exhaustive RANSAC evaluates every sample exactly once and terminates", "statement": "With enable_exhaustive_search the loop draws every sample_size-subset of the poses exactly once, in a fixed order independent of the random generator, and then stops after exactly binomial(n, sample_size) draws.", "quantifier": "all numbers of poses and sample sizes", "why_tests_cant": "Quantifies over all n and k.", "anchors": ["hand_eye_calibration/python/hand_eye_calibration/dual_quaternion_hand_eye_calibration.py:compute_hand_eye_calibration_RANSAC"]}
{"id": "C40", "title": "RANSAC terminates within its iteration budget", "statement": "Without exhaustive search the calibration returns after at most ransac_max_number_iterations draws.", "quantifier": "all data and all random sample sequences", "why_tests_cant": "Non-termination cannot be observed by a finite test.", "anchors": ["hand_eye_calibration/python/hand_eye_calibration/dual_quaternion_hand_eye_calibration.py:compute_hand_eye_calibration_RANSAC"]}
{"id": "C41", "title": "RANSAC early abort keeps the promised confidence", "statement": "When early abort triggers after k full iterations, the probability that all k samples contained an outlier, (1 - (1-outlier_probability)^sample_size)^k, is below 1 - success_probability_threshold.", "quantifier": "all outlier probabilities and success thresholds strictly between 0 and 1, all sample sizes", "why_tests_cant": "The input space is a continuum; unit tests check a handful of literals.", "anchors": ["hand_eye_calibration/python/hand_eye_calibration/dual_quaternion_hand_eye_calibration.py:compute_hand_eye_calibration_RANSAC"]}
{"id": "C42", "title": "RANSAC aligns the data at the first sampled pose", "statement": "In every RANSAC iteration, the trajectories are re-based at the pose pair that was drawn first in the sample.", "quantifier": "all data, all samples, with and without prefiltering", "why_tests_cant": "The mismatch only appears if prefiltering removed an earlier pose, and is silent.", "anchors": ["hand_eye_calibration/python/hand_eye_calibration/dual_quaternion_hand_eye_calibration.py:compute_hand_eye_calibration_RANSAC"]}
{"id": "C43", "title": "BASELINE calibration supports both of its documented modes", "statement": "The BASELINE calibration returns a result (success or failure) both with and without exhaustive search, on all data satisfying its preconditions.", "quantifier": "all data and configurations", "why_tests_cant": "The failing path raises only after an exhaustive sweep.", "anchors": ["hand_eye_calibration/python/hand_eye_calibration/dual_quaternion_hand_eye_calibration.py:compute_hand_eye_calibration_BASELINE"]}
{"id": "C44", "title": "Time offset is equivariant under clock shifts", "statement": "Adding a constant to all time stamps of B increases the computed offset by that constant, adding it to A decreases it by that constant, and adding it to both changes nothing.", "quantifier": "all signals, time vectors and shifts", "why_tests_cant": "The input space is a continuum; unit tests check a handful of literals.", "anchors": ["hand_eye_calibration/python/hand_eye_calibration/time_alignment.py:calculate_time_offset_from_signals"]}
{"id": "C45", "title": "Time offset of a shifted copy is the shift", "statement": "If signal B is signal A delayed by m samples (zero outside), the computed offset is exactly m sample periods plus the difference of the first time stamps.", "quantifier": "all signals that are not identically zero, all lengths and shifts", "why_tests_cant": "Requires the correlation maximum to be unique for every signal (Cauchy-Schwarz), not for a few.", "anchors": ["hand_eye_calibration/python/hand_eye_calibration/time_alignment.py:calculate_time_offset_from_signals"]}
{"id": "C46", "title": "Resampled orientations are interpolated between their neighbours", "statement": "For every sample time inside the time range, resample_quaternions_from_samples returns the recorded orientation at recorded times and otherwise the slerp of the two neighbouring orientations at the proportional fraction.", "quantifier": "all strictly increasing time vectors (including absolute Unix times), all sample times in range", "why_tests_cant": "Relative tolerance makes the behaviour depend on the magnitude of the time stamps; tests use small ones.", "anchors": ["hand_eye_calibration/python/hand_eye_calibration/time_alignment.py:resample_quaternions_from_samples", "hand_eye_calibration/python/hand_eye_calibration/time_alignment.py:interpolate_poses_from_samples"]}
{"id": "C47", "title": "Aligned pose tables correspond row by row", "statement": "compute_aligned_poses returns two tables with the same number of rows and equal time columns, sorted by time; every row time is a stamp of the lower-rate (shifted) table inside the overlap of both, has a stamp of the other table at most 0.1 s away on both sides (or coincides with one), and the interpolation never fails.", "quantifier": "all time-sorted pose tables with unit quaternions, all offsets", "why_tests_cant": "Quantifies over all pairs of time grids.", "anchors": ["hand_eye_calibration/python/hand_eye_calibration/time_alignment.py:compute_aligned_poses"]}
{"id": "C48", "title": "Angular velocity filtering clips and smooths without overshoot", "statement": "With kernel size k and a non-negative clip value m, every filtered value is an average of clipped values and lies in [-m, m]; values already inside the range are not altered by clipping.", "quantifier": "all signals, kernel sizes and percentiles", "why_tests_cant": "The input space is a continuum; unit tests check a handful of literals.", "anchors": ["hand_eye_calibration/python/hand_eye_calibration/time_alignment.py:filter_and_smooth_angular_velocity"]}
{"id": "C49", "title": "JPL input is converted to Hamilton convention", "statement": "Reading a CSV file with JPL_quaternion_format=True returns poses whose quaternions are the conjugates of the stored ones, normalised, in both returned arrays.", "quantifier": "all tables", "why_tests_cant": "Existing tests only use Hamilton files.", "anchors": ["hand_eye_calibration/python/hand_eye_calibration/csv_io.py:read_time_stamped_poses_from_csv_file"]}
{"id": "C50", "title": "CSV pose tables survive a write/read round trip", "statement": "Writing a table with write_time_stamped_poses_to_csv_file and reading it back returns the same number of rows with the same columns, each time stamp and position within 0.5e-18 of the original.", "quantifier": "all tables of numbers", "why_tests_cant": "The input space is a continuum; unit tests check a handful of literals.", "anchors": ["hand_eye_calibration/python/hand_eye_calibration/csv_io.py:write_time_stamped_poses_to_csv_file", "hand_eye_calibration/python/hand_eye_calibration/csv_io.py:read_time_stamped_poses_from_csv_file"]}
{"id": "C51", "title": "Extrinsic calibration files round trip", "statement": "Writing an extrinsic calibration to JSON and reading it back with the same convention flag yields the same time offset and the same rigid motion; with different flags it yields the conjugate rotation.", "quantifier": "all calibrations with non-degenerate rotation", "why_tests_cant": "The input space is a continuum; unit tests check a handful of literals.", "anchors": ["hand_eye_calibration/python/hand_eye_calibration/extrinsic_calibration.py:ExtrinsicCalibration"]}
{"id": "C52", "title": "Composing extrinsic calibrations composes motions and adds offsets", "statement": "Multiplying calibrations is associative with the zero-offset identity as unit, adds time offsets and composes point transformations.", "quantifier": "all calibrations", "why_tests_cant": "The input space is a continuum; unit tests check a handful of literals.", "anchors": ["hand_eye_calibration/python/hand_eye_calibration/extrinsic_calibration.py:ExtrinsicCalibration.__mul__"]}
{"id": "C53", "title": "Loop error uses the right edges and vanishes on consistent calibrations", "statement": "For every number n >= 2 of pose sets, compute_loop_error chains exactly the pairwise results (0,1),(1,2),...,(n-2,n-1) and the inverse of (0,n-1) of the list ordered like itertools.combinations; if the results come from globally consistent frames the loop error is zero.", "quantifier": "all n >= 2, all consistent families of calibrations", "why_tests_cant": "Index arithmetic must be right for every n; tests use n = 3 or 4.", "anchors": ["hand_eye_calibration/python/hand_eye_calibration/calibration_verification.py:compute_loop_error"]}
{"id": "C54", "title": "Data dropping removes exactly the requested number of samples", "statement": "introduce_data_drops with an admissible configuration terminates having removed (or set to None) exactly the requested number of samples, leaving all others unchanged and in order.", "quantifier": "all lists, configurations and random draws", "why_tests_cant": "Random loop; termination and exactness over all draws.", "anchors": ["hand_eye_calibration/python/hand_eye_calibration/test_tools.py:introduce_data_drops"]}
{"id": "C55", "title": "Cached pipeline steps are re-run after a crash", "statement": "In close_the_circle_test, a pipeline step whose outputs were only partially written (crash in between), or whose inputs are newer than an output, is re-run.", "quantifier": "all crash points, all sets of existing output files and modification times", "why_tests_cant": "Quantifies over crash points.", "anchors": ["hand_eye_calibration/scripts/close_the_circle_test.py:requiresUpdate", "hand_eye_calibration/scripts/close_the_circle_test.py:getMTimes"]}
{"id": "C56", "title": "create_path makes the directory or reports an error", "statement": "bash_utils.create_path(filepath) leaves the parent directory of filepath existing, is idempotent, and tolerates concurrent creation by another process.", "quantifier": "all paths and all interleavings with another creator", "why_tests_cant": "Race with another process between the check and the creation.", "anchors": ["hand_eye_calibration/python/hand_eye_calibration/bash_utils.py:create_path"]}
{"id": "C57", "title": "tf export reports the number of exported poses", "statement": "write_transformation_to_csv_file writes exactly one CSV row per successful transform lookup, in bag order, and the number of exported poses it reports is the number of rows written.", "quantifier": "all message sequences with any pattern of failed lookups", "why_tests_cant": "Quantifies over all failure patterns.", "anchors": ["hand_eye_calibration/bin/tf_to_csv.py:write_transformation_to_csv_file"]}
{"id": "C58", "title": "Experiment results record the configuration that was run", "statement": "The CSV line written for an experiment has as many fields as the header, and its algorithm, prefiltering and iteration fields equal the configuration used.", "quantifier": "all configurations", "why_tests_cant": "The input space is a continuum; unit tests check a handful of literals.", "anchors": ["hand_eye_calibration_experiments/python/hand_eye_calibration_experiments/experiment_results.py:ResultEntry"]}
{"id": "C59", "title": "Collected results are grouped by method without loss", "statement": "collect_data_from_csv puts every successful, well-conditioned row into the group of its method exactly once and in file order, and no other rows.", "quantifier": "all result tables", "why_tests_cant": "The input space is a continuum; unit tests check a handful of literals.", "anchors": ["hand_eye_calibration_experiments/python/hand_eye_calibration_experiments/experiment_plotting_tools.py:collect_data_from_csv"]}
{"id": "C60", "title": "Spoiled initial guesses respect the requested ranges", "statement": "spoil_initial_guess perturbs time offset, translation and rotation by amounts inside the requested ranges, and reports exactly the perturbation applied; its internal assertions never fire.", "quantifier": "all initial guesses, ranges and random draws", "why_tests_cant": "Random draws over a continuum.", "anchors": ["hand_eye_calibration_experiments/bin/optimization_experiments.py:spoil_initial_guess"]}
{"id": "C61", "title": "RANSAC on noise-free data finds the true transform", "statement": "If the camera is rigidly mounted on the robot hand, the measurements are exact and the motion turns about two different axes, every calibration RANSAC reports is the true transform with zero errors and all poses as inliers; and with enough poses and a solver that returns, RANSAC does report one within its iteration budget.", "quantifier": "all exact data, all random sample sequences, all valid singular value decompositions", "why_tests_cant": "Quantifies over all random schedules, transforms and motions.", "anchors": ["hand_eye_calibration/python/hand_eye_calibration/dual_quaternion_hand_eye_calibration.py:compute_hand_eye_calibration_RANSAC", "hand_eye_calibration/python/hand_eye_calibration/dual_quaternion_hand_eye_calibration.py:compute_hand_eye_calibration"]}
{"id": "C62", "title": "No supported stamp of the slower table is lost", "statement": "Every stamp of the lower-rate table that lies inside the overlap of both tables and coincides with a stamp of the other table, or lies between two of them at most 0.1 s away, gives a row of the aligned tables.", "quantifier": "all time-sorted pose tables with unit quaternions, all offsets", "why_tests_cant": "The loss happens at the end of the tables only and is silent.", "anchors": ["hand_eye_calibration/python/hand_eye_calibration/time_alignment.py:compute_aligned_poses"]}
{"id": "C63", "title": "The velocity filter treats both senses of rotation alike", "statement": "Reversing the direction of rotation (negating all angular velocities) negates the filtered angular velocities, so that their norms do not depend on the direction of rotation.", "quantifier": "all signals, kernel sizes and percentiles", "why_tests_cant": "The asymmetry shows only for signals that rotate mostly in one sense.", "anchors": ["hand_eye_calibration/python/hand_eye_calibration/time_alignment.py:filter_and_smooth_angular_velocity"]}
{"id": "C64", "title": "Synchronised sensors on one body have no time offset", "statement": "Two rigidly connected sensors, each reporting in a world frame of its own, have angular velocity signals of the same length, so that with synchronised clocks the computed time offset is zero.", "quantifier": "all motions, mountings and world frames", "why_tests_cant": "Needs the invariance for all mountings; tests use one fixed pair of recordings.", "anchors": ["hand_eye_calibration/python/hand_eye_calibration/time_alignment.py:calculate_time_offset", "hand_eye_calibration/python/hand_eye_calibration/time_alignment.py:compute_angular_velocity_norms"]}
{"id": "C65", "title": "Resampling honours the requested period", "statement": "resample_quaternions(times, quaternions, dt) returns samples that are dt apart, so that two recordings resampled with the same dt have the same sampling period.", "quantifier": "all time ranges and periods", "why_tests_cant": "Holds exactly for the round numbers used in tests.", "anchors": ["hand_eye_calibration/python/hand_eye_calibration/time_alignment.py:resample_quaternions", "hand_eye_calibration/python/hand_eye_calibration/time_alignment.py:calculate_time_offset"]}
{"id": "C66", "title": "Gap warnings of the tf export point at the gaps", "statement": "For a transform published at a constant rate the tf export prints no warning about dropped samples, and if one single sample is missing (from the fourth on) it prints exactly one, at the first sample after the gap.", "quantifier": "all rates, all start times, all lengths and all positions of the missing sample", "why_tests_cant": "The running mean that the warning is based on depends on the whole history.", "anchors": ["hand_eye_calibration/bin/tf_to_csv.py:write_transformation_to_csv_file"]}
{"id": "C67", "title": "Names of the algorithms say what was run", "statement": "All configurations of the experiments have different names; each name is known to the plotting tools, whose short name says that the poses were prefiltered and the result optimized exactly if the configuration says so.", "quantifier": "all configurations of the experiments", "why_tests_cant": "Tests do not relate the configurations to the plotting tools.", "anchors": ["hand_eye_calibration_experiments/python/hand_eye_calibration_experiments/all_algorithm_configs.py:get_all_configs", "hand_eye_calibration_experiments/python/hand_eye_calibration_experiments/experiment_plotting_tools.py:collect_data_from_csv"]}
{"id": "C68", "title": "Result files of the experiments can be read by the plotting tools", "statement": "Every set of result files written by the experiments is read by collect_data_from_csv, giving one row for each line, in the order of files and lines.", "quantifier": "all sets of result files", "why_tests_cant": "The writer and the reader are in different scripts and are never run together by tests.", "anchors": ["hand_eye_calibration_experiments/python/hand_eye_calibration_experiments/experiment_results.py:ResultEntry", "hand_eye_calibration_experiments/python/hand_eye_calibration_experiments/experiment_plotting_tools.py:collect_data_from_csv"]}
{"id": "C69", "title": "A failed calibration of one pair does not lose the results of the others", "statement": "If the calibration or the optimization of one pair of pose sets fails in an iteration of the experiments, the iteration still ends normally and the results of all pairs are written, with the failed one marked.", "quantifier": "all sets of pairs, all patterns of failures, all optimizers", "why_tests_cant": "Failures are random (RANSAC) and rare.", "anchors": ["hand_eye_calibration_experiments/bin/compute_set_of_hand_eye_calibrations.py"]}
{"id": "C70", "title": "Aligned rows are the poses of the two trajectories at their time", "statement": "Each row of the two aligned tables has the position on the segment between the two recorded neighbours of its time, and an orientation on the arc between the two recorded neighbours, at the same fraction; for the first table its stamps are shifted by the offset first.", "quantifier": "all tables with increasing stamps and unit quaternions, all offsets", "why_tests_cant": "Tests use relative times near zero and rates where the tolerance of the time comparison does not matter.", "anchors": ["hand_eye_calibration/python/hand_eye_calibration/time_alignment.py:compute_aligned_poses", "hand_eye_calibration/python/hand_eye_calibration/time_alignment.py:interpolate_poses_from_samples", "hand_eye_calibration/python/hand_eye_calibration/time_alignment.py:resample_quaternions_from_samples"]}
{"id": "C71", "title": "Evaluating the true calibration reports no error", "statement": "If two tables are recorded by two sensors on one rigid body, evaluating them with the true time offset and the true hand-eye transform gives zero errors, with all aligned poses as inliers, for all thresholds; tables that do not overlap in time give infinite errors and no inliers.", "quantifier": "all trajectories, all world frames, all transforms and offsets, all positive thresholds", "why_tests_cant": "The evaluation is only run on recorded data whose true calibration is not known.", "anchors": ["hand_eye_calibration/python/hand_eye_calibration/calibration_verification.py:evaluate_calibration"]}
{"id": "C72", "title": "The calibration script writes the true transform", "statement": "Given the poses (or inverse poses) of two sensors on one rigid body without noise, every result that compute_hand_eye_calibration.py writes is the true transform, as pose file and as calibration file (with the given delay), and it does write them if there are at least ten poses starting with enough rotation; ambiguous or missing inputs are rejected.", "quantifier": "all motions about two axes without an exact half turn from the first pose, all world frames, all mountings that are not a half turn, all choices of direct and inverted input", "why_tests_cant": "Needs the whole chain of inversion, alignment, prefiltering, search and refinement for all motions; the tests call the parts on one generated path.", "anchors": ["hand_eye_calibration/bin/compute_hand_eye_calibration.py", "hand_eye_calibration/python/hand_eye_calibration/dual_quaternion_hand_eye_calibration.py:compute_hand_eye_calibration_RANSAC"]}
{"id": "C73", "title": "The time offset of two recordings of one motion is exact", "statement": "If two sensors on one body record the same motion (one clock delayed by a whole number of sample periods, the body at rest at both ends), the computed time offset maps the stamps of the first recording to the stamps at which the second one shows the same; in particular a recording has no offset to itself.", "quantifier": "all motions, all mountings, all start times and delays, recordings of one or of different rates, all filter settings including the default", "why_tests_cant": "The offset is the position of a maximum over the whole recording.", "anchors": ["hand_eye_calibration/python/hand_eye_calibration/time_alignment.py:calculate_time_offset", "hand_eye_calibration/python/hand_eye_calibration/time_alignment.py:FilteringConfig"]}
{"id": "C74", "title": "The alignment script writes the poses of both recordings in Hamilton's convention", "statement": "compute_aligned_poses.py rejects unknown quaternion formats; otherwise the two files that it writes have the same stamps, and each row is the pose of its recording at that time (for the first recording after its stamps are moved by the offset that is written), as Hamilton quaternions, whichever of the two formats the input is in.", "quantifier": "all recordings with increasing stamps and non-zero quaternions, both formats", "why_tests_cant": "The script is never run by tests; JPL data are rarely used.", "anchors": ["hand_eye_calibration/bin/compute_aligned_poses.py", "hand_eye_calibration/python/hand_eye_calibration/csv_io.py:read_time_stamped_poses_from_csv_file"]}
{"id": "C75", "title": "Alignment and calibration scripts together recover the true calibration", "statement": "Two exact recordings of one body by two sensors with different clocks, frames and rates, given to compute_aligned_poses.py and its output to compute_hand_eye_calibration.py: the time offset that is written is the true one, and the transform in the pose file and in the calibration file is the true one, if the body rests at both ends, turns about two axes but never by half a turn from its start, and no component of its angular velocity exceeds the percentile limits; if it stands still before the first turn and a later turn is about a clearly different axis, both scripts do end normally.", "quantifier": "all motions, frames, mountings (no half turn), clocks, delays by whole periods, integer ratios of rates, all signs of quaternions", "why_tests_cant": "The two scripts are only run one after the other by hand; the claim is about all motions.", "anchors": ["hand_eye_calibration/bin/compute_aligned_poses.py", "hand_eye_calibration/bin/compute_hand_eye_calibration.py", "hand_eye_calibration/python/hand_eye_calibration/time_alignment.py:calculate_time_offset", "hand_eye_calibration/python/hand_eye_calibration/time_alignment.py:compute_aligned_poses"]}
{"id": "C76", "title": "The circle of three sensors closes", "statement": "Three sensors on one body, with different frames, mountings, clocks and rates, record one motion exactly: the initial calibration that close_the_circle_test.py computes for each pair has the true time offset and the true transform between the two sensors, and around the circle the offsets add up to zero and the transforms compose to the identity.", "quantifier": "all motions about two axes, all frames, mountings (no half turn between two of them), clocks, delays by whole periods, integer ratios of rates, all random numbers, whatever the batch estimator does", "why_tests_cant": "The script needs recorded data, a ROS installation and the batch estimator; nothing checks what it prints.", "anchors": ["hand_eye_calibration/scripts/close_the_circle_test.py:calibrateTwo", "hand_eye_calibration/scripts/close_the_circle_test.py:computeCircle", "hand_eye_calibration/python/hand_eye_calibration/extrinsic_calibration.py:ExtrinsicCalibration"]}
{"id": "C77", "title": "The plots of the experiments show exactly the results that count", "statement": "generate_plots.py shows one box plot for each dataset and one plot of the runtimes: at each tick, labelled with the algorithm, are the boxes of exactly the rows (successful, without bad singular values) of this algorithm on this dataset; no two boxes overlap, all are within the limits, and different datasets have different colours.", "quantifier": "all results of the experiments", "why_tests_cant": "The plots are only looked at.", "anchors": ["hand_eye_calibration_experiments/bin/generate_plots.py:generate_box_plot", "hand_eye_calibration_experiments/bin/generate_plots.py:generate_time_plot", "hand_eye_calibration_experiments/bin/generate_plots.py:generate_plots"]}
{"id": "C78", "title": "The error plot shows the mean loop error of each range of perturbations", "statement": "The error plot of generate_plots.py has one figure for each bin of the first, one row for each bin of the second and one column for each bin of the third part of the perturbation (in the order given by the name), and each entry is the mean position and orientation loop error of exactly the rows whose perturbation lies in these bins.", "quantifier": "all results of the experiments, all grids, all orders", "why_tests_cant": "The bins are only looked at as colours.", "anchors": ["hand_eye_calibration_experiments/bin/generate_plots.py:generate_error_plot"]}
{"id": "C79", "title": "The experiments with spoiled initial guesses cover all ranges, and the plots show them", "statement": "optimization_experiments.py runs each combination of the ranges of time, angle and translation the given number of times for each pair, with a perturbation inside the ranges; generate_plots.py shows, with the settings of the scripts, for each combination the mean loop error of exactly its successful runs.", "quantifier": "all initial guesses, all random numbers, all optimizers, all numbers of iterations and pairs", "why_tests_cant": "The scripts need hours with the batch estimator; the two scripts are configured by hand.", "anchors": ["hand_eye_calibration_experiments/bin/optimization_experiments.py:run_optimization_experiment", "hand_eye_calibration_experiments/bin/optimization_experiments.py", "hand_eye_calibration_experiments/bin/generate_plots.py:generate_error_plot"]}
{"id": "C80", "title": "The trajectories of the tests are what the tests need", "statement": "generate_test_paths gives two trajectories that start at the identity and, without outliers and noise, satisfy the hand-eye equation for the given transform and determine it; outliers are far from the trajectory and leave the other pairs valid; noise disturbs position and orientation; paths_start_at_origin may be switched off.", "quantifier": "all numbers of samples, all transforms, all options, all random numbers", "why_tests_cant": "The helpers are used by the tests and never tested themselves; whether a test that passes says anything depends on them.", "anchors": ["hand_eye_calibration/python/hand_eye_calibration/hand_eye_test_helpers.py:generate_test_paths", "hand_eye_calibration/python/hand_eye_calibration/hand_eye_test_helpers.py:generate_test_path"]}
{"id": "C81", "title": "The export of bags writes the table of every configured source to a file of its own", "statement": "bag_to_csv_with_config.py exports, for every bag of the configuration, every pair of tf frames and every camera to a csv file of its own, with the arguments of the configuration; tools that fail and lists of different lengths are reported; nothing else is written.", "quantifier": "all configurations, all behaviours of the tools, all files present before", "why_tests_cant": "The script needs ROS and recorded bags; names that collide lose data without any message.", "anchors": ["hand_eye_calibration/bin/bag_to_csv_with_config.py", "hand_eye_calibration/bin/target_extractor_interface.py"]}
{"id": "C82", "title": "The assertions of the repository's unit tests hold", "statement": "Every assertion of test_quaternion.py and test_dual_quaternion.py holds with the numbers and tolerances of the test (where the test checks an identity: for all inputs); the random transforms of the tests are unit dual quaternions with a positive scalar part that move points as the drawn rotation and translation do; in test_hand_eye_calibration every assertion after the one about the success holds for all draws, also with outliers as long as these are visible; with noise it depends on the reported calibration alone; the tests of test_time_alignment.py raise no error for any draws.", "quantifier": "the inputs of the tests; all dual quaternions, poses and points for the identities; all drawn rotations and translations, all samples drawn by RANSAC and all correct singular value decompositions for the calibration test", "why_tests_cant": "The tests run for one draw of the random numbers; half turns, for which the random transforms are not finite, have probability zero and are never drawn.", "anchors": ["hand_eye_calibration/test/test_quaternion.py", "hand_eye_calibration/test/test_dual_quaternion.py", "hand_eye_calibration/test/test_hand_eye_calibration.py", "hand_eye_calibration/test/test_time_alignment.py", "hand_eye_calibration/python/hand_eye_calibration/hand_eye_test_helpers.py"]}
{"id": "C83", "title": "The figures of the time alignment show the data and the offset that they are said to show", "statement": "The figure of the correlation shows the correlation of the two signals at exactly the lags at which they overlap, each over its lag, and the returned offset belongs to its highest, leftmost peak; the other panels show both signals over their times, shifted to start at zero, with the offset added to the times of A in the last one, so that samples paired by the peak lie on top of each other for equal periods. The figures of the input, of the filter and of the aligned poses show every value that they are given, and the panel of the norms of the angular velocities shows the norms before the filter.", "quantifier": "all signals and times of equal lengths with at least two samples, all rates and filter settings, all tables that can be aligned", "why_tests_cant": "The plots are never checked: the tests run with plotting off, and a wrong axis or a repeated curve raises no error.", "anchors": ["hand_eye_calibration/python/hand_eye_calibration/time_alignment_plotting_tools.py", "hand_eye_calibration/python/hand_eye_calibration/time_alignment.py"]}
{"id": "C84", "title": "The figures of trajectories and errors show the poses that they are given", "statement": "Up to as many trajectories as there are colours are drawn, each as the line through all of its positions in a colour of its own, within axes that are as small as possible; at every pose three arrows of equal length show the axes of its frame and lie within the axes; the figure of the errors shows the errors of all pairs and their root mean squares, which run between the smallest and the largest error; every n-th pose is drawn.", "quantifier": "all lists of trajectories, all poses with unit quaternions, all thresholds and positive thinnings", "why_tests_cant": "The plots are never checked: test_plot_poses only calls the function with two trajectories that move.", "anchors": ["hand_eye_calibration/python/hand_eye_calibration/hand_eye_calibration_plotting_tools.py", "hand_eye_calibration/python/hand_eye_calibration/calibration_verification.py", "hand_eye_calibration/python/hand_eye_calibration/dual_quaternion_hand_eye_calibration.py"]}
{"id": "C85", "title": "The error of the hand-eye solver is bounded by a multiple of the noise of the poses", "statement": "If every measured pose differs from the true one by at most eta, the calibration that the solver returns differs from the true one by at most a multiple of eta over the sixth singular value, in the angle of the rotation and in where it moves any point; for small noise the returned calibration is a rigid motion; the poses of the eye may be measured with either sign.", "quantifier": "all numbers of pose pairs, all true calibrations, all noise (not only random), every correct singular value decomposition", "why_tests_cant": "The tests add noise to one or two random trajectories and compare with fixed tolerances; they cannot show how the error scales, and they contain no half turns.", "anchors": ["hand_eye_calibration/python/hand_eye_calibration/dual_quaternion_hand_eye_calibration.py"]}
{"id": "C86", "title": "The target extractor writes one row per good image, and the row is the pose of the camera in the frame of the target", "statement": "The pose files of the target extractor have, in the order of the images, one row for each image in which the target is found, the pose estimation succeeds and more than the given part of the corners are inliers: the number or the time stamp of that image, the estimated position (in metres or millimetres) and a unit quaternion with non-negative scalar part that turns as the estimated rotation. Reading the file gives that pose. The log of the corners has one row per observed corner, with the projection of its position in the camera frame.", "quantifier": "all bags, all detectors, estimators and cameras, all flags", "why_tests_cant": "There are no tests of this program; its inputs are images.", "anchors": ["hand_eye_calibration_target_extractor/src/target_extractor.cc", "hand_eye_calibration/python/hand_eye_calibration/csv_io.py", "hand_eye_calibration/bin/target_extractor_interface.py"]}
{"id": "C87", "title": "The batch estimator and csv_io read each other's tables of poses", "statement": "A table of poses written by csv_io is read by the batch estimator as one measurement per row, in order, with the same time, position and rotation in its own convention; its output has the estimated poses at regular times that cover the batch interval, is read back by itself to within the printed digits, and is read by csv_io; tables that one of them accepts are accepted by the other.", "quantifier": "all tables, all trajectories, both settings of use_jpl, every text as a sequence of characters", "why_tests_cant": "The batch estimator has no tests; the two readers are in different languages and packages.", "anchors": ["hand_eye_calibration_batch_estimation/src/batch_estimator.cc", "hand_eye_calibration/python/hand_eye_calibration/csv_io.py"]}
{"id": "C88", "title": "The complete calibration script computes the calibration of the two files it is given, or reports a failure", "statement": "After compute_complete_handeye_calibration.sh, calibration_optimized.json is the batch estimate from the two given tables with the calibration of their alignment as first guess; the inputs are unchanged; if one of the programs fails, the exit code says so.", "quantifier": "all programs, all paths without white space, all contents of the directories", "why_tests_cant": "The script is not tested; its failures depend on what earlier runs left behind.", "anchors": ["hand_eye_calibration/scripts/compute_complete_handeye_calibration.sh"]}
{"id": "C89", "title": "Rounding errors of the quaternion class stay small and trip none of its checks", "statement": "In floating-point arithmetic with relative error u per operation, products, normalisation, long chains of products and the angle between two quaternions are close to the exact values, and the checks for unit length accept quaternions that were normalised and multiplied.", "quantifier": "all quaternions, all machines with u <= 1/1000, chains of up to ten million factors in float64", "why_tests_cant": "The tests run a few random quaternions; which roundings combine badly cannot be seen from samples.", "anchors": ["hand_eye_calibration/python/hand_eye_calibration/quaternion.py", "hand_eye_calibration/python/hand_eye_calibration/dual_quaternion_hand_eye_calibration.py"]}
{"id": "C90", "title": "Rounding errors do not change poses noticeably and do not stop the alignment of paths", "statement": "In floating-point arithmetic a pose survives the way through a dual quaternion up to 50 u times its length, the trajectory of the end effector passes its check on the norm, and align_paths_at_index accepts every path whose alignment pose is not too far away; in float64, every path.", "quantifier": "all poses, all machines with the standard rounding model", "why_tests_cant": "The tests use translations of a few metres.", "anchors": ["hand_eye_calibration/python/hand_eye_calibration/dual_quaternion.py", "hand_eye_calibration/python/hand_eye_calibration/dual_quaternion_hand_eye_calibration.py"]}
{"id": "C91", "title": "RANSAC ignores outliers that are visible in the scalar parts", "statement": "If some measurements are exact (w = g b X, with two rotation axes among them), the others do not match the scalar parts of the relative motions to any good measurement, and no outlier has min_num_inliers measurements that match it, then every calibration that RANSAC reports with its default classification is X, with exactly the good measurements as inliers; the exhaustive search over the unfiltered poses does not raise and succeeds; the random search does not raise, succeeds whenever it ends, and ends once ransac_max_number_iterations samples without outliers were drawn.", "quantifier": "all numbers of measurements and outliers, all mountings that are not half turns, all samples, every valid SVD for which the solver returns on exact data", "why_tests_cant": "The tests with outliers draw a few random data sets and compare with tolerances.", "anchors": ["hand_eye_calibration/python/hand_eye_calibration/dual_quaternion_hand_eye_calibration.py"]}
{"id": "C92", "title": "RANSAC reports the calibration that most measurements support", "statement": "If the measurements support several rigid mountings, the calibration that RANSAC reports is one with the largest number of inliers: no rigid mounting fits more measurements than the reported calibration has inliers.", "quantifier": "all data sets, all mountings, all samples, every valid SVD", "why_tests_cant": "The tests with outliers use outliers that agree with no other measurement, never a second consistent group.", "anchors": ["hand_eye_calibration/python/hand_eye_calibration/dual_quaternion_hand_eye_calibration.py"]}
{"id": "C93", "title": "Command lines reach the programs with the values that they name", "statement": "The commands that the scripts compose and run arrive at the programs with the names of the files that were put in, and an option that is given on the command line has the value that its words say, all other options their defaults.", "quantifier": "all file names, all lists of options", "why_tests_cant": "The tests never start the programs through their command lines.", "anchors": ["hand_eye_calibration/python/hand_eye_calibration/bash_utils.py", "hand_eye_calibration/bin/compute_aligned_poses.py", "hand_eye_calibration/bin/compute_hand_eye_calibration.py", "hand_eye_calibration/scripts/close_the_circle_test.py", "hand_eye_calibration/scripts/compute_complete_handeye_calibration.sh"]}
{"id": "C94", "title": "The experiments tell the batch estimator which sensors are absolute", "statement": "For every pair of pose files of an experiment, the batch estimator is started with the flags that --is_absolute_pose_sensor gives for these two files, and the two pose sensors of its model take their measurements for absolute exactly if their flags say so.", "quantifier": "all lists of files and flags, all file names", "why_tests_cant": "No test starts the experiments or looks at the configuration that the estimator sees.", "anchors": ["hand_eye_calibration_experiments/bin/compute_set_of_hand_eye_calibrations.py", "hand_eye_calibration_experiments/bin/optimization_experiments.py", "hand_eye_calibration_batch_estimation/src/batch_estimator.cc", "hand_eye_calibration_batch_estimation/conf/config.info"]}
{"id": "C95", "title": "The calibration does not depend on the choice of the world frames", "statement": "Seen from another world frame, and with other signs of its dual quaternions, each of the two trajectories leads to the same alignment, the same course of RANSAC and the same files written by the calibration script.", "quantifier": "all trajectories of unit dual quaternions without half turns, all world frames and signs, all tables given as poses or inverse poses, all configurations, samples and linear algebra libraries", "why_tests_cant": "The tests use one world frame, in which the first pose is the identity.", "anchors": ["hand_eye_calibration/python/hand_eye_calibration/dual_quaternion_hand_eye_calibration.py", "hand_eye_calibration/bin/compute_hand_eye_calibration.py"]}
{"id": "C96", "title": "The calibration script copes with outliers in its tables", "statement": "If some rows of the two tables are exact measurements of two sensors on one body (two rotation axes among them), no outlier matches a good row in the scalar parts of the motion and fewer than ten rows match an outlier, then whatever the script writes is the true transform, and with ten good rows it does write it.", "quantifier": "all tables given as poses or inverse poses with unit quaternions of either sign, without half turns, all world frames, mountings, outliers, and correct linear algebra libraries", "why_tests_cant": "The tests never run the script, and their outliers are random; whether outliers at the beginning matter is not tested.", "anchors": ["hand_eye_calibration/bin/compute_hand_eye_calibration.py", "hand_eye_calibration/python/hand_eye_calibration/dual_quaternion_hand_eye_calibration.py"]}
{"id": "C97", "title": "A calibration that fits is not rejected because of rounding", "statement": "For every pair of non-empty lists of poses, the orientation error of an alignment is a number, so that RANSAC takes a calibration that fits all poses up to rounding rather than one that is far off.", "quantifier": "all recordings, machine arithmetics with a relative rounding error, implementations of arccos, thresholds and lists of candidates", "why_tests_cant": "The tests compare poses that differ by their noise, so that no angle is within 1e-7 of zero; a nan raises no exception, it only loses every comparison.", "anchors": ["hand_eye_calibration/python/hand_eye_calibration/dual_quaternion_hand_eye_calibration.py", "hand_eye_calibration/python/hand_eye_calibration/quaternion.py"]}
{"id": "C98", "title": "The tools of the export get the arguments that are meant", "statement": "For every configuration of bag_to_csv_with_config.py, each tool that is started reads from its command line the bag, frames, topics, files and target sizes of the configuration, so that the files after the script are those that named arguments would give.", "quantifier": "all configurations, contents of bags and target files, and states of the directory", "why_tests_cant": "No test starts a tool; whether a word is taken as a value or as an option depends on its first character, which the configuration decides.", "anchors": ["hand_eye_calibration/bin/bag_to_csv_with_config.py", "hand_eye_calibration/bin/target_extractor_interface.py", "hand_eye_calibration/bin/tf_to_csv.py", "hand_eye_calibration_target_extractor/src/target_extractor.cc"]}
{"id": "C99", "title": "The commands of the documentation are accepted", "statement": "For all names of files, frames and topics without special characters, the commands of the two READMEs with these names in them start the programs that they name, and the programs read every name as the value of the option that it stands for; the files that a step writes are those that the next step reads.", "quantifier": "all names without white space, quotes, backslashes, other special characters and a leading dash", "why_tests_cant": "The documentation is not run by any test, and a wrong character in it is invisible to tests of the programs.", "anchors": ["README.md", "hand_eye_calibration_experiments/README.md", "hand_eye_calibration/bin/compute_aligned_poses.py", "hand_eye_calibration/bin/compute_hand_eye_calibration.py", "hand_eye_calibration/bin/tf_to_csv.py", "hand_eye_calibration/bin/target_extractor_interface.py", "hand_eye_calibration_batch_estimation/src/batch_estimator.cc", "hand_eye_calibration_experiments/bin/compute_set_of_hand_eye_calibrations.py"]}
{"id": "C100", "title": "Quaternions made of integers behave as quaternions", "statement": "For all numbers, integers or floats in any mixture, the documented constructors give the quaternion or dual quaternion with these components, and products, sums, norms, inverses, normalization, rotation matrices and rotated vectors are those of the same numbers as floats.", "quantifier": "all integer and float components", "why_tests_cant": "The tests use integers from 1 to 4; the arithmetic of int64 differs from that of floats only for large numbers, where it wraps around without an exception.", "anchors": ["hand_eye_calibration/python/hand_eye_calibration/quaternion.py", "hand_eye_calibration/python/hand_eye_calibration/dual_quaternion.py"]}
{"id": "C101", "title": "The experiments with spoiled initial guesses have their own random numbers and files", "statement": "However the pieces of the experiments are assigned to the processes, each experiment is run once, no two calls of spoil_initial_guess use the same number of the random generators, and the files of different experiments and pairs have different names, which state the iteration.", "quantifier": "all assignments of pieces to processes, all streams of random numbers, all ranges and numbers of iterations and pairs", "why_tests_cant": "Which process gets which piece depends on timing; that forked processes share the state of the generator of numpy shows only in the statistics.", "anchors": ["hand_eye_calibration_experiments/bin/optimization_experiments.py", "hand_eye_calibration/python/hand_eye_calibration/quaternion.py"]}
{"id": "C102", "title": "Noise in the recordings moves the time offset by no more than the shape of the motion allows", "statement": "If noise changes no component of the angular velocities of two recordings by more than eA and eB, and shifting the filtered speed of the motion by more than j samples changes its energy by more than four times the possible effect of the noise on the correlation, then calculate_time_offset is off by at most j sample times; for j = 0 it is exact. The filter does not amplify noise: clipping at a percentile and smoothing change no component by more than the noise. Recorded unit quaternions within h of the true orientations (up to sign) give angular velocities within ((pi + 2) h + 0.0094)/dt per component.", "quantifier": "all signals, all noise within the bounds, all motions, delays, gains, kernel sizes and percentiles", "why_tests_cant": "Tests sample a few noise realisations with one motion; the bound is over all noise and needs the Cauchy-Schwarz inequality and the order statistics of the percentile.", "anchors": ["hand_eye_calibration/python/hand_eye_calibration/time_alignment.py"]}
{"id": "C103", "title": "The classic RANSAC, which classifies by pose errors, ignores outliers too", "statement": "With ransac_inlier_classification rmse_threshold and model refinement: if the outliers do not match the scalar parts of the relative motions to any good measurement, no outlier has min_num_inliers measurements that match it, and any min_num_inliers good measurements have two rotation axes, then every reported calibration is X and all its inliers are good (with rmse (0, 0) if it is evaluated on the inliers). If the good measurements have two rotation axes and the outliers, seen from a good measurement with X, are off by at least the orientation or the position threshold, then no sample makes the search raise, the exhaustive search over the unfiltered poses succeeds if some sample of good measurements has two rotation axes, and the random search succeeds whenever it ends, which it does once ransac_max_number_iterations such samples were drawn.", "quantifier": "all numbers of measurements and outliers, all mountings that are not half turns, all samples (also bad ones, whose calibrations need not be rigid motions), every valid SVD for which the solver returns on exact data", "why_tests_cant": "The tests with outliers draw a few random data sets and compare with tolerances; an exception for a rare bad sample stops the whole search.", "anchors": ["hand_eye_calibration/python/hand_eye_calibration/dual_quaternion_hand_eye_calibration.py"]}
{"id": "C104", "title": "RANSAC with noisy measurements and outliers reports a calibration with a bounded error", "statement": "Suppose that the measurements which correspond (in the scalar parts of their relative motions) to a measurement with at least min_num_inliers correspondences fit the mounting X with an error of at most \u03b7. Then every calibration that RANSAC reports, with the classification by scalar parts or by pose errors with refinement, has a rotation off by an angle whose half has a sine of at most 4 \u03b7 \u221an / \u03c3 \u00b7 \u221a(1 + |t|\u00b2/4), with the reported number of inliers n, sixth singular value \u03c3 and translation t; it is a rigid motion if the noise is small; and it moves every point to near where X moves it. Poses measured with an error of at most \u03ba, with relative motions of length at most L, fit the mounting with an error of at most \u03ba (2 + L).", "quantifier": "all numbers of measurements and outliers, all draws, both modes, with and without the prefilter, all thresholds, every valid SVD", "why_tests_cant": "The tests draw random noise and outliers a few times and compare with fixed tolerances that were chosen by trial.", "anchors": ["hand_eye_calibration/python/hand_eye_calibration/dual_quaternion_hand_eye_calibration.py"]}
{"id": "C105", "title": "The sixteen algorithms of the experiments are what their names say and take the samples that their confidence asks for", "statement": "Every configuration of get_all_configs is that of one algorithm: it has the name that the plots abbreviate to its family (B, RC, RS, EC, ES), prefilter (PF_) and optimization (_O), the mode, sample size and inlier classification of its family, and the settings that all of them share. Every combination occurs except exhaustive searches without prefilter. A run of a RANSAC evaluates the number of samples after which the probability to have had one without outliers is above the configured confidence.", "quantifier": "all configurations of the experiments; all measurements, draws and singular value decompositions", "why_tests_cant": "The tests do not use these configurations.", "anchors": ["hand_eye_calibration/python/hand_eye_calibration/algorithm_config.py", "hand_eye_calibration_experiments/python/hand_eye_calibration_experiments/all_algorithm_configs.py", "hand_eye_calibration/python/hand_eye_calibration/dual_quaternion_hand_eye_calibration.py"]}
{"id": "C106", "title": "With measurements of small noise the solver returns a calibration", "statement": "Take measurements of exact data with a small error per pose that begin with the identity, where the error is within the tolerances of the scalar parts and small compared with the sixth singular value and the size of the true translation. Then the solver fails none of its assertions and returns a calibration.", "quantifier": "all lists of poses of any length, all mountings, all noise of the given size, all singular value decompositions", "why_tests_cant": "Tests run the solver on exact data or on one drawn noise and cannot show that no small noise makes it fail.", "anchors": ["hand_eye_calibration/python/hand_eye_calibration/dual_quaternion_hand_eye_calibration.py"]}
{"id": "C107", "title": "RANSAC raises no exception on rigid motions and succeeds exactly if a sample leads to a calibration", "statement": "On poses that are rigid motions, related or not, RANSAC raises an exception only if the prefilter leaves fewer than two poses or fewer than a random sample needs, whatever is drawn and whatever the linear algebra library returns or raises. With the classification by scalar parts: the exhaustive search ends and succeeds exactly if there is a combination whose measurements correspond to the first of them, such that enough of all measurements correspond to the one that the code aligns at, and on all of these the solver returns. The random search succeeds whenever it ends, has ended once the maximum number of such samples was drawn, and goes on while none was drawn.", "quantifier": "all lists of unit dual quaternions of any length, all configurations, all samples drawn, all behaviours of the linear algebra library", "why_tests_cant": "Tests run RANSAC on a few data sets with one library and cannot show that no data set raises an exception or that no success is missed.", "anchors": ["hand_eye_calibration/python/hand_eye_calibration/dual_quaternion_hand_eye_calibration.py"]}
{"id": "C108", "title": "With which probability the random search of RANSAC has ended, and how soon", "statement": "If the samples are drawn independently and uniformly, as random.sample is meant to, the random search with the classification by scalar parts has ended after N samples exactly if at least m of them lead to a calibration, where m is the smaller one of the maximum number of iterations and the number after which the early abort takes place. So the chance of having ended, then with success, is given by the binomial distribution with the share p of samples that lead to a calibration; it is at least 1 - m(1-p)^B after mB samples, tends to one if p is not zero, and is zero otherwise. With visible outliers, p is the number of ordered samples of inliers over that of all ordered samples, and the result is the true mounting. This share is smaller than the power that the early abort calculates with, so the printed confidence is not reached.", "quantifier": "all lists of unit dual quaternions of any length, all configurations with a random search and the classification by scalar parts, all numbers of samples, all behaviours of the linear algebra library", "why_tests_cant": "Tests run one seed or a few and see neither the distribution of the number of samples nor its limit.", "anchors": ["hand_eye_calibration/python/hand_eye_calibration/dual_quaternion_hand_eye_calibration.py"]}
{"id": "C109", "title": "With which probability RANSAC reports which of two mountings", "statement": "Let every pair of poses fit one of two mountings with the same rotation, each supported by enough pairs and told apart from the other by the scalar parts, and let samples be drawn independently and uniformly. Then the chance that RANSAC (random search, classification by scalar parts, without the prefilter) has reported a given one of the mountings within N samples is the chance that it has ended, as in C108, times p / (p + p'), where p and p' are the shares of samples from the two groups. In the long run the mounting of the fewer pairs is reported with this probability, and more samples do not help: 6/209, almost three percent, for ten pairs among forty with samples of three.", "quantifier": "all lists of unit dual quaternions of any length with the two mountings, all configurations with a random search and the classification by scalar parts, all numbers of samples, all behaviours of the linear algebra library", "why_tests_cant": "A test run reports one of the two mountings and shows neither that the other one is possible nor how likely it is, and the probability depends on all sequences of samples.", "anchors": ["hand_eye_calibration/python/hand_eye_calibration/dual_quaternion_hand_eye_calibration.py"]}
{"id": "C110", "title": "Interpolation of orientations keeps its meaning under rounding", "statement": "In floating-point arithmetic with unit roundoff u, for quaternions whose lengths are one up to delta (10 u <= delta <= 4e-6) and numpy functions with errors of at most e: the fraction (t - t_left) / (t_right - t_left) of a time between two different time stamps is a number from 0 to 1, so that the assertion of quaternion_slerp never fails because of rounding, and differs from the exact fraction by at most 4 u; the interpolated quaternion is, up to its sign, the orientation at this fraction of the shortest way up to 21 sqrt(delta) + 3e-7 + 10 e, also for quaternions that are almost equal or almost opposite, where the orthogonal part is not normalised or is mostly rounding error; resampling between the first and the last time stamp never fails and every result is a recorded orientation or near the arc between its neighbours; positions are within 13 u M of the straight line between their neighbours; angular velocities of such quaternions at different times are always numbers (unlike the angle, C89), of at most 2.6 / |t|, and times t they are half of the rotation vector of the relative orientation up to 6000 delta + 2 e, or zero for relative rotations of less than 0.02; the equally spaced samples are within 8 u M of the exact ones and strictly increase if their distance is more than 16 u M, so that the assertion of positive time steps never fails. For float64 the interpolated quaternion of normalised quaternions is within 1e-6 + 10 e.", "quantifier": "all quaternions of length one up to delta, all increasing time stamps, all samples within them, all arithmetics with unit roundoff u (float64 as an instance), all arccos, cos and sin with errors of at most e, all numbers of samples", "why_tests_cant": "Whether a rounded fraction exceeds one, an argument leaves the domain of a function, or an almost vanishing difference is normalised depends on single bits of the inputs, which no finite set of tests covers.", "anchors": ["hand_eye_calibration/python/hand_eye_calibration/quaternion.py", "hand_eye_calibration/python/hand_eye_calibration/time_alignment.py"]}
{"id": "C111", "title": "Resampling makes as many samples as there are poses", "statement": "For increasing time stamps and the mean of their differences as time step, resample_quaternions makes one sample for every pose.", "quantifier": "all lists of at least two increasing time stamps, exact arithmetic and all floating-point arithmetics with unit roundoff u and (number of poses + 7)^2 u <= 1/4, any order of the additions in np.mean", "why_tests_cant": "The number is the integer part of a quotient that is an integer in exact arithmetic, so that it depends on the rounding errors of all additions; tests compare recordings for which they happen to be harmless.", "anchors": ["hand_eye_calibration/python/hand_eye_calibration/time_alignment.py"]}
{"id": "C112", "title": "Rounding does not move the time offset by more than its own size", "statement": "Let the second signal be the first one, delayed by m samples and with a gain, both with noise, and let signal.correlate have errors of at most kappa for all lags (directly computed: ((1 + u)^(n + 1) - 1) n times the product of the largest values). If shifting the clean signal by more than j samples changes its energy by more than the noise and kappa allow, then the computed time offset is the exact one of a delay at most j samples off, up to a rounding error of at most u ((1.1 n + 6) times the delay plus 3 (|first time of A| + |first time of B|)); in particular it is found by the same sample as in exact arithmetic if j is zero.", "quantifier": "all signals, delays, gains and noise within the margin, all increasing time stamps, all correlations with errors of at most kappa, all arithmetics with unit roundoff u and (n + 8)^2 u <= 1/4, all orders of additions", "why_tests_cant": "np.argmax compares numbers that differ by rounding errors only if signals are flat, so that a test with clear signals shows nothing about the margin needed; and the errors depend on all samples.", "anchors": ["hand_eye_calibration/python/hand_eye_calibration/time_alignment.py"]}
{"id": "C113", "title": "Rounding does not break the alignment of pose tables", "statement": "Let the stamps of both tables increase, those of the first so much that the rounding of their shift by the time offset keeps them apart. Then compute_aligned_poses in floating-point arithmetic never fails because of rounding. Both results have the same increasing time column. The times are shifted stamps of the first table or stamps of the second, whichever has the larger median time step up to a relative error of 9 u. Every time has support in the other table with distances of 0.1 s up to a relative error of 2 u, and all times with a little more support are used. All rows are those of the tables at their times (linear positions, spherical orientations) up to rounding errors. Without rounding the result is that of the model over the real numbers, errors included.", "quantifier": "all tables of two rows or more with nearly unit quaternions, all time offsets, all arithmetics with unit roundoff u, all cos, sin and arccos with errors of at most e", "why_tests_cant": "The comparisons (equal stamps, distances of 0.1 s, medians, bisection) decide discontinuously, so that an error of one rounding can change the rows; tests see only a few tables, mostly with round stamps.", "anchors": ["hand_eye_calibration/python/hand_eye_calibration/time_alignment.py"]}
{"id": "C114", "title": "Rounding in filters, speeds and the whole time offset", "statement": "In floating-point arithmetic, the filter of angular velocities (clipping at a percentile, mean over a window) is within epsilon + kappa1 + kappa2 of the exact one, for velocities off by epsilon, a percentile off by kappa1 and means off by kappa2; computed as a weighted mean the percentile of n values is off by at most (5 n + 6) u of the largest, and direct means of k samples by at most (1 + u)^(k + 2) - 1 of it. The length of a vector has a relative error of at most 6 u. For all of calculate_time_offset: if the filtered speeds of the true motions are copies of each other delayed by m samples, and a shift by more than j samples changes them by more than all errors allow, then the time offset is that of a delay of at most j samples off, up to the rounding of times as in C112. Without rounding the results are those of the model over the real numbers.", "quantifier": "all recordings, all noise within the margin, all arithmetics with unit roundoff u, all percentiles, means, correlations and additions with errors within the stated bounds, all filter settings", "why_tests_cant": "Rounding errors pass through a percentile, a clip, a mean, a square root and a maximum; whether the maximum moves depends on all samples at once, so that no finite set of recordings shows that it cannot.", "anchors": ["hand_eye_calibration/python/hand_eye_calibration/time_alignment.py"]}
{"id": "C115", "title": "Rounding in the hand-eye solver", "statement": "In floating-point arithmetic with unit roundoff u, with poses measured with errors of at most eta and of length at most M, and with a singular value decomposition that is that of a matrix within a relative error kappa of the one it was given, up to errors of omega in the right-singular vectors: every calibration that compute_hand_eye_calibration returns has a rotation of length one up to 9 u; with sigma the sixth singular value, n the number of poses and t the returned translation, the sine of half the angle to the true rotation is at most rho = (1.02 * 4 (eta + (u + 1.001 kappa) M) sqrt(n) / sigma + 5 u + 2 omega) sqrt(1 + t^2/4). If rho is at most 1/2, every point p moves to within rho (2 |p| + 4 + 4 |t0| + 3 t) of where the true calibration moves it. Without rounding the function is that of the model over the real numbers.", "quantifier": "all poses, noise, signs of the poses of the eye, tolerances, all arithmetics with unit roundoff u of at most 1/1000, all decompositions with the stated errors", "why_tests_cant": "The solver solves a quadratic equation whose coefficients may be tiny and cancel, and divides by one of them; a test with a handful of poses does not meet the bad combinations, and cannot tell a rounding error from noise.", "anchors": ["hand_eye_calibration/python/hand_eye_calibration/dual_quaternion_hand_eye_calibration.py", "hand_eye_calibration/python/hand_eye_calibration/dual_quaternion.py"]}
{"id": "C116", "title": "Rounding in the baseline algorithm", "statement": "In floating-point arithmetic with unit roundoff u, let the real parts of all recorded poses be within delta <= 1/100 and the dual parts within theta of true poses that fit the calibration X and whose dual parts are at most D long, let no two true poses be within eta = 19 u + 2.1 delta + (70 u + 4.2 delta)(D + theta) + 2.1 theta of a half turn of each other, and let the singular value decomposition be that of a matrix within a relative error kappa of the one it was given, up to errors of omega in the right-singular vectors. Then every calibration that compute_hand_eye_calibration_BASELINE finds (after making the signs equal, any prefilter that keeps some of the pairs, the search for the pair at which the trajectories are aligned, the selection of inliers, the solver and the normalisation) has a rotation of length one up to 9 u; with sigma the sixth singular value, n the number of poses and t the returned translation, the sine of half the angle to the true rotation is at most rho = (1.06 * 4 (eta + (u + 1.001 kappa)(1 + 2 D + eta)) sqrt(n) / sigma + 15 u + 2.1 omega) sqrt(1 + t^2/4). If rho is at most 1/2, every point p moves to within rho (2 |p| + 4 + 4 |t0| + 3 t) of where X moves it. Without rounding the function fails, finds nothing, or returns the same calibration exactly when the model over the real numbers does.", "quantifier": "all recorded and true poses, configurations without exhaustive search, prefilters that keep pairs, all arithmetics with unit roundoff u of at most 1/1000, all decompositions with the stated errors", "why_tests_cant": "The error of a recorded pose is multiplied by the distance from the origin when the trajectories are aligned, differently for each choice of the pair that is aligned, and which pair is chosen depends on comparisons of rounded numbers; tests see one choice.", "anchors": ["hand_eye_calibration/python/hand_eye_calibration/dual_quaternion_hand_eye_calibration.py", "hand_eye_calibration/python/hand_eye_calibration/dual_quaternion.py"]}
{"id": "C117", "title": "Rounding in RANSAC", "statement": "In floating-point arithmetic with unit roundoff u, let the real parts of all recorded poses be within delta <= 1/100 and the dual parts within theta of true poses that fit the calibration X and whose dual parts are at most D long; let eta0 = 19 u + 2.1 delta + (70 u + 4.2 delta)(D + theta) + 2.1 theta be at most 1/10, eta = (3.2 + 2.3 D) eta0 + (11 + 21 D) u, no two true poses be within eta of a half turn of each other, and let the singular value decomposition be that of a matrix within a relative error kappa of the one it was given, up to errors of omega in the right-singular vectors. Then every calibration that compute_hand_eye_calibration_RANSAC finds, with whatever samples are drawn, whatever test ends the loop early, either classification of the inliers, with or without refinement and after any prefilter that keeps some of the pairs, has a rotation of length one up to 9 u; with sigma the sixth singular value, n the number of recorded poses and t the returned translation, the sine of half the angle to the true rotation is at most rho = (1.1 * 4 (eta + (u + 1.001 kappa)(1 + 2 D + eta)) sqrt(n) / sigma + 25 u + 2.2 omega) sqrt(1 + t^2/4). If rho is at most 1/2, every point p moves to within rho (2 |p| + 4 + 4 |t0| + 3 t) of where X moves it. The prefilter of the code keeps pairs. Without rounding, every result of the model over the real numbers (calibration, singular values, errors, number of inliers) is that of the rounded model.", "quantifier": "all recorded and true poses, configurations, random samples, tests that end the loop, prefilters that keep pairs, numbers of iterations, all arithmetics with unit roundoff u of at most 1/1000, all decompositions with the stated errors", "why_tests_cant": "Which samples are drawn, which are rejected, which poses are inliers and which candidate is best all depend on random numbers and on comparisons of rounded numbers; a test sees one path through the loop.", "anchors": ["hand_eye_calibration/python/hand_eye_calibration/dual_quaternion_hand_eye_calibration.py", "hand_eye_calibration/python/hand_eye_calibration/dual_quaternion.py"]}
{"id": "C118", "title": "Rounding in the prefilter", "statement": "With any rounding and whatever the functions of the library return, prefilter_using_screw_axis keeps some of the pairs, in their order, so that it is one of the prefilters of C116 and C117. In floating-point arithmetic with unit roundoff u, if the computed sine of half of a rotation is positive, it makes a selection of indices: no two selected pairs have axes (the vector part of the rotation if the machine sees a rotation, that of the dual part otherwise) that enclose a cosine above the threshold by more than 33 u, in either list; every pair that is not selected is hardly a motion in one of the lists (at most 1.1e-12), or encloses with a selected pair before it a cosine not below the threshold by more than 33 u; it returns exactly the selected pairs if there are at least two, and fails the assertion otherwise. Without rounding it is the model over the real numbers.", "quantifier": "all lists of poses of equal length, all thresholds, all arithmetics with unit roundoff u of at most 1/1000, all accuracies of arccos, degrees, mod and sin", "why_tests_cant": "The axis is divided by the sine of an angle that arccos finds with an error of the order of sqrt(u) for small rotations; that this error cancels when the axis is normalised, for every rotation however small, is an identity about all inputs and not visible in single results.", "anchors": ["hand_eye_calibration/python/hand_eye_calibration/dual_quaternion_hand_eye_calibration.py", "hand_eye_calibration/python/hand_eye_calibration/dual_quaternion.py"]}
{"id": "C119", "title": "Rounding rejects no recording that fits", "statement": "If all pairs of poses were recorded with small errors from true pairs that fit one calibration, and the true orientations of the hand are not half a turn apart, then in floating-point arithmetic with unit roundoff u the tests of the scalar parts reject nothing as long as their tolerance is at least neededTolerance (twice the error of a relative motion plus 5 u times the size of the motions): both lists can be aligned at every pose; the solver raises nothing before the singular value decomposition and flips no sign; the baseline algorithm stops at its first index with all pairs as inliers if they are more than min_num_inliers; no sample of RANSAC is rejected before the classification; and with the classification by scalar parts every pair is an inlier for every sample.", "quantifier": "all lists of poses of equal length, all errors and distances, all calibrations, all samples, all arithmetics with unit roundoff u of at most 4e-10", "why_tests_cant": "How large the tolerances have to be for measurement errors and rounding errors of a given size concerns all recordings within these errors; runs on single recordings show only that some pass.", "anchors": ["hand_eye_calibration/python/hand_eye_calibration/dual_quaternion_hand_eye_calibration.py", "hand_eye_calibration/python/hand_eye_calibration/dual_quaternion.py"]}
{"id": "C120", "title": "Rounding and measurement errors do not let visible outliers in", "statement": "Some of the pairs of poses may be outliers: their true poses do not fit the calibration X. If seen from a pair that fits no outlier agrees with the hand in both scalar parts within the tolerance of the test plus a margin for the errors (testedTolerance), and if seen from an outlier fewer than the required number of pairs agree, then in floating-point arithmetic with unit roundoff u, with recorded poses that are off by delta and theta and with a backward stable singular value decomposition, the calibrations that RANSAC and the baseline algorithm return differ from X by no more than they would without the outliers: the bounds of C116 and C117 hold. Conversely, if the tolerance covers the errors, then aligned at a pair that fits the test accepts exactly the pairs that fit, the baseline algorithm started on a pair that fits stops there with exactly as many inliers as pairs fit, and a sample of RANSAC whose first pair fits is rejected at once if it has an outlier and else has exactly the pairs that fit as inliers (classification by scalar parts, no prefilter).", "quantifier": "all lists of poses of equal length, all positions and numbers of outliers, all calibrations, all errors within the bounds, all draws, all arithmetics with unit roundoff u", "why_tests_cant": "Whether an outlier can slip in through rounding or measurement noise depends on all poses together; a test with some outliers does not show that no other outlier of the same visibility gets in.", "anchors": ["hand_eye_calibration/python/hand_eye_calibration/dual_quaternion_hand_eye_calibration.py", "hand_eye_calibration/python/hand_eye_calibration/dual_quaternion.py"]}
{"id": "C121", "title": "From the tables of measured poses to the calibration in floating point", "statement": "Let two tables, each of poses or of inverse poses, be measured from true poses that fit the calibration X: quaternions within alpha (their lengths need not be one), positions within e and at most R from the origin. In floating-point arithmetic with unit roundoff u the script compute_hand_eye_calibration.py turns them into dual quaternions, inverts them if needed and aligns both paths at their first pose without an exception, and what it hands to the algorithms is a recording that fits the same X with errors of at most preparedError u alpha e R (an explicit expression). Hence the first set of inliers of the baseline algorithm are all rows if the tolerance covers the errors, and every calibration that RANSAC or the exhaustive search returns for the tables has a rotation of length one up to 9 u and differs from X, in rotation and as a motion, by at most the bounds of C117 with these errors. If some rows do not fit X but are visible as such (no row that fits agrees with them, and fewer rows than the required inliers agree with any one of them, up to the tolerance and the errors as in C120), the prepared paths are a recording with outliers that are visible as well, even if the first row, at which the paths are aligned, is an outlier, and the bounds of C120 hold for RANSAC and the baseline algorithm. Tables of different lengths are an AssertionError, and without rounding the preparation is the one of the script.", "quantifier": "all tables of equal length, poses or inverse poses for either sensor, all calibrations and fixed frames, all errors within the bounds, all draws and configurations, all arithmetics with unit roundoff u (float64 as an instance)", "why_tests_cant": "The bounds for the algorithms suppose dual quaternions near true ones; whether the reading of tables with rounded, not normalised quaternions and the two alignments provide that, for all tables, cannot be tested.", "anchors": ["hand_eye_calibration/bin/compute_hand_eye_calibration.py", "hand_eye_calibration/python/hand_eye_calibration/dual_quaternion.py", "hand_eye_calibration/python/hand_eye_calibration/dual_quaternion_hand_eye_calibration.py"]}
