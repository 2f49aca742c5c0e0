import Verif.Model.DualQuat
import Verif.Model.PyList

/-!
# Model of `hand_eye_calibration/dual_quaternion_hand_eye_calibration.py`, part 1

Alignment of paths, the linear system, the solver, prefiltering and evaluation.  `HE.py` below
abbreviates `/repo/hand_eye_calibration/python/hand_eye_calibration/dual_quaternion_hand_eye_calibration.py`.
-/

namespace HandEye

/-- HE.py:89-102 `compute_dual_quaternions_with_offset`. -/
noncomputable def computeDualQuaternionsWithOffset (dq_B_H_vec : List DQuat) (dq_H_E dq_B_W : DQuat) :
    Py (List DQuat) := do
  let dq_W_B ← dq_B_W.inverse
  dq_B_H_vec.mapM fun dq_B_H => do
    let dq_W_E ← (dq_W_B * dq_B_H * dq_H_E).normalize
    let n ← dq_W_E.norm
    pyAssert (npIsclose n.1 1 1e-8)
    return dq_W_E

/-- HE.py:110-115, the loop body: the pose relative to the alignment pose, with its sign enforced. -/
noncomputable def rebase (dq_align_inverse : DQuat) (enforce : Bool) (dq : DQuat) : DQuat :=
  let r := dq_align_inverse * dq
  if enforce then (if r.rot.w < 0 then -r else r) else r

/-- HE.py:105-124 `align_paths_at_index`. -/
noncomputable def alignPathsAtIndex (dq_vec : List DQuat) (align_index : ℤ := 0)
    (enforce_positive_q_rot_w : Bool := true) : Py (List DQuat) := do
  let dq_align ← pyGet dq_vec align_index
  let dq_align_inverse ← dq_align.inverse
  let starting_at_origin := dq_vec.map (rebase dq_align_inverse enforce_positive_q_rot_w)
  let rearanged := pyFrom starting_at_origin align_index ++ pyTo starting_at_origin align_index
  let first ← pyAt rearanged 0
  pyAssert (first.allclose DQuat.identity 1e-8)
  return rearanged

/-- HE.py:127-130 `skew_from_vector`. -/
def skewFromVector (v : Vec3) : Matrix (Fin 3) (Fin 3) ℝ :=
  !![0, -v.z, v.y; v.z, 0, -v.x; -v.y, v.x, 0]

/-- HE.py:149-158: the entries of the 6x8 matrix S. -/
def sMatrix (dq_1 dq_2 : DQuat) : Matrix (Fin 6) (Fin 8) ℝ :=
  let k := skewFromVector (dq_1.rot.vec + dq_2.rot.vec)
  let m := dq_1.rot.vec - dq_2.rot.vec
  let l := skewFromVector (dq_1.dual.vec + dq_2.dual.vec)
  let n := dq_1.dual.vec - dq_2.dual.vec
  !![k 0 0, k 0 1, k 0 2, m.x, 0, 0, 0, 0;
     k 1 0, k 1 1, k 1 2, m.y, 0, 0, 0, 0;
     k 2 0, k 2 1, k 2 2, m.z, 0, 0, 0, 0;
     l 0 0, l 0 1, l 0 2, n.x, k 0 0, k 0 1, k 0 2, m.x;
     l 1 0, l 1 1, l 1 2, n.y, k 1 0, k 1 1, k 1 2, m.y;
     l 2 0, l 2 1, l 2 2, n.z, k 2 0, k 2 1, k 2 2, m.z]

/-- HE.py:133-164 `setup_s_matrix`.  The assertion on `matrix_rank` (HE.py:162-163) is left out: a
matrix with six rows has at most six non-zero singular values. -/
noncomputable def setupSMatrix (dq_1 dq_2 : DQuat) : Py (Matrix (Fin 6) (Fin 8) ℝ) := do
  let scalar_parts_1 ← dq_1.scalar
  let scalar_parts_2 ← dq_2.scalar
  pyAssert (scalar_parts_1.allclose scalar_parts_2 5e-2)
  return sMatrix dq_1 dq_2

/-- The rows of a 6x8 block. -/
def sRows (S : Matrix (Fin 6) (Fin 8) ℝ) : List (Fin 8 → ℝ) := List.ofFn fun i => S i

/-- HE.py:167-184 `setup_t_matrix`: the rows of T.  `matrix_rank` and the extra SVD are computed there
but not used. -/
noncomputable def setupTMatrix : (dq_W_E_vec dq_B_H_vec : List DQuat) → Py (List (Fin 8 → ℝ))
  | [], _ => .ok []
  | _ :: _, [] => .error .index
  | d1 :: r1, d2 :: r2 => do
    let S ← setupSMatrix d1 d2
    let T ← setupTMatrix r1 r2
    return sRows S ++ T

/-- What `np.linalg.svd` returns of a matrix given by its rows: the singular values and the matrix V
(U is not used by the code).  It may raise (`LinAlgError`). -/
abbrev Svd := List (Fin 8 → ℝ) → Py (List ℝ × Matrix (Fin 8) (Fin 8) ℝ)

/-- HE.py:206-213: the loop that makes the signs of the real scalar parts equal (it writes to
`dq_W_E_vec_inliers`). -/
noncomputable def enforceSameSign : (dq_B_H_vec dq_W_E_vec : List DQuat) → Py (List DQuat)
  | [], ws => .ok ws
  | _ :: _, [] => .error .index
  | b :: bs, w :: ws => do
    let w' := if (w.rot.w < 0 ∧ b.rot.w > 0) ∨ (w.rot.w > 0 ∧ b.rot.w < 0) then -w else w
    let ws' ← enforceSameSign bs ws
    return w' :: ws'

/-- HE.py:217-227: the scalar-part gate (the two names are swapped in the code; `first` is the element
of `dq_W_E_vec_inliers`). -/
noncomputable def scalarGate (tol : ℝ) : (dq_B_H_vec dq_W_E_vec : List DQuat) → Py Unit
  | [], _ => .ok ()
  | _ :: _, [] => .error .index
  | b :: bs, w :: ws => do
    let first ← w.scalar
    let second ← b.scalar
    pyAssert (first.allclose second tol)
    scalarGate tol bs ws

/-- HE.py:238-246: the loop over the singular values. -/
noncomputable def badSingularValues (s : List ℝ) : Bool :=
  s.zipIdx.foldl (fun bad p =>
    if p.2 < 6 then (if p.1 < 5e-1 then true else bad)
    else (if p.1 > 5e-1 then true else bad)) false

/-- A row of V as the pair of quaternion arrays `v[0:4]`, `v[4:8]`. -/
def splitRow (v : Fin 8 → ℝ) : DQuat := ⟨⟨v 0, v 1, v 2, v 3⟩, ⟨v 4, v 5, v 6, v 7⟩⟩

/-- HE.py:247-298: from the last two right-singular vectors to the calibration. -/
noncomputable def solveKernel (v_7 v_8 : DQuat) : Py DQuat := do
  let u_1 := v_7.rot
  let u_2 := v_8.rot
  let v_1 := v_7.dual
  let v_2 := v_8.dual
  let a := u_1.dot v_1
  pyAssert (a ≠ 0)
  let b := u_1.dot v_2 + u_2.dot v_1
  let c := u_2.dot v_2
  let square_root_term := b * b - 4 * a * c
  pyAssert (¬ square_root_term < -1e-2)
  let square_root_term := if square_root_term < 0 then 0 else square_root_term
  let s_1 := (-b + Real.sqrt square_root_term) / (2 * a)
  let s_2 := (-b - Real.sqrt square_root_term) / (2 * a)
  let solution_1 := s_1 * s_1 * u_1.dot u_1 + 2 * s_1 * u_1.dot u_2 + u_2.dot u_2
  let solution_2 := s_2 * s_2 * u_1.dot u_1 + 2 * s_2 * u_1.dot u_2 + u_2.dot u_2
  let (lambda_1, lambda_2) ← (if solution_1 > solution_2 then do
      pyAssert (solution_1 > 0)
      let l2 := Real.sqrt (1 / solution_1)
      return (s_1 * l2, l2)
    else do
      pyAssert (solution_2 > 0)
      let l2 := Real.sqrt (1 / solution_2)
      return (s_2 * l2, l2) : Py (ℝ × ℝ))
  let dq_H_E ← (lambda_1 • v_7 + lambda_2 • v_8).normalize
  return if dq_H_E.rot.w < 0 then -dq_H_E else dq_H_E

/-- What `compute_hand_eye_calibration` returns, together with the list it has modified. -/
structure Calibration where
  dq_H_E : DQuat
  singular_values : List ℝ
  bad_singular_values : Bool
  dq_W_E_vec : List DQuat

/-- HE.py:187-300 `compute_hand_eye_calibration`. -/
noncomputable def computeHandEyeCalibration (svd : Svd) (dq_B_H_vec dq_W_E_vec : List DQuat)
    (scalar_part_tolerance : ℝ := 1e-2) (enforce_same_non_dual_scalar_sign : Bool := true) :
    Py Calibration := do
  let b0 ← pyAt dq_B_H_vec 0
  pyAssert (b0.allclose DQuat.identity 1e-8)
  let w0 ← pyAt dq_W_E_vec 0
  pyAssert (w0.allclose DQuat.identity 1e-8)
  let ws ← if enforce_same_non_dual_scalar_sign then enforceSameSign dq_B_H_vec dq_W_E_vec
    else .ok dq_W_E_vec
  scalarGate scalar_part_tolerance dq_B_H_vec ws
  let t_matrix ← setupTMatrix dq_B_H_vec ws
  let (s, V) ← svd t_matrix
  let bad := badSingularValues s
  let dq ← solveKernel (splitRow (V 6)) (splitRow (V 7))
  return ⟨dq, s, bad, ws⟩

/-- HE.py:311-315 and 319-320 (and again 327-336): the screw axes of a pair, normalised; `none` if one
of them is (numerically) zero. -/
noncomputable def pairAxes (dq_W_E dq_B_H : DQuat) : Py (Option (Vec3 × Vec3)) := do
  let (aw, _, _) ← dq_W_E.screwAxis
  let (ab, _, _) ← dq_B_H.screwAxis
  if aw.norm ≤ 1e-12 ∨ ab.norm ≤ 1e-12 then return none
  else return some ((1 / aw.norm) • aw, (1 / ab.norm) • ab)

/-- HE.py:324-344: the inner while loop, for the axes of pair `i` and starting at index `j`.  Elements
are popped from both lists in place. -/
noncomputable def prefilterInner (threshold : ℝ) (aw ab : Vec3) (j : ℕ) (we bh : List DQuat) :
    Py (List DQuat × List DQuat) :=
  if h : j < we.length then do
    let b ← pyAt bh j
    let axes ← pairAxes we[j] b
    match axes with
    | none => prefilterInner threshold aw ab j (we.eraseIdx j) (bh.eraseIdx j)
    | some (aw', ab') =>
      if aw.dot aw' > threshold then
        prefilterInner threshold aw ab j (we.eraseIdx j) (bh.eraseIdx j)
      else if ab.dot ab' > threshold then
        prefilterInner threshold aw ab j (we.eraseIdx j) (bh.eraseIdx j)
      else prefilterInner threshold aw ab (j + 1) we bh
  else return (we, bh)
termination_by we.length - j
decreasing_by all_goals (try rw [List.length_eraseIdx_of_lt h]); omega

/-- The inner loop never makes the list longer (needed for the termination of the outer loop). -/
theorem prefilterInner_length (threshold : ℝ) (aw ab : Vec3) (j : ℕ) (we bh : List DQuat)
    (r : List DQuat × List DQuat) (h : prefilterInner threshold aw ab j we bh = .ok r) :
    r.1.length ≤ we.length := by
  induction hn : we.length - j using Nat.strong_induction_on generalizing j we bh with
  | _ n ih =>
  rw [prefilterInner] at h
  split at h
  case isFalse => cases h; exact le_rfl
  case isTrue hj =>
    have hl : (we.eraseIdx j).length = we.length - 1 := List.length_eraseIdx_of_lt hj
    have key : ∀ h', prefilterInner threshold aw ab j (we.eraseIdx j) h' = .ok r →
        r.1.length ≤ we.length := fun h' hh => by
      have := ih _ (by omega) j (we.eraseIdx j) h' hh rfl
      omega
    cases hb : pyAt bh j with
    | error e => rw [hb] at h; exact absurd h (by simp [bind, Except.bind])
    | ok b =>
      cases ha : pairAxes we[j] b with
      | error e => rw [hb] at h; simp only [bind, Except.bind, ha] at h; cases h
      | ok o =>
        rw [hb] at h
        simp only [bind, Except.bind, ha] at h
        split at h
        · exact key _ h
        · split_ifs at h
          · exact key _ h
          · exact key _ h
          · exact ih _ (by omega) (j + 1) we bh h rfl

/-- HE.py:308-345: the outer while loop from index `i` on; returns the final `i` and the lists. -/
noncomputable def prefilterOuter (threshold : ℝ) (i : ℕ) (we bh : List DQuat) :
    Py (ℕ × List DQuat × List DQuat) :=
  if h : i < we.length then do
    let b ← pyAt bh i
    let axes ← pairAxes we[i] b
    match axes with
    | none => prefilterOuter threshold i (we.eraseIdx i) (bh.eraseIdx i)
    | some (aw, ab) =>
      match hr : prefilterInner threshold aw ab (i + 1) we bh with
      | .error e => .error e
      | .ok r => prefilterOuter threshold (i + 1) r.1 r.2
  else return (i, we, bh)
termination_by we.length - i
decreasing_by
  · rw [List.length_eraseIdx_of_lt h]; omega
  · have := prefilterInner_length threshold aw ab (i + 1) we bh r hr
    omega

/-- HE.py:303-348 `prefilter_using_screw_axis`: the filtered (deep) copies. -/
noncomputable def prefilterUsingScrewAxis (dq_W_E_vec dq_B_H_vec : List DQuat)
    (dot_product_threshold : ℝ := 0.95) : Py (List DQuat × List DQuat) := do
  let (i, we, bh) ← prefilterOuter dot_product_threshold 0 dq_W_E_vec dq_B_H_vec
  pyAssert (2 ≤ i)
  return (we, bh)

/-- HE.py:351-374 `compute_pose_error`: position error and orientation error in degrees. -/
noncomputable def computePoseError (pose_A pose_B : Pose) : Py (ℝ × ℝ) := do
  let error_position := (pose_A.pos - pose_B.pos).norm
  let qA := pose_A.q.normalize
  let qA := if qA.w < 0 then -qA else qA
  let qB := pose_B.q.normalize
  let qB := if qB.w < 0 then -qB else qB
  let rad ← angleBetweenQuaternions qA qB
  let deg := npDegrees rad
  let deg := if deg > 180 then |360 - deg| else deg
  return (error_position, deg)

/-- HE.py:377-423 `evaluate_alignment`, on two arrays of poses given as lists: root mean square
errors of position and orientation, and the inlier flags. -/
noncomputable def evaluateAlignment (orientation_threshold_deg position_threshold_m : ℝ)
    (poses_A poses_B : List Pose) : Py (ℝ × ℝ × List Bool) := do
  pyAssert (poses_A.length = poses_B.length)
  let errors ← (poses_A.zip poses_B).mapM fun p => computePoseError p.1 p.2
  let inlier_list := errors.map fun e =>
    decide (e.2 < orientation_threshold_deg ∧ e.1 < position_threshold_m)
  let num_poses : ℝ := poses_A.length
  let mp ← npDiv ((errors.map fun e => e.1 ^ 2).sum) num_poses
  let mo ← npDiv ((errors.map fun e => e.2 ^ 2).sum) num_poses
  return (Real.sqrt mp, Real.sqrt mo, inlier_list)

/-- HE.py:440-447: the loop body of `get_aligned_poses`. -/
noncomputable def alignedHandPose (dq_E_H dq_B_H dq_W_E : DQuat) : Py DQuat := do
  let dq_W_H ← (dq_W_E * dq_E_H).normalize
  return if (dq_W_H.rot.w < 0 ∧ dq_B_H.rot.w > 0) ∨ (dq_W_H.rot.w > 0 ∧ dq_B_H.rot.w < 0)
    then -dq_W_H else dq_W_H

/-- HE.py:426-461 `get_aligned_poses`: `(poses_B_H, poses_W_H)`.  The elements of `dq_B_H_vec` are
normalised in place by `to_pose`; `C20` is about that effect, it is not returned here. -/
noncomputable def getAlignedPoses (dq_B_H_vec dq_W_E_vec : List DQuat) (dq_H_E_estimated : DQuat) :
    Py (List Pose × List Pose) := do
  pyAssert (dq_W_E_vec.length = dq_B_H_vec.length)
  let e ← dq_H_E_estimated.inverse
  let e ← e.normalize
  let e ← e.enforcePositiveQRotW
  let dq_W_H_vec ← (dq_B_H_vec.zip dq_W_E_vec).mapM fun p => alignedHandPose e p.1 p.2
  let dq_W_H_vec ← alignPathsAtIndex dq_W_H_vec
  let poses_W_H ← dq_W_H_vec.mapM fun d => (Prod.fst <$> d.toPose)
  let poses_B_H ← dq_B_H_vec.mapM fun d => (Prod.fst <$> d.toPose)
  return (poses_B_H, poses_W_H)

end HandEye
