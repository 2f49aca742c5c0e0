import Verif.Model.RoundedSolver
import Verif.Model.Baseline

/-!
# `compute_hand_eye_calibration_BASELINE` in floating-point arithmetic, up to the calibration

`HE.py` abbreviates `/repo/hand_eye_calibration/python/hand_eye_calibration/dual_quaternion_hand_eye_calibration.py`.  The same lines as in
`Model/Baseline.lean`, with a rounding after every elementary operation.

Simplified: only the search for the first sufficient set of inliers is modelled, since the exhaustive search always ends in a `NameError` (HE.py:561).  The
prefilter is a parameter.  The evaluation of the calibration (HE.py:592-606, see `Model/RoundedEval.lean`) and printing are left out.
-/

namespace HandEye

namespace Arith

variable (A : Arith)

/-- HE.py:529-532: whether the scalar parts of a pair of poses agree. -/
noncomputable def scalarMatch (tol : ℝ) (dq_W_E dq_B_H : DQuat) : Py Bool := do
  let sw ← A.scalar dq_W_E
  let sb ← A.scalar dq_B_H
  return decide (sw.allclose sb tol)

/-- HE.py:516-534: the aligned pairs whose scalar parts agree, as `(dq_B_H_vec_inlier, dq_W_E_vec_inlier)`. -/
noncomputable def inliersAt (filtered_B_H filtered_W_E : List DQuat) (j : ℕ) : Py (List DQuat × List DQuat) := do
  let aligned_W_E ← A.alignPaths filtered_W_E j true
  let aligned_B_H ← A.alignPaths filtered_B_H j true
  let flags ← (aligned_W_E.zip aligned_B_H).mapM fun p => A.scalarMatch 1e-2 p.1 p.2
  return (compress aligned_B_H flags, compress aligned_W_E flags)

/-- HE.py:514-557: the first index with more than `min_num_inliers` inliers, and the inliers.  Without poses the lists of inliers are never bound
(HE.py:564). -/
noncomputable def firstInliers (min_num_inliers : ℕ) (filtered_B_H filtered_W_E : List DQuat) : List ℕ → Py (ℕ × List DQuat × List DQuat)
  | [] => .error .name
  | j :: js => do
    let inlier ← A.inliersAt filtered_B_H filtered_W_E j
    pyAssert (inlier.2.length = inlier.1.length)
    if inlier.2.length > min_num_inliers then return (j, inlier)
    else do
      pyAssert (j + 1 < filtered_W_E.length)
      firstInliers min_num_inliers filtered_B_H filtered_W_E js

/-- HE.py:573-588: the solver inside `try ... except`. -/
noncomputable def tryCalibrate (svd : Svd) (tol : ℝ) (dq_B_H dq_W_E : List DQuat) : Option Calibration :=
  match (do
    let c ← A.calibrate svd dq_B_H dq_W_E tol true
    let dq ← A.dqNormalize c.dq_H_E
    return { c with dq_H_E := dq } : Py Calibration) with
  | .ok c => some c
  | .error _ => none

/-- HE.py:464-588 `compute_hand_eye_calibration_BASELINE` up to the calibration. -/
noncomputable def baselineCalibration (svd : Svd) (cfg : HandEyeConfig) (filter : List DQuat → List DQuat → Py (List DQuat × List DQuat))
    (dq_B_H_vec dq_W_E_vec : List DQuat) : Py (Option Calibration) := do
  pyAssert (dq_W_E_vec.length = dq_B_H_vec.length)
  let dq_W_E_vec ← enforceSameSign dq_B_H_vec dq_W_E_vec
  let filtered ← filter dq_B_H_vec dq_W_E_vec
  let found ← A.firstInliers cfg.min_num_inliers filtered.1 filtered.2 (List.range filtered.2.length)
  let _ ← A.alignPaths found.2.1 found.1 true
  let _ ← A.alignPaths found.2.2 found.1 true
  return A.tryCalibrate svd cfg.hand_eye_calibration_scalar_part_equality_tolerance found.2.1 found.2.2

end Arith

end HandEye
