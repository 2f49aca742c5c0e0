import Verif.Model.Rounded

/-!
# The hand-eye solver in floating-point arithmetic

`Model/HandEye.lean` reads `compute_hand_eye_calibration` over the real numbers.  Here the same lines are read with a rounding
after every elementary operation, in the order in which Python performs the operations.  `HE.py` and `DQ.py` abbreviate
`dual_quaternion_hand_eye_calibration.py` and `dual_quaternion.py` in `/repo/hand_eye_calibration/python/hand_eye_calibration/`.

Simplified as in `Model/Rounded.lean`; `np.linalg.svd` is a parameter, as in `Model/HandEye.lean`, and may return inexact results.
The loop over the signs (HE.py:206-213) only compares and negates, so that `enforceSameSign` is used as it is.
-/

namespace HandEye

namespace Arith

variable (A : Arith)

/-- DQ.py:211-219 `scalar`. -/
noncomputable def scalar (a : DQuat) : Py DQuat := do
  let s : DQuat := ⟨A.smul 0.5 (A.add a.rot a.rot.conj), A.smul 0.5 (A.add a.dual a.dual.conj)⟩
  pyAssert (npIsclose s.rot.x 0 1e-6 ∧ npIsclose s.rot.y 0 1e-6 ∧ npIsclose s.rot.z 0 1e-6 ∧
    npIsclose s.dual.x 0 1e-6 ∧ npIsclose s.dual.y 0 1e-6 ∧ npIsclose s.dual.z 0 1e-6)
  return s

/-- The sum of the first three elements of two arrays (HE.py:153, 155-156, 158). -/
def vecAdd (p q : Quat) : Vec3 := ⟨A.fl (p.x + q.x), A.fl (p.y + q.y), A.fl (p.z + q.z)⟩

/-- The difference of the first three elements of two arrays (HE.py:154, 157, 159). -/
def vecSub (p q : Quat) : Vec3 := ⟨A.fl (p.x - q.x), A.fl (p.y - q.y), A.fl (p.z - q.z)⟩

/-- HE.py:152-159: the entries of the 6x8 matrix S. -/
def sMatrix (dq_1 dq_2 : DQuat) : Matrix (Fin 6) (Fin 8) ℝ :=
  let k := skewFromVector (A.vecAdd dq_1.rot dq_2.rot)
  let m := A.vecSub dq_1.rot dq_2.rot
  let l := skewFromVector (A.vecAdd dq_1.dual dq_2.dual)
  let n := A.vecSub dq_1.dual dq_2.dual
  !![k 0 0, k 0 1, k 0 2, m.x, 0, 0, 0, 0;
     k 1 0, k 1 1, k 1 2, m.y, 0, 0, 0, 0;
     k 2 0, k 2 1, k 2 2, m.z, 0, 0, 0, 0;
     l 0 0, l 0 1, l 0 2, n.x, k 0 0, k 0 1, k 0 2, m.x;
     l 1 0, l 1 1, l 1 2, n.y, k 1 0, k 1 1, k 1 2, m.y;
     l 2 0, l 2 1, l 2 2, n.z, k 2 0, k 2 1, k 2 2, m.z]

/-- HE.py:133-164 `setup_s_matrix`. -/
noncomputable def setupS (dq_1 dq_2 : DQuat) : Py (Matrix (Fin 6) (Fin 8) ℝ) := do
  let scalar_parts_1 ← A.scalar dq_1
  let scalar_parts_2 ← A.scalar dq_2
  pyAssert (scalar_parts_1.allclose scalar_parts_2 5e-2)
  return A.sMatrix dq_1 dq_2

/-- HE.py:167-184 `setup_t_matrix`. -/
noncomputable def setupT : (dq_W_E_vec dq_B_H_vec : List DQuat) → Py (List (Fin 8 → ℝ))
  | [], _ => .ok []
  | _ :: _, [] => .error .index
  | d1 :: r1, d2 :: r2 => do
    let S ← A.setupS d1 d2
    let T ← setupT r1 r2
    return sRows S ++ T

/-- HE.py:217-227: the scalar-part gate. -/
noncomputable def gate (tol : ℝ) : (dq_B_H_vec dq_W_E_vec : List DQuat) → Py Unit
  | [], _ => .ok ()
  | _ :: _, [] => .error .index
  | b :: bs, w :: ws => do
    let first ← A.scalar w
    let second ← A.scalar b
    pyAssert (first.allclose second tol)
    gate tol bs ws

/-- HE.py:270-271, 277-280: one of the two values of s and the term that is maximised, for the sign of the root. -/
noncomputable def candidate (v_7 v_8 : DQuat) (root : ℝ) : ℝ × ℝ :=
  let a := A.dot v_7.rot v_7.dual
  let b := A.fl (A.dot v_7.rot v_8.dual + A.dot v_8.rot v_7.dual)
  let s := A.fl (A.fl (-b + root) / A.fl (2 * a))
  (s, A.fl (A.fl (A.fl (A.fl (s * s) * A.dot v_7.rot v_7.rot) + A.fl (A.fl (2 * s) * A.dot v_7.rot v_8.rot)) + A.dot v_8.rot v_8.rot))

/-- HE.py:282-289: lambda_1 and lambda_2 from the chosen value of s. -/
noncomputable def weights (c : ℝ × ℝ) : Py (ℝ × ℝ) := do
  pyAssert (c.2 > 0)
  let l2 := A.fl (Real.sqrt (A.fl (1 / c.2)))
  return (A.fl (c.1 * l2), l2)

/-- HE.py:245-299: from the last two right-singular vectors to the calibration. -/
noncomputable def kernel (v_7 v_8 : DQuat) : Py DQuat := do
  let a := A.dot v_7.rot v_7.dual
  pyAssert (a ≠ 0)
  let b := A.fl (A.dot v_7.rot v_8.dual + A.dot v_8.rot v_7.dual)
  let c := A.dot v_8.rot v_8.dual
  let square_root_term := A.fl (A.fl (b * b) - A.fl (A.fl (4 * a) * c))
  pyAssert (¬ square_root_term < -1e-2)
  let root := A.fl (Real.sqrt (if square_root_term < 0 then 0 else square_root_term))
  let c_1 := A.candidate v_7 v_8 root
  let c_2 := A.candidate v_7 v_8 (-root)
  let l ← A.weights (if c_1.2 > c_2.2 then c_1 else c_2)
  let dq_H_E ← A.dqNormalize ⟨A.add (A.smul l.1 v_7.rot) (A.smul l.2 v_8.rot), A.add (A.smul l.1 v_7.dual) (A.smul l.2 v_8.dual)⟩
  return if dq_H_E.rot.w < 0 then -dq_H_E else dq_H_E

/-- HE.py:187-300 `compute_hand_eye_calibration`. -/
noncomputable def calibrate (svd : Svd) (dq_B_H_vec dq_W_E_vec : List DQuat)
    (scalar_part_tolerance : ℝ := 1e-2) (enforce_same_non_dual_scalar_sign : Bool := true) : Py Calibration := do
  let b0 ← pyAt dq_B_H_vec 0
  pyAssert (b0.allclose DQuat.identity 1e-8)
  let w0 ← pyAt dq_W_E_vec 0
  pyAssert (w0.allclose DQuat.identity 1e-8)
  let ws ← if enforce_same_non_dual_scalar_sign then enforceSameSign dq_B_H_vec dq_W_E_vec
    else .ok dq_W_E_vec
  A.gate scalar_part_tolerance dq_B_H_vec ws
  let t_matrix ← A.setupT dq_B_H_vec ws
  let (s, V) ← svd t_matrix
  let bad := badSingularValues s
  let dq ← A.kernel (splitRow (V 6)) (splitRow (V 7))
  return ⟨dq, s, bad, ws⟩

end Arith

end HandEye
