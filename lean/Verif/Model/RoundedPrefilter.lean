import Verif.Model.RoundedEval
import Verif.Model.Ransac

/-!
# The prefilter in floating-point arithmetic

`Model/HandEye.lean` reads `prefilter_using_screw_axis` over the real numbers.  Here the same lines are read with a rounding after every operation.  `DQ.py` and
`HE.py` abbreviate `dual_quaternion.py` and `dual_quaternion_hand_eye_calibration.py` in `/repo/hand_eye_calibration/python/hand_eye_calibration/`.

Simplified: no overflow and no underflow; an axis is an array of four numbers whose last is zero; the sum of three squares (DQ.py:230) and the products of
`np.linalg.norm` and `np.inner` are those of `np.dot`, whose order of additions is up to the library; a quotient by a sine that is zero, for which `numpy` returns
numbers that are not finite, is an error.  The rotation of a pose whose scalar part is above one is `nan`, which is not above the threshold (DQ.py:226).
-/

namespace HandEye

/-- The functions of the library in `screw_axis`: `np.pi`, `np.degrees`, `np.mod(·, 360.)` and `np.sin`. -/
structure Trig where
  pi : ℝ
  degrees : ℝ → ℝ
  mod360 : ℝ → ℝ
  sin : ℝ → ℝ

/-- DQ.py:228, 230 and 232: the slice `q[0:3]`. -/
def Quat.slice (q : Quat) : Quat := ⟨q.x, q.y, q.z, 0⟩

namespace Arith

variable (A : Arith) (T : Trig)

/-- DQ.py:223-224: the rotation in degrees, which is `nan` (`none`) if the scalar part is not between -1 and 1. -/
noncomputable def rotation (w : ℝ) : Num := if -1 ≤ w ∧ w ≤ 1 then some (T.mod360 (A.fl (2 * T.degrees (A.acos w)))) else none

/-- DQ.py:227-228: the sine of half the rotation. -/
noncomputable def sineOfHalf (r : ℝ) : ℝ := T.sin (A.fl (A.fl (A.fl (r / 2) * T.pi) / 180))

/-- DQ.py:230-234: the axis of a motion that does not rotate. -/
noncomputable def slideAxis (d : Quat) : Quat :=
  if A.fl (2 * A.norm d.slice) > 1e-12 then A.quot (A.smul 2 d.slice) (A.fl (2 * A.norm d.slice)) else ⟨0, 0, 0, 0⟩

/-- DQ.py:226-234: the axis for a given rotation. -/
noncomputable def axisFor (a : DQuat) : Num → Py Quat
  | some r => if r > 1e-12 then A.divScalar a.rot.slice (A.sineOfHalf T r) else .ok (A.slideAxis a.dual)
  | none => .ok (A.slideAxis a.dual)

/-- DQ.py:221-238 `screw_axis`: the axis. -/
noncomputable def screwAxis (a : DQuat) : Py Quat := A.axisFor T a (A.rotation T a.rot.w)

/-- HE.py:311-320 (and again 327-336): the axes of a pair, normalised; `none` if one of them is (numerically) zero. -/
noncomputable def pairAxes (dq_W_E dq_B_H : DQuat) : Py (Option (Quat × Quat)) := do
  let aw ← A.screwAxis T dq_W_E
  let ab ← A.screwAxis T dq_B_H
  if A.norm aw ≤ 1e-12 ∨ A.norm ab ≤ 1e-12 then return none
  else return some (A.quot aw (A.norm aw), A.quot ab (A.norm ab))

open Classical in
/-- HE.py:338-343: the axes are close in one of the lists. -/
noncomputable def closeAxes (threshold : ℝ) (a b : Quat × Quat) : Bool := decide (A.dot a.1 b.1 > threshold ∨ A.dot a.2 b.2 > threshold)

end Arith

/-- HE.py:324-344: the inner loop, for the axes `a` of pair `i` and from index `j` on, with the functions that compute and compare the axes of pairs. -/
def dropClose {α : Type} (axes : DQuat → DQuat → Py (Option α)) (close : α → α → Bool) (a : α) (j : ℕ) (we bh : List DQuat) : Py (List DQuat × List DQuat) :=
  if h : j < we.length then do
    let b ← pyAt bh j
    let o ← axes we[j] b
    match o with
    | none => dropClose axes close a j (we.eraseIdx j) (bh.eraseIdx j)
    | some a' => if close a a' then dropClose axes close a j (we.eraseIdx j) (bh.eraseIdx j) else dropClose axes close a (j + 1) we bh
  else return (we, bh)
termination_by we.length - j
decreasing_by all_goals (try rw [List.length_eraseIdx_of_lt h]); omega

/-- HE.py:308-345: the outer loop, which runs as long as there are pairs; `fuel` bounds the number of its iterations, and the length of the list suffices
(each iteration removes a pair or moves on to the next). -/
def keepDistinct {α : Type} (axes : DQuat → DQuat → Py (Option α)) (close : α → α → Bool) : ℕ → ℕ → List DQuat → List DQuat → Py (ℕ × List DQuat × List DQuat)
  | 0, i, we, bh => .ok (i, we, bh)
  | fuel + 1, i, we, bh =>
    if h : i < we.length then do
      let b ← pyAt bh i
      let o ← axes we[i] b
      match o with
      | none => keepDistinct axes close fuel i (we.eraseIdx i) (bh.eraseIdx i)
      | some a => do
        let r ← dropClose axes close a (i + 1) we bh
        keepDistinct axes close fuel (i + 1) r.1 r.2
    else .ok (i, we, bh)

namespace Arith

variable (A : Arith) (T : Trig)

/-- HE.py:303-348 `prefilter_using_screw_axis`. -/
noncomputable def prefilter (dq_W_E_vec dq_B_H_vec : List DQuat) (threshold : ℝ) : Py (List DQuat × List DQuat) := do
  let r ← keepDistinct (A.pairAxes T) (A.closeAxes threshold) dq_W_E_vec.length 0 dq_W_E_vec dq_B_H_vec
  pyAssert (2 ≤ r.1)
  return r.2

/-- HE.py:657-665 (and 493-498): the prefilter, if it is enabled; the baseline algorithm has no assertion about the lengths, which always holds. -/
noncomputable def filteredPoses (cfg : HandEyeConfig) (dq_B_H_vec dq_W_E_vec : List DQuat) : Py (List DQuat × List DQuat) :=
  if cfg.prefilter_poses_enabled then do
    let r ← A.prefilter T dq_B_H_vec dq_W_E_vec cfg.prefilter_dot_product_threshold
    pyAssert (r.2.length = r.1.length)
    return r
  else .ok (dq_B_H_vec, dq_W_E_vec)

end Arith

end HandEye
