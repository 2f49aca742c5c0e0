import Verif.Model.RoundedInterp

/-!
# The alignment of pose tables in floating-point arithmetic

`compute_aligned_poses` of `/repo/hand_eye_calibration/python/hand_eye_calibration/time_alignment.py` (`TA.py`) with a rounding after every elementary
operation (as in `Model/RoundedInterp.lean`, with the same simplifications).
-/

namespace HandEye

namespace Arith

variable (A : Arith)

/-- TA.py:228-231: the table with all times shifted. -/
def shiftTimes (c : ℝ) (poses : List StampedPose) : List StampedPose := poses.map fun p => ⟨A.fl (p.t + c), p.pose⟩

/-- `np.median`, as `npMedian`: the middle element, or the mean of the two middle elements. -/
noncomputable def median (l : List ℝ) : Py ℝ :=
  if l = [] then .error .nonFinite
  else if l.length % 2 = 1 then .ok ((npSort l).getD (l.length / 2) 0)
  else .ok (A.fl (A.fl ((npSort l).getD ((l.length - 1) / 2) 0 + (npSort l).getD (l.length / 2) 0) / 2))

/-- TA.py:258-282: the selection of the sample times, as `HandEye.selectSamples`. -/
noncomputable def selectSamples (high : List ℝ) (start_time : ℝ) : List ℝ → Py (List ℝ)
  | [] => .ok []
  | timestamp :: rest =>
    if timestamp < start_time then selectSamples high start_time rest
    else if (bisectLeft high timestamp : ℤ) ≥ (high.length : ℤ) - 1 then .ok []
    else do
      let right ← pyAt high (bisectLeft high timestamp)
      if timestamp = right then do
        let r ← selectSamples high start_time rest
        return timestamp :: r
      else do
        let left ← pyGet high ((bisectLeft high timestamp : ℤ) - 1)
        if timestamp < left then selectSamples high start_time rest
        else if A.fl (timestamp - left) < 0.1 ∧ A.fl (right - timestamp) ≤ 0.1 then do
          let r ← selectSamples high start_time rest
          return timestamp :: r
        else selectSamples high start_time rest

/-- TA.py:245-252, 258-282: the table with the larger median time step gives the samples. -/
noncomputable def selectFrom (dt_A dt_B : ℝ) (times_A times_B : List ℝ) (start_time : ℝ) : Py (List ℝ) :=
  if dt_A ≥ dt_B then A.selectSamples times_B start_time times_A
  else A.selectSamples times_A start_time times_B

/-- TA.py:219-301 `compute_aligned_poses`. -/
noncomputable def alignedPoses (cos sin : ℝ → ℝ) (poses_A poses_B : List StampedPose) (time_offset : ℝ) :
    Py (List StampedPose × List StampedPose) := do
  let shifted := A.shiftTimes time_offset poses_A
  let times_A := shifted.map StampedPose.t
  let times_B := poses_B.map StampedPose.t
  let a0 ← pyAt times_A 0
  let b0 ← pyAt times_B 0
  let dt_A ← A.median ((npDiff times_A).map A.fl)
  let dt_B ← A.median ((npDiff times_B).map A.fl)
  let samples ← A.selectFrom dt_A dt_B times_A times_B (max a0 b0)
  let aligned_A ← A.interpolatePoses cos sin shifted samples
  let aligned_B ← A.interpolatePoses cos sin poses_B samples
  pyAssert (aligned_A.length = aligned_B.length)
  pyAssert (∀ p ∈ aligned_A.zip aligned_B, npIsclose p.1.t p.2.t 1e-8)
  return (aligned_A, aligned_B)

end Arith

end HandEye
