import Verif.Props.RoundedAlign
import Verif.Props.RoundedExact

/-! # Property C113: without rounding, the floating-point model of the alignment is the exact one -/

namespace HandEye

theorem exact_interp (xp fp : List ℝ) (x : ℝ) : exactArith.interp xp fp x = npInterp xp fp x := rfl

theorem exact_interpolatePoses (poses : List StampedPose) (samples : List ℝ) :
    exactArith.interpolatePoses Real.cos Real.sin poses samples = interpolatePosesFromSamples poses samples := by
  unfold Arith.interpolatePoses interpolatePosesFromSamples
  simp only [exact_resample, exact_interp]

theorem exact_median (l : List ℝ) : exactArith.median l = npMedian l := by
  unfold Arith.median npMedian
  have hfl : ∀ x, exactArith.fl x = x := fun _ => rfl
  simp only [hfl]
  by_cases h : l = []
  · rw [if_pos h, if_pos h]
  rw [if_neg h, if_neg h]
  by_cases h1 : l.length % 2 = 1
  · rw [if_pos h1, show (l.length - 1) / 2 = l.length / 2 by omega]
    congr 1
    ring
  · rw [if_neg h1]

theorem exact_selectSamples (high : List ℝ) (s : ℝ) (low : List ℝ) : exactArith.selectSamples high s low = selectSamples high s low := by
  induction low with
  | nil => rfl
  | cons t rest ih =>
    unfold Arith.selectSamples selectSamples
    rw [ih]
    rfl

/-- **C113**: without rounding errors, the floating-point model has the same results (and the same errors) as the model over the real numbers. -/
theorem C113_exact (PA PB : List StampedPose) (c : ℝ) : exactArith.alignedPoses Real.cos Real.sin PA PB c = computeAlignedPoses PA PB c := by
  have hm : ∀ l : List ℝ, l.map exactArith.fl = l := fun l => List.map_id l
  have hs : exactArith.shiftTimes c PA = shiftTimes c PA := rfl
  unfold Arith.alignedPoses computeAlignedPoses
  unfold Arith.selectFrom selectFrom
  simp only [exact_interpolatePoses, exact_median, exact_selectSamples, hm, hs]

/-- Also in exact arithmetic, the last stamp of two equal tables is lost. -/
example : ∃ RA RB, exactArith.alignedPoses Real.cos Real.sin [⟨0, ⟨⟨1, 2, 3⟩, ⟨0, 0, 0, 1⟩⟩⟩, ⟨1, ⟨⟨2, 2, 3⟩, ⟨0, 0, 0.6, 0.8⟩⟩⟩]
    [⟨0, ⟨⟨1, 2, 3⟩, ⟨0, 0, 0, 1⟩⟩⟩, ⟨1, ⟨⟨2, 2, 3⟩, ⟨0, 0, 0.6, 0.8⟩⟩⟩] 0 = .ok (RA, RB) ∧ RA.map StampedPose.t = [0] := by
  obtain ⟨RA, RB, h1, h2, -⟩ := C62_refuted ⟨0, ⟨⟨1, 2, 3⟩, ⟨0, 0, 0, 1⟩⟩⟩ ⟨1, ⟨⟨2, 2, 3⟩, ⟨0, 0, 0.6, 0.8⟩⟩⟩ (by norm_num)
    (Quat.norm_eq_one.mpr (by norm_num [Quat.dot])) (Quat.norm_eq_one.mpr (by norm_num [Quat.dot]))
  exact ⟨RA, RB, (C113_exact _ _ _).trans h1, h2⟩

end HandEye
