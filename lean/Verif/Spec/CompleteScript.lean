import Verif.Model.CompleteScript

/-!
# What the complete calibration should do
-/

namespace HandEye.Spec

/-- `c` is the calibration of the tables `ta` and `tb`: they are aligned, calibrated, and the result is refined with the tables
themselves. -/
def CompleteCalibration {τ : Type} (w : CompleteWorld τ) (ta tb c : τ) : Prop :=
  ∃ aa ab off guess oa ob, w.align ta tb = some (aa, ab, off) ∧ w.calibrate aa ab off = some guess ∧
    w.estimate ta tb guess = some (oa, ob, c)

/-- The two inputs are different files, and none of the files that the alignment and the calibration write. -/
structure Separate (a b : FilePath) : Prop where
  ne : a ≠ b
  a_aligned : a ≠ alignedPath b
  b_aligned : b ≠ alignedPath a
  a_offset : a ≠ timeOffsetPath
  b_offset : b ≠ timeOffsetPath
  a_calibration : a ≠ calibrationPath
  b_calibration : b ≠ calibrationPath

end HandEye.Spec
