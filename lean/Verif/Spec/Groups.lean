import Verif.Spec.Outliers
import Verif.Model.Ransac

/-! # Specification vocabulary: the measurements that correspond to one of them -/

namespace HandEye.Spec

/-- The motion from one pose to another, as the dual quaternion with a non-negative real scalar part. -/
noncomputable def relative (a b : DQuat) : DQuat := if (a.conj * b).rot.w < 0 then -(a.conj * b) else a.conj * b

open Classical in
/-- The measurements that correspond to the k-th one, p, as motions from there, beginning with the k-th one and going round. -/
noncomputable def group (tol : ℝ) (ms : List (DQuat × DQuat)) (k : ℕ) (p : DQuat × DQuat) : List (DQuat × DQuat) :=
  ((ms.drop k ++ ms.take k).filter fun q => decide (Corresponds tol p q)).map fun q => (relative p.1 q.1, relative p.2 q.2)

/-- A sample that leads to a calibration.  Samples are drawn from the measurements `fs`, and all measurements are `ms`: the measurements of the sample
correspond to the first of them, number k of `fs`; enough of all measurements correspond to number k of `ms`, which need not be the same one; and the
solver returns on all of these. -/
def LeadsToCalibration (svd : Svd) (cfg : HandEyeConfig) (tol : ℝ) (fs ms : List (DQuat × DQuat)) (s : List ℕ) : Prop :=
  ∃ k f p, s.head? = some k ∧ fs[k]? = some f ∧ ms[k]? = some p ∧ (∀ i ∈ s, ∀ q, fs[i]? = some q → Corresponds tol f q) ∧
    cfg.min_num_inliers ≤ number (Corresponds tol p) ms ∧
    ∃ r, computeHandEyeCalibration svd ((group tol ms k p).map Prod.fst) ((group tol ms k p).map Prod.snd)
      cfg.hand_eye_calibration_scalar_part_equality_tolerance = .ok r

end HandEye.Spec
