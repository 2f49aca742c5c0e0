import Verif.Spec.Outliers
import Verif.Spec.Noise

/-! # Specification vocabulary: noisy measurements of a mounting -/

namespace HandEye.Spec

/-- The two dual quaternions that represent the motion of a differ: one of them is within η of h. -/
def NearMotion (η : ℝ) (a h : DQuat) : Prop := NearDQ η a h ∨ NearDQ η (-a) h

/-- Seen from the measurement p, the measurement q fits the mounting X with an error of at most η: the motions of the hand and of the eye from p to q are
within η of motions h and e that fit the mounting exactly, and h is not within η of a half turn. -/
def NoisyFit (η : ℝ) (X : DQuat) (p q : DQuat × DQuat) : Prop :=
  ∃ h e, HandEyeEq h X e ∧ NearMotion η (p.1.conj * q.1) h ∧ NearMotion η (p.2.conj * q.2) e ∧ η < |h.rot.w|

/-- The measurement p of the true poses q, with small motions instead of none (in the frame of the hand and of the eye) between the true and
the measured pose, and either sign. -/
def MeasuredWith (κ : ℝ) (p q : DQuat × DQuat) : Prop :=
  ∃ δ ε, IsUnit δ ∧ IsUnit ε ∧ NearDQ κ δ ⟨⟨0, 0, 0, 1⟩, ⟨0, 0, 0, 0⟩⟩ ∧ NearDQ κ ε ⟨⟨0, 0, 0, 1⟩, ⟨0, 0, 0, 0⟩⟩ ∧
    SameUpToSign p.1 (q.1 * δ) ∧ SameUpToSign p.2 (q.2 * ε)

end HandEye.Spec
