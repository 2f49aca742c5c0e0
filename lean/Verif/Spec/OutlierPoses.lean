import Verif.Spec.Outliers
import Verif.Spec.Frames

/-! # Specification vocabulary: tables of poses with outliers -/

namespace HandEye.Spec

/-- The pair (pose of the hand, pose of the eye) fits the mounting X and the world transform g as motions: the signs of the dual
quaternions are free. -/
def FitsMotion (g X : DQuat) (m : DQuat × DQuat) : Prop := ∀ x, motion m.2 x = motion g (motion m.1 (motion X x))

open Quaternion in
/-- The dual quaternion `q + ε/2 t q` of a pose with unit quaternion `q` and position `t`. -/
noncomputable def poseDual (p : Pose) : DQuat :=
  let h : ℍ[ℝ] := (1 / 2 : ℝ) • (p.pos.toH * p.q.toH)
  ⟨p.q, ⟨h.imI, h.imJ, h.imK, h.re⟩⟩

/-- The measurements of two tables of poses. -/
noncomputable def measurements (A B : List Pose) : List (DQuat × DQuat) := (A.map poseDual).zip (B.map poseDual)

/-- Seen from the first pose, the two others are rotated, about axes that differ by more than about 18 degrees (cosine 0.95). -/
def FarTurns (p₀ p₁ p₂ : Pose) : Prop := ∃ s₁ s₂ : ℝ, 1e-12 < s₁ ∧ 1e-12 < s₂ ∧
  (turn p₀ p₁).x ^ 2 + (turn p₀ p₁).y ^ 2 + (turn p₀ p₁).z ^ 2 = s₁ ^ 2 ∧
  (turn p₀ p₂).x ^ 2 + (turn p₀ p₂).y ^ 2 + (turn p₀ p₂).z ^ 2 = s₂ ^ 2 ∧
  |(turn p₀ p₁).x * (turn p₀ p₂).x + (turn p₀ p₁).y * (turn p₀ p₂).y + (turn p₀ p₁).z * (turn p₀ p₂).z| ≤ 0.95 * (s₁ * s₂)

/-- After rows in which the hand has not moved, the next row and one of the later ones are rotated about different axes, for both
sensors. -/
def BothStartTurning (A B : List Pose) : Prop := ∃ p₀ q₀ still p₁ q₁ rest p₂ q₂,
  A.zip B = (p₀, q₀) :: (still ++ (p₁, q₁) :: rest) ∧ (∀ m ∈ still, ∀ x, poseMotion m.1 x = poseMotion p₀ x) ∧
  (p₂, q₂) ∈ rest ∧ FarTurns p₀ p₁ p₂ ∧ FarTurns q₀ q₁ q₂

end HandEye.Spec
