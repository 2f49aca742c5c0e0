import Verif.Spec.LinearSystem
import Verif.Spec.Pose

/-! # Specification vocabulary: noisy data -/

namespace HandEye.Spec

/-- The sum of the squares of the eight components. -/
def sumSq (y : Fin 8 → ℝ) : ℝ := ∑ j, y j ^ 2

/-- The sum of the squares of the residuals `T y`. -/
def residualSq (T : List (Fin 8 → ℝ)) (y : Fin 8 → ℝ) : ℝ := (T.map fun row => (∑ j, row j * y j) ^ 2).sum

/-- Two dual quaternions whose eight components differ by at most `η` in Euclidean distance. -/
def NearDQ (η : ℝ) (a b : DQuat) : Prop := ∑ j, (vec8 a j - vec8 b j) ^ 2 ≤ η ^ 2

/-- The length of the translation of the rigid motion that a unit dual quaternion stands for, from `t = 2 d r*`. -/
noncomputable def translationLength (a : DQuat) : ℝ :=
  2 * Real.sqrt (a.dual.x ^ 2 + a.dual.y ^ 2 + a.dual.z ^ 2 + a.dual.w ^ 2)

/-- Measurements of the poses `bs₀`, `ws₀` with an error of at most `η` per pose.  Without the loop that makes the signs equal
(`enf = false`) the measurements have the signs of the poses.  With it, the poses of the eye may be given with either sign,
and no rotation may be within `η` of a half turn. -/
structure Measured (enf : Bool) (η : ℝ) (bs₀ ws₀ bs ws : List DQuat) : Prop where
  hand : List.Forall₂ (NearDQ η) bs bs₀
  eye : List.Forall₂ (fun w w₀ => NearDQ η w w₀ ∨ (enf = true ∧ ∑ j, (vec8 w j + vec8 w₀ j) ^ 2 ≤ η ^ 2)) ws ws₀
  turns : enf = true → ∀ b₀ ∈ bs₀, η < |b₀.rot.w|

end HandEye.Spec
