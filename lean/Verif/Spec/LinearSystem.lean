import Verif.Spec.HandEye
import Verif.Spec.Rotation
import Mathlib.Data.Matrix.Mul

/-! # Specification vocabulary: homogeneous linear systems and singular value decompositions -/

namespace HandEye.Spec

/-- The eight coordinates of a dual quaternion, in the order of the code's arrays. -/
def vec8 (a : DQuat) : Fin 8 → ℝ :=
  ![a.rot.x, a.rot.y, a.rot.z, a.rot.w, a.dual.x, a.dual.y, a.dual.z, a.dual.w]

/-- `T y = 0` for a matrix given by its rows. -/
def Solves (T : List (Fin 8 → ℝ)) (y : Fin 8 → ℝ) : Prop := ∀ row ∈ T, ∑ j, row j * y j = 0

/-- The matrix with the given rows. -/
def ofRows (T : List (Fin 8 → ℝ)) : Matrix (Fin T.length) (Fin 8) ℝ := Matrix.of fun i => T[i]

/-- The rectangular diagonal matrix of a list of singular values. -/
def diag (m : ℕ) (s : List ℝ) : Matrix (Fin m) (Fin 8) ℝ :=
  Matrix.of fun i j => if i.val = j.val then s.getD j.val 0 else 0

/-- `s`, `V` are part of a (full) singular value decomposition `T = U diag(s) V` of a matrix with
eight columns, in the convention of `np.linalg.svd`: `U` and `V` orthogonal, `s` non-negative and
descending. -/
structure IsSVD (T : List (Fin 8 → ℝ)) (s : List ℝ) (V : Matrix (Fin 8) (Fin 8) ℝ) : Prop where
  length : s.length = min T.length 8
  nonneg : ∀ x ∈ s, 0 ≤ x
  sorted : s.Pairwise (· ≥ ·)
  orthogonal : V * V.transpose = 1
  factor : ∃ U : Matrix (Fin T.length) (Fin T.length) ℝ, U * U.transpose = 1 ∧
    ofRows T = U * diag T.length s * V

/-- Exact data: every pair of poses satisfies the hand-eye equation for X. -/
def Exact (bs ws : List DQuat) (X : DQuat) : Prop := List.Forall₂ (fun b w => HandEyeEq b X w) bs ws

/-- Two of the rotations turn about non-parallel axes. -/
def TwoAxes (bs : List DQuat) : Prop :=
  ∃ b₁ ∈ bs, ∃ b₂ ∈ bs, Spec.cross b₁.rot.vec b₂.rot.vec ≠ ⟨0, 0, 0⟩

end HandEye.Spec
