import Verif.Spec.Interp

/-! # Specification vocabulary: unit dual quaternions and the rigid motions they stand for

Written with Mathlib's quaternions, not with the operations of the model. -/

namespace HandEye.Spec

open Quaternion

/-- A unit dual quaternion: the real part has length one and is orthogonal to the dual part. -/
def IsUnit (a : DQuat) : Prop :=
  normSq a.rot.toH = 1 ∧ (a.rot.toH * star a.dual.toH).re = 0

/-- The vector part of a quaternion. -/
def imPart (h : ℍ[ℝ]) : Vec3 := ⟨h.imI, h.imJ, h.imK⟩

/-- The rigid motion that `r + ε d` stands for (for `r ≠ 0`, scaled or not):
`x ↦ (r x r* + 2 d r*) / |r|²`. -/
noncomputable def motion (a : DQuat) (x : Vec3) : Vec3 :=
  imPart ((1 / normSq a.rot.toH) • (a.rot.toH * x.toH * star a.rot.toH +
    (2 : ℝ) • (a.dual.toH * star a.rot.toH)))

end HandEye.Spec
