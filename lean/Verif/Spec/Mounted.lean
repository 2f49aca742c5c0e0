import Verif.Spec.LinearSystem

/-! # Specification vocabulary: two rigidly connected sensors -/

namespace HandEye.Spec

/-- The poses `ws` are those of a sensor that is mounted with the fixed transform X on the body with the
poses `bs`, measured in another world frame (the fixed transform `g` between the two): `w = g b X`, in
Mathlib's dual numbers over the quaternions. -/
def Mounted (g X : DQuat) (bs ws : List DQuat) : Prop :=
  List.Forall₂ (fun b w => w.toDual = g.toDual * b.toDual * X.toDual) bs ws

/-- Seen from one of the poses, two of the others are rotated about non-parallel axes. -/
def TurnsAboutTwoAxes (bs : List DQuat) : Prop :=
  ∃ a ∈ bs, ∃ b ∈ bs, ∃ c ∈ bs, Spec.cross (a.conj * b).rot.vec (a.conj * c).rot.vec ≠ ⟨0, 0, 0⟩

end HandEye.Spec
