import Verif.Spec.Motion

/-! # Specification vocabulary: the hand-eye equation -/

namespace HandEye.Spec

/-- The hand-eye equation `b X = X w`, in Mathlib's dual numbers over the quaternions. -/
def HandEyeEq (b X w : DQuat) : Prop := b.toDual * X.toDual = X.toDual * w.toDual

/-- The element of a list of length `n` that the Python index `i` names (negative indices count from
the end). -/
def Names (n : ℕ) (i : ℤ) (k : ℕ) : Prop := k < n ∧ (i = k ∨ i = (k : ℤ) - n)

/-- Two dual quaternions that differ at most by their sign. -/
def SameUpToSign (a b : DQuat) : Prop := a = b ∨ a = ⟨⟨-b.rot.x, -b.rot.y, -b.rot.z, -b.rot.w⟩,
  ⟨-b.dual.x, -b.dual.y, -b.dual.z, -b.dual.w⟩⟩

end HandEye.Spec
