import Verif.Spec.LinearSystem

/-! # Specification vocabulary: agreement of pose pairs -/

namespace HandEye.Spec

/-- The pairs of a trajectory that agree with pair `(b₀, w₀)`: seen from it, the scalar parts of the two
relative poses (signs chosen such that the real one is not negative) differ by at most 1e-2 + 1e-5 |b|. -/
def Agree (b₀ w₀ b w : DQuat) : Prop :=
  ∃ r t : DQuat, SameUpToSign r (b₀.conj * b) ∧ SameUpToSign t (w₀.conj * w) ∧
    (r.rot.w > 0 ∨ r = b₀.conj * b ∧ r.rot.w = 0) ∧ (t.rot.w > 0 ∨ t = w₀.conj * w ∧ t.rot.w = 0) ∧
    |t.rot.w - r.rot.w| ≤ 1e-2 + 1e-5 * |r.rot.w| ∧ |t.dual.w - r.dual.w| ≤ 1e-2 + 1e-5 * |r.dual.w|

open Classical in
/-- How many pairs agree with pair `j`. -/
noncomputable def agreeing (bs ws : List DQuat) (j : ℕ) : ℕ :=
  ((bs.zip ws).filter fun p => Agree (bs.getD j ⟨⟨0, 0, 0, 1⟩, ⟨0, 0, 0, 0⟩⟩)
    (ws.getD j ⟨⟨0, 0, 0, 1⟩, ⟨0, 0, 0, 0⟩⟩) p.1 p.2).length

end HandEye.Spec
