import Mathlib.Data.Real.Basic

/-! # Specification vocabulary: sampled signals -/

namespace HandEye.Spec

/-- The value of a sampled signal at an integer time: zero before its first and after its last sample. -/
def sample (l : List ℝ) : ℤ → ℝ
  | .ofNat n => match l[n]? with
    | some a => a
    | none => 0
  | .negSucc _ => 0

/-- `B` is `A`, amplified by `c`, `m` samples later (earlier for negative `m`). -/
def Delayed (A B : List ℝ) (m : ℤ) (c : ℝ) : Prop := ∀ i : ℤ, sample B i = c * sample A (i - m)

end HandEye.Spec
