import Mathlib.Data.Real.Basic

/-!
# What it means for the outputs of a step to be up to date
-/

namespace HandEye.Spec

/-- Every output exists and none is older than an existing input. -/
def UpToDate (fs : String → Option ℝ) (inputs outputs : List String) : Prop :=
  ∀ o ∈ outputs, ∃ t, fs o = some t ∧ ∀ i ∈ inputs, ∀ s, fs i = some s → s ≤ t

/-- The files after the first `k` of the outputs have been written, `o` at time `clock o`. -/
def writtenFirst (fs : String → Option ℝ) (clock : String → ℝ) (outputs : List String) (k : ℕ) :
    String → Option ℝ :=
  fun f => if f ∈ outputs.take k then some (clock f) else fs f

end HandEye.Spec
