import Mathlib.Order.Bounds.Basic
import Mathlib.Tactic.Linarith
import Verif.Model.Plots

/-! # Specification vocabulary: bins of equal width -/

namespace HandEye.Spec

/-- The value lies in bin number `i`: at least its lower edge and less than its upper edge. -/
def InBin (s : MinMaxStep) (i : ℕ) (v : ℝ) : Prop :=
  s.start + i * s.step ≤ v ∧ v < s.start + ((i : ℝ) + 1) * s.step

/-- The number of bins that are needed to get from the start to the end. -/
def BinCount (s : MinMaxStep) (N : ℕ) : Prop := IsLeast {N : ℕ | s.end ≤ s.start + N * s.step} N

/-- The arithmetic mean. -/
noncomputable def mean (l : List ℝ) : ℝ := l.sum / l.length

/-- A perturbation has three parts. -/
inductive Quantity where
  | time
  | translation
  | angle
  deriving DecidableEq

/-- How the part is called. -/
def Quantity.name : Quantity → String
  | .time => "time"
  | .translation => "translation"
  | .angle => "angle"

/-- How large the part is in a row of the results. -/
def Quantity.size : Quantity → ResultRow → ℝ
  | .time, r => |r.initial_guess_time|
  | .translation, r => |r.initial_guess_translation_norm|
  | .angle, r => |r.initial_guess_angle|

/-- One of three. -/
def Quantity.pick {α : Type} (time translation angle : α) : Quantity → α
  | .time => time
  | .translation => translation
  | .angle => angle

end HandEye.Spec
