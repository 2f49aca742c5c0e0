import Verif.Model.Ransac
import Mathlib.Data.Fintype.CardEmbedding
import Mathlib.Data.Nat.Factorial.Basic
import Mathlib.Data.Fintype.BigOperators
import Mathlib.Order.Bounds.Defs

/-! # Specification vocabulary: the chance of an event when samples are drawn at random -/

namespace HandEye.Spec

/-- What `random.sample` returns of the numbers below n: k distinct ones in some order, all of them with equal chances. -/
abbrev Draw (n k : ℕ) := Fin k ↪ Fin n

/-- The numbers that were drawn. -/
def numbers {n k : ℕ} (d : Draw n k) : List ℕ := List.ofFn fun i => (d i : ℕ)

/-- What N independent calls of `random.sample` return (and after them something that does not matter). -/
def calls {n k N : ℕ} (ω : Fin N → Draw n k) (i : ℕ) : List ℕ := if h : i < N then numbers (ω ⟨i, h⟩) else List.range k

open Classical in
/-- The chance of an event if all of finitely many outcomes are equally likely. -/
noncomputable def chance {Ω : Type} [Fintype Ω] (E : Ω → Prop) : ℝ := (Finset.univ.filter E).card / Fintype.card Ω

/-- The random search is to end after m evaluated samples: the maximum is reached, or the configured confidence if the early abort is enabled, and not before. -/
def EndsAfter (cfg : HandEyeConfig) (m : ℕ) : Prop :=
  IsLeast {j | 0 < j ∧ (cfg.ransac_max_number_iterations ≤ j ∨ (cfg.ransac_enable_early_abort = true ∧
    (1 - (1 - cfg.ransac_outlier_probability) ^ cfg.ransac_sample_size) ^ j < 1 - cfg.ransac_success_probability_threshold))} m

/-- The random numbers of one round for n samples of which at most m are dropped at a time: the second one is reduced to a range of at most m + 1 numbers, which then
all have equal chances (`C54_uniform`). -/
abbrev DropDraw (n m : ℕ) := Fin n × Fin (Nat.factorial (m + 1))

/-- The random numbers of N rounds (and after them something that does not matter). -/
def dropDraws {n m N : ℕ} (ω : Fin N → DropDraw n m) (t : ℕ) : ℕ × ℕ := if h : t < N then ((ω ⟨t, h⟩).1, (ω ⟨t, h⟩).2) else (0, 0)

end HandEye.Spec
