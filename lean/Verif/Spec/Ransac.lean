import Verif.Model.Ransac
import Mathlib.Data.Nat.Choose.Basic

/-! # Specification vocabulary: random samples and the course of a RANSAC run -/

namespace HandEye.Spec

/-- What `random.sample(range(n), k)` may return: `k` distinct numbers below `n`. -/
def IsSample (n k : ℕ) (s : List ℕ) : Prop := s.length = k ∧ s.Nodup ∧ ∀ i ∈ s, i < n

/-- A strictly smaller error in both respects. -/
def Better (c d : Candidate) : Prop :=
  c.rmse_position < d.rmse_position ∧ c.rmse_orientation < d.rmse_orientation

/-- How many samples were evaluated, i.e. not rejected. -/
def evaluated (outs : List SampleOutcome) : ℕ :=
  (outs.filter fun o => match o with
    | .candidate _ => true
    | _ => false).length

/-- The budget is used up after `m` samples of which `f` were evaluated: all combinations of `k` out of
`n` poses for the exhaustive search, else `ransac_max_number_iterations` evaluated samples. -/
def Exhausted (cfg : HandEyeConfig) (n m f : ℕ) : Prop :=
  if cfg.enable_exhaustive_search then n.choose cfg.ransac_sample_size ≤ m
  else cfg.ransac_max_number_iterations ≤ f

/-- The course of a run over `n` poses: it draws exactly the samples `samples`, with the outcomes `outs`.
It stops when the budget is used up, or by an early abort (`abort f`, decided after each evaluated
sample), and not before. -/
structure Course (cfg : HandEyeConfig) (n : ℕ) (draw : ℕ → Py (List ℕ)) (eval : List ℕ → Py SampleOutcome)
    (abort : ℕ → Py Bool) (samples : List (List ℕ)) (outs : List SampleOutcome) : Prop where
  drawn : ∀ (k : ℕ) (s : List ℕ), samples[k]? = some s → draw k = .ok s
  outcomes : List.Forall₂ (fun s o => eval s = .ok o) samples outs
  goes_on : ∀ j < outs.length, ¬ Exhausted cfg n j (Spec.evaluated (outs.take j))
  no_abort : ∀ (j : ℕ) (c : Candidate), outs[j]? = some (.candidate c) → j + 1 < outs.length →
    abort (Spec.evaluated (outs.take (j + 1))) = .ok false
  stops : Exhausted cfg n outs.length (Spec.evaluated outs) ∨
    (abort (Spec.evaluated outs) = .ok true ∧ ∃ c, outs.getLast? = some (.candidate c))

end HandEye.Spec
