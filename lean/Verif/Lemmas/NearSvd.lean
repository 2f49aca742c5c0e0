import Verif.Spec.NearSvd
import Verif.Lemmas.Noise
import Mathlib.Analysis.InnerProductSpace.PiL2

/-! # Lemmas about sums of squares and perturbed linear systems -/

namespace HandEye

open Matrix

/-- The length of a vector with eight components. -/
noncomputable def len8 (y : Fin 8 → ℝ) : ℝ := Real.sqrt (Spec.sumSq y)

theorem sumSq_nonneg (y : Fin 8 → ℝ) : 0 ≤ Spec.sumSq y := Finset.sum_nonneg fun _ _ => sq_nonneg _

theorem len8_sq (y : Fin 8 → ℝ) : len8 y ^ 2 = Spec.sumSq y := Real.sq_sqrt (sumSq_nonneg y)

theorem len8_nonneg (y : Fin 8 → ℝ) : 0 ≤ len8 y := Real.sqrt_nonneg _

theorem len8_eq (y : Fin 8 → ℝ) : len8 y = ‖WithLp.toLp 2 y‖ := by
  rw [EuclideanSpace.norm_eq, len8, Spec.sumSq]
  simp

theorem len8_add (x y : Fin 8 → ℝ) : len8 (x + y) ≤ len8 x + len8 y := by
  rw [len8_eq, len8_eq, len8_eq, WithLp.toLp_add]
  exact norm_add_le _ _

theorem len8_smul (c : ℝ) (y : Fin 8 → ℝ) : len8 (c • y) = |c| * len8 y := by
  rw [len8_eq, len8_eq, WithLp.toLp_smul, norm_smul, Real.norm_eq_abs]

theorem len8_abs (y : Fin 8 → ℝ) : len8 (fun j => |y j|) = len8 y := by
  unfold len8 Spec.sumSq
  simp only [sq_abs]

theorem len8_mono {x y : Fin 8 → ℝ} (h : ∀ j, |x j| ≤ y j) : len8 x ≤ len8 y := by
  apply Real.sqrt_le_sqrt
  apply Finset.sum_le_sum
  intro j _
  rw [← sq_abs]
  exact pow_le_pow_left₀ (abs_nonneg _) (h j) 2

theorem len8_le {y : Fin 8 → ℝ} {c : ℝ} (hc : 0 ≤ c) : len8 y ≤ c ↔ Spec.sumSq y ≤ c ^ 2 := by
  rw [len8, Real.sqrt_le_left hc]

theorem frobSq_nonneg (T : List (Fin 8 → ℝ)) : 0 ≤ Spec.frobSq T := by
  apply List.sum_nonneg
  intro x hx
  obtain ⟨y, _, rfl⟩ := List.mem_map.mp hx
  exact sumSq_nonneg y

theorem residualSq_nonneg (T : List (Fin 8 → ℝ)) (y : Fin 8 → ℝ) : 0 ≤ Spec.residualSq T y := by
  apply List.sum_nonneg
  intro x hx
  obtain ⟨y, _, rfl⟩ := List.mem_map.mp hx
  positivity

theorem diffSq_nonneg (T T' : List (Fin 8 → ℝ)) : 0 ≤ Spec.diffSq T T' := by
  induction T generalizing T' with
  | nil => simp [Spec.diffSq]
  | cons t T ih =>
    cases T' with
    | nil => simp [Spec.diffSq]
    | cons t' T' =>
      have := ih T'
      have := sumSq_nonneg (t - t')
      simp only [Spec.diffSq, List.zipWith_cons_cons, List.sum_cons] at *
      linarith

/-- Cauchy's inequality for sums of two squares, as a triangle inequality. -/
theorem two_triangle {a b c d : ℝ} (ha : 0 ≤ a) (hb : 0 ≤ b) (hc : 0 ≤ c) (hd : 0 ≤ d) :
    (Real.sqrt a + Real.sqrt b) ^ 2 + (Real.sqrt c + Real.sqrt d) ^ 2 ≤ (Real.sqrt (a + c) + Real.sqrt (b + d)) ^ 2 := by
  have h1 : Real.sqrt a * Real.sqrt b + Real.sqrt c * Real.sqrt d ≤ Real.sqrt (a + c) * Real.sqrt (b + d) := by
    rw [← Real.sqrt_mul (show 0 ≤ a + c by linarith)]
    apply Real.le_sqrt_of_sq_le
    have e1 := Real.sq_sqrt ha
    have e2 := Real.sq_sqrt hb
    have e3 := Real.sq_sqrt hc
    have e4 := Real.sq_sqrt hd
    generalize Real.sqrt a = p at *
    generalize Real.sqrt b = q at *
    generalize Real.sqrt c = r at *
    generalize Real.sqrt d = s at *
    rw [← e1, ← e2, ← e3, ← e4]
    nlinarith [sq_nonneg (p * s - q * r)]
  rw [add_sq, add_sq, add_sq, Real.sq_sqrt ha, Real.sq_sqrt hb, Real.sq_sqrt hc, Real.sq_sqrt hd, Real.sq_sqrt (by linarith), Real.sq_sqrt (by linarith)]
  linarith

/-- How much a perturbation of the matrix changes the residual. -/
theorem residual_perturbed (y : Fin 8 → ℝ) : ∀ {T T' : List (Fin 8 → ℝ)}, T'.length = T.length →
    Spec.residualSq T' y ≤ (Real.sqrt (Spec.residualSq T y) + Real.sqrt (Spec.diffSq T T' * Spec.sumSq y)) ^ 2 := by
  intro T
  induction T with
  | nil =>
    intro T' h
    rw [List.length_eq_zero_iff.mp h]
    simp [Spec.residualSq, Spec.diffSq]
  | cons t T ih =>
    intro T' h
    cases T' with
    | nil => cases h
    | cons t' T' =>
      have i := ih (Nat.succ.inj h)
      have hy := sumSq_nonneg y
      have e1 : Spec.residualSq (t' :: T') y = (∑ j, t' j * y j) ^ 2 + Spec.residualSq T' y := by simp [Spec.residualSq]
      have e2 : Spec.residualSq (t :: T) y = (∑ j, t j * y j) ^ 2 + Spec.residualSq T y := by simp [Spec.residualSq]
      have e3 : Spec.diffSq (t :: T) (t' :: T') = Spec.sumSq (t - t') + Spec.diffSq T T' := by simp [Spec.diffSq]
      have c : (∑ j, (t - t') j * y j) ^ 2 ≤ Spec.sumSq (t - t') * Spec.sumSq y := Finset.sum_mul_sq_le_sq_mul_sq _ _ _
      have e4 : ∑ j, t' j * y j = ∑ j, t j * y j - ∑ j, (t - t') j * y j := by
        rw [← Finset.sum_sub_distrib]
        exact Finset.sum_congr rfl fun j _ => by rw [Pi.sub_apply]; ring
      have e5 : |∑ j, t' j * y j| ≤ Real.sqrt ((∑ j, t j * y j) ^ 2) + Real.sqrt (Spec.sumSq (t - t') * Spec.sumSq y) := by
        rw [e4, Real.sqrt_sq_eq_abs]
        refine (abs_sub _ _).trans (add_le_add le_rfl ?_)
        exact Real.abs_le_sqrt c
      have e6 : (∑ j, t' j * y j) ^ 2 ≤ (Real.sqrt ((∑ j, t j * y j) ^ 2) + Real.sqrt (Spec.sumSq (t - t') * Spec.sumSq y)) ^ 2 := by
        rw [← sq_abs]
        exact pow_le_pow_left₀ (abs_nonneg _) e5 2
      rw [e1, e2, e3, add_mul]
      refine (add_le_add e6 i).trans ?_
      exact two_triangle (sq_nonneg _) (mul_nonneg (sumSq_nonneg _) hy) (residualSq_nonneg _ _) (mul_nonneg (diffSq_nonneg _ _) hy)

theorem frobSq_perturbed : ∀ {T T' : List (Fin 8 → ℝ)}, T'.length = T.length →
    Spec.frobSq T' ≤ (Real.sqrt (Spec.frobSq T) + Real.sqrt (Spec.diffSq T T')) ^ 2 := by
  intro T
  induction T with
  | nil =>
    intro T' h
    rw [List.length_eq_zero_iff.mp h]
    simp [Spec.frobSq, Spec.diffSq]
  | cons t T ih =>
    intro T' h
    cases T' with
    | nil => cases h
    | cons t' T' =>
      have i := ih (Nat.succ.inj h)
      have e1 : Spec.frobSq (t' :: T') = Spec.sumSq t' + Spec.frobSq T' := by simp [Spec.frobSq]
      have e2 : Spec.frobSq (t :: T) = Spec.sumSq t + Spec.frobSq T := by simp [Spec.frobSq]
      have e3 : Spec.diffSq (t :: T) (t' :: T') = Spec.sumSq (t - t') + Spec.diffSq T T' := by simp [Spec.diffSq]
      have e6 : Spec.sumSq t' ≤ (Real.sqrt (Spec.sumSq t) + Real.sqrt (Spec.sumSq (t - t'))) ^ 2 := by
        have h1 := len8_add t (t' - t)
        rw [add_sub_cancel] at h1
        have h2 : len8 (t' - t) = len8 (t - t') := by
          have := len8_smul (-1) (t - t')
          rw [abs_neg, abs_one, one_mul] at this
          rw [← this]
          congr 1
          module
        rw [h2] at h1
        rw [← len8_sq]
        exact pow_le_pow_left₀ (len8_nonneg _) h1 2
      rw [e1, e2, e3]
      refine (add_le_add e6 i).trans ?_
      exact two_triangle (sumSq_nonneg _) (sumSq_nonneg _) (frobSq_nonneg _) (diffSq_nonneg _ _)

end HandEye
