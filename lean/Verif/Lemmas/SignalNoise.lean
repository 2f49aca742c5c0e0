import Verif.Spec.SignalNoise
import Verif.Props.TimeOffset
import Mathlib.Algebra.Order.BigOperators.Ring.Finset

/-! # Lemmas on correlations of signals with noise -/

namespace HandEye

open Spec

/-- A finite set outside of which both signals vanish. -/
theorem finsum_two {f g : ℤ → ℝ} (hf : f.support.Finite) (hg : g.support.Finite) : ∃ S : Finset ℤ, ∀ u : ℤ → ℝ,
    (∀ i, f i = 0 → g i = 0 → u i = 0) → ∑ᶠ i, u i = ∑ i ∈ S, u i := by
  refine ⟨hf.toFinset ∪ hg.toFinset, fun u hu => finsum_eq_sum_of_support_subset _ ?_⟩
  intro i hi
  rw [Finset.coe_union, Set.Finite.coe_toFinset, Set.Finite.coe_toFinset]
  by_contra hc
  rw [Set.mem_union, not_or, Function.notMem_support, Function.notMem_support] at hc
  exact hi (hu i hc.1 hc.2)

theorem energy_nonneg (f : ℤ → ℝ) : 0 ≤ energy f := finsum_nonneg fun _ => sq_nonneg _

theorem energy_shift (f : ℤ → ℝ) (s : ℤ) : energy (fun i => f (i - s)) = energy f :=
  finsum_comp_equiv (Equiv.subRight s) (f := fun i => f i ^ 2)

theorem support_shift {f : ℤ → ℝ} (hf : f.support.Finite) (s : ℤ) : (fun i => f (i - s)).support.Finite :=
  (hf.preimage ((Equiv.subRight s).injective.injOn) : _)

/-- Cauchy-Schwarz. -/
theorem corr_le {f g : ℤ → ℝ} (hf : f.support.Finite) (hg : g.support.Finite) {x y : ℝ} (hx : 0 ≤ x) (hy : 0 ≤ y) (ex : energy f ≤ x ^ 2)
    (ey : energy g ≤ y ^ 2) : |∑ᶠ i, f i * g i| ≤ x * y := by
  obtain ⟨S, hS⟩ := finsum_two hf hg
  have h1 : energy f = ∑ i ∈ S, f i ^ 2 := hS _ fun i h _ => by simp [h]
  have h2 : energy g = ∑ i ∈ S, g i ^ 2 := hS _ fun i _ h => by simp [h]
  rw [hS (fun i => f i * g i) fun i h _ => by simp [h]]
  apply abs_le_of_sq_le_sq _ (mul_nonneg hx hy)
  refine (Finset.sum_mul_sq_le_sq_mul_sq S f g).trans ?_
  rw [← h1, ← h2, mul_pow]
  exact mul_le_mul ex ey (energy_nonneg g) (sq_nonneg x)

/-- The autocorrelation in terms of the difference of the signal and the shifted signal. -/
theorem autocorr_eq {f : ℤ → ℝ} (hf : f.support.Finite) (s : ℤ) : ∑ᶠ i, f i * f (i - s) = energy f - energy (fun i => f i - f (i - s)) / 2 := by
  obtain ⟨S, hS⟩ := finsum_two hf (support_shift hf s)
  have h1 : energy f = ∑ i ∈ S, f i ^ 2 := hS _ fun i h _ => by simp [h]
  have h2 : energy f = ∑ i ∈ S, f (i - s) ^ 2 := by
    rw [← energy_shift f s]
    exact hS _ fun i _ h => by simp [h]
  have h3 : energy (fun i => f i - f (i - s)) = ∑ i ∈ S, (f i - f (i - s)) ^ 2 := hS _ fun i h h' => by simp [h, h']
  have h4 : ∑ i ∈ S, (f i - f (i - s)) ^ 2 = ∑ i ∈ S, f i ^ 2 + ∑ i ∈ S, f (i - s) ^ 2 - 2 * ∑ i ∈ S, f i * f (i - s) := by
    rw [Finset.mul_sum, ← Finset.sum_add_distrib, ← Finset.sum_sub_distrib]
    exact Finset.sum_congr rfl fun i _ => by ring
  rw [hS (fun i => f i * f (i - s)) fun i h _ => by simp [h]]
  linarith

/-- The correlation of two noisy signals at a lag. -/
theorem corr_noise {f p q : ℤ → ℝ} (hf : f.support.Finite) (hp : p.support.Finite) (hq : q.support.Finite) {c a b x : ℝ} (hc : 0 ≤ c) (ha : 0 ≤ a)
    (hb : 0 ≤ b) (hx : 0 ≤ x) (m lag : ℤ) (ef : energy f ≤ x ^ 2) (ep : energy (fun i => p i - f i) ≤ a ^ 2)
    (eq : energy (fun i => q i - c * f (i - m)) ≤ b ^ 2) :
    |∑ᶠ i, q i * p (i - lag) - c * (energy f - energy (fun i => f i - f (i - (lag - m))) / 2)| ≤ b * x + c * x * a + a * b := by
  have hn : (fun i => p i - f i).support.Finite := (hp.union hf).subset (Function.support_sub _ _)
  have hz : (fun i => q i - c * f (i - m)).support.Finite := by
    refine (hq.union (support_shift hf m)).subset ((Function.support_sub _ _).trans (Set.union_subset_union_right _ ?_))
    intro i hi
    exact right_ne_zero_of_mul hi
  set n := fun i => p i - f i with hnd
  set z := fun i => q i - c * f (i - m) with hzd
  have t1 : ∑ᶠ i, f (i - m) * f (i - lag) = energy f - energy (fun i => f i - f (i - (lag - m))) / 2 := by
    rw [← autocorr_eq hf (lag - m), ← finsum_comp_equiv (Equiv.addRight m)]
    refine finsum_congr fun i => ?_
    simp only [Equiv.coe_addRight, add_sub_cancel_right]
    congr 2
    ring
  have s1 : ((fun i => f (i - m) * f (i - lag))).support.Finite := (support_shift hf m).subset fun i hi => left_ne_zero_of_mul hi
  have s2 : ((fun i => f (i - m) * n (i - lag))).support.Finite := (support_shift hf m).subset fun i hi => left_ne_zero_of_mul hi
  have s3 : ((fun i => z i * f (i - lag))).support.Finite := hz.subset fun i hi => left_ne_zero_of_mul hi
  have s4 : ((fun i => z i * n (i - lag))).support.Finite := hz.subset fun i hi => left_ne_zero_of_mul hi
  have s1' : ((fun i => c * (f (i - m) * f (i - lag)))).support.Finite := s1.subset fun i hi => right_ne_zero_of_mul hi
  have s2' : ((fun i => c * (f (i - m) * n (i - lag)))).support.Finite := s2.subset fun i hi => right_ne_zero_of_mul hi
  have key : ∑ᶠ i, q i * p (i - lag) = c * ∑ᶠ i, f (i - m) * f (i - lag) + c * ∑ᶠ i, f (i - m) * n (i - lag) +
      ∑ᶠ i, z i * f (i - lag) + ∑ᶠ i, z i * n (i - lag) := by
    rw [mul_finsum, mul_finsum, ← finsum_add_distrib s1' s2',
      ← finsum_add_distrib ((s1'.union s2').subset (Function.support_add _ _)) s3,
      ← finsum_add_distrib ((((s1'.union s2').subset (Function.support_add _ _)).union s3).subset (Function.support_add _ _)) s4]
    refine finsum_congr fun i => ?_
    simp only [hnd, hzd]
    ring
  have b2 := corr_le (support_shift hf m) (support_shift hn lag) hx ha (by rwa [energy_shift]) (by rwa [energy_shift])
  have b3 := corr_le hz (support_shift hf lag) hb hx eq (by rwa [energy_shift])
  have b4 := corr_le hz (support_shift hn lag) hb ha eq (by rwa [energy_shift])
  rw [key, t1]
  have b2' := mul_le_mul_of_nonneg_left b2 hc
  rw [← abs_of_nonneg hc, ← abs_mul, abs_of_nonneg hc] at b2'
  have r : ∀ u v w y : ℝ, u + v + w + y - u = v + w + y := by intros; ring
  rw [r]
  refine (abs_add_three _ _ _).trans ?_
  linarith

end HandEye
