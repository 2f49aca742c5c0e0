import Verif.Spec.IntQuat
import Verif.Lemmas.Py
import Mathlib.Tactic.Ring
import Mathlib.Tactic.Linarith
import Mathlib.Tactic.NormNum
import Mathlib.Tactic.Positivity

/-! # Lemmas on integers of 64 bits -/

namespace HandEye

open Spec NumQuat

theorem wrap64_fits (n : ℤ) : FitsWord (wrap64 n) := by
  unfold wrap64 FitsWord
  omega

theorem wrap64_eq {n : ℤ} (h : FitsWord n) : wrap64 n = n := by
  unfold wrap64
  unfold FitsWord at h
  omega

theorem wrap64_mod (n : ℤ) : ∃ k, wrap64 n = n + 2 ^ 64 * k := by
  refine ⟨-((n + 2 ^ 63) / 2 ^ 64), ?_⟩
  unfold wrap64
  omega

/-- Numbers that are the same modulo `2^64` wrap to the same. -/
theorem wrap64_congr {m n k : ℤ} (h : m = n + 2 ^ 64 * k) : wrap64 m = wrap64 n := by
  unfold wrap64
  omega

theorem add64_wrap (a b : ℤ) : add64 (wrap64 a) (wrap64 b) = wrap64 (a + b) := by
  obtain ⟨k, hk⟩ := wrap64_mod a
  obtain ⟨l, hl⟩ := wrap64_mod b
  exact wrap64_congr (k := k + l) (by rw [hk, hl]; ring)

theorem sub64_wrap (a b : ℤ) : sub64 (wrap64 a) (wrap64 b) = wrap64 (a - b) := by
  obtain ⟨k, hk⟩ := wrap64_mod a
  obtain ⟨l, hl⟩ := wrap64_mod b
  exact wrap64_congr (k := k - l) (by rw [hk, hl]; ring)

theorem mul64_wrap (a b : ℤ) : mul64 a (wrap64 b) = wrap64 (a * b) := by
  obtain ⟨l, hl⟩ := wrap64_mod b
  exact wrap64_congr (k := a * l) (by rw [hl]; ring)

theorem mul64_wrap_left (a b : ℤ) : mul64 (wrap64 a) b = wrap64 (a * b) := by
  obtain ⟨l, hl⟩ := wrap64_mod a
  exact wrap64_congr (k := b * l) (by rw [hl]; ring)

theorem mul64_eq (a b : ℤ) : mul64 a b = wrap64 (a * b) := rfl

theorem sub64_one (b : ℤ) : sub64 1 (wrap64 b) = wrap64 (1 - b) := by
  obtain ⟨l, hl⟩ := wrap64_mod b
  exact wrap64_congr (k := -l) (by rw [hl]; ring)

theorem two_sq (a : ℤ) : mul64 2 (mul64 a a) = wrap64 (2 * (a * a)) := by rw [mul64_eq a a, mul64_wrap]

theorem two_pr (a b : ℤ) : mul64 (mul64 2 a) b = wrap64 (2 * a * b) := by rw [mul64_eq 2 a, mul64_wrap_left]

theorem two_add (a b c d : ℤ) : mul64 2 (add64 (mul64 a b) (mul64 c d)) = wrap64 (2 * (a * b + c * d)) := by
  rw [mul64_eq a b, mul64_eq c d, add64_wrap, mul64_wrap]

theorem two_sub (a b c d : ℤ) : mul64 2 (sub64 (mul64 a b) (mul64 c d)) = wrap64 (2 * (a * b - c * d)) := by
  rw [mul64_eq a b, mul64_eq c d, sub64_wrap, mul64_wrap]

theorem mul_int (p q : IQuat) : NumQuat.mul (.int p) (.int q) =
    .int ⟨wrap64 (exactMul p q).x, wrap64 (exactMul p q).y, wrap64 (exactMul p q).z, wrap64 (exactMul p q).w⟩ := by
  simp only [NumQuat.mul, exactMul, mul64_eq, add64_wrap, sub64_wrap]

theorem squaredNorm_int (q : IQuat) :
    NumQuat.squaredNorm (.int q) = (wrap64 (q.x * q.x + q.y * q.y + q.z * q.z + q.w * q.w) : ℤ) := by
  simp only [NumQuat.squaredNorm, mul64_eq, add64_wrap]

/-- A product of two moderate numbers. -/
theorem mul_bound {a b B : ℤ} (ha : |a| ≤ B) (hb : |b| ≤ B) : |a * b| ≤ B * B := by
  rw [abs_mul]
  exact mul_le_mul ha hb (abs_nonneg b) (le_trans (abs_nonneg a) ha)

theorem largest_sq : largestComponent * largestComponent * 4 + 1 ≤ 2 ^ 63 - 1 := by decide

/-- Four products fit. -/
theorem fits_four {a b c d : ℤ} (ha : |a| ≤ largestComponent * largestComponent) (hb : |b| ≤ largestComponent * largestComponent)
    (hc : |c| ≤ largestComponent * largestComponent) (hd : |d| ≤ largestComponent * largestComponent) (s : ℤ)
    (hs : |s| ≤ |a| + |b| + |c| + |d| + 1) : FitsWord s := by
  have := largest_sq
  have h1 := abs_le.mp (le_trans hs (show _ ≤ (2 : ℤ) ^ 63 - 1 by omega))
  exact ⟨by omega, h1.2⟩

end HandEye
