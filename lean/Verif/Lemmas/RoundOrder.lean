import Verif.Spec.Arc
import Verif.Lemmas.RoundDouble

/-! # Rounding to 53 binary digits keeps the order -/

namespace HandEye

theorem roundHalfEven_bounds (x : ℝ) : ⌊x⌋₊ ≤ roundHalfEven x ∧ roundHalfEven x ≤ ⌊x⌋₊ + 1 := by
  unfold roundHalfEven
  split_ifs <;> constructor <;> omega

theorem roundHalfEven_mono {x y : ℝ} (h : x ≤ y) : roundHalfEven x ≤ roundHalfEven y := by
  have hf := Nat.floor_le_floor h
  rcases hf.lt_or_eq with hlt | heq
  · have := (roundHalfEven_bounds x).2
    have := (roundHalfEven_bounds y).1
    omega
  · unfold roundHalfEven
    rw [heq]
    have : x - ⌊y⌋₊ ≤ y - ⌊y⌋₊ := by linarith
    split_ifs <;> first | omega | (exfalso; linarith)

theorem roundHalfEven_natCast (n : ℕ) : roundHalfEven (n : ℝ) = n := roundHalfEven_eq (by positivity) (by simp)

theorem roundDouble_pos {x : ℝ} (hx : 0 < x) : roundDouble x = roundHalfEven (x / 2 ^ (Int.log 2 x - 52)) * 2 ^ (Int.log 2 x - 52) := by
  unfold roundDouble
  rw [if_neg (by linarith), one_mul, abs_of_pos hx]

/-- A positive number is rounded to a number between the powers of two around it. -/
theorem roundDouble_powers {x : ℝ} (hx : 0 < x) : (2 : ℝ) ^ Int.log 2 x ≤ roundDouble x ∧ roundDouble x ≤ 2 ^ (Int.log 2 x + 1) := by
  have h1 : (2 : ℝ) ^ Int.log 2 x ≤ x := by exact_mod_cast Int.zpow_log_le_self (b := 2) (by norm_num) hx
  have h2 : x < (2 : ℝ) ^ (Int.log 2 x + 1) := by exact_mod_cast Int.lt_zpow_succ_log_self (b := 2) (by norm_num) x
  rw [roundDouble_pos hx]
  set k := Int.log 2 x
  have hu : (0 : ℝ) < 2 ^ (k - 52) := by positivity
  have e1 : (2 : ℝ) ^ k = (2 ^ 52 : ℕ) * 2 ^ (k - 52) := by
    rw [zpow_sub₀ (by norm_num)]
    norm_num
    ring
  have e2 : (2 : ℝ) ^ (k + 1) = (2 ^ 53 : ℕ) * 2 ^ (k - 52) := by
    rw [zpow_sub₀ (by norm_num), zpow_add₀ (by norm_num)]
    norm_num
    ring
  constructor
  · rw [e1]
    apply mul_le_mul_of_nonneg_right _ hu.le
    have : ((2 ^ 52 : ℕ) : ℝ) ≤ x / 2 ^ (k - 52) := by
      rw [le_div_iff₀ hu, ← e1]
      exact h1
    have := roundHalfEven_mono this
    rw [roundHalfEven_natCast] at this
    exact_mod_cast this
  · rw [e2]
    apply mul_le_mul_of_nonneg_right _ hu.le
    have : x / 2 ^ (k - 52) ≤ ((2 ^ 53 : ℕ) : ℝ) := by
      rw [div_le_iff₀ hu, ← e2]
      exact h2.le
    have := roundHalfEven_mono this
    rw [roundHalfEven_natCast] at this
    exact_mod_cast this

theorem roundDouble_mono_pos {x y : ℝ} (hx : 0 < x) (h : x ≤ y) : roundDouble x ≤ roundDouble y := by
  have hy : 0 < y := lt_of_lt_of_le hx h
  have hlog : Int.log 2 x ≤ Int.log 2 y := Int.log_mono_right hx h
  rcases hlog.lt_or_eq with hlt | heq
  · have h1 := (roundDouble_powers hx).2
    have h2 := (roundDouble_powers hy).1
    have h3 : (2 : ℝ) ^ (Int.log 2 x + 1) ≤ 2 ^ Int.log 2 y := zpow_le_zpow_right₀ (by norm_num) (by omega)
    linarith
  · rw [roundDouble_pos hx, roundDouble_pos hy, heq]
    apply mul_le_mul_of_nonneg_right _ (by positivity)
    exact_mod_cast roundHalfEven_mono (div_le_div_of_nonneg_right h (by positivity))

theorem roundDouble_nonneg {x : ℝ} (hx : 0 ≤ x) : 0 ≤ roundDouble x := by
  rcases hx.eq_or_lt with rfl | h
  · rw [roundDouble_zero]
  · exact le_trans (by positivity) (roundDouble_powers h).1

theorem roundDouble_mono {x y : ℝ} (h : x ≤ y) : roundDouble x ≤ roundDouble y := by
  rcases lt_or_ge 0 x with hx | hx
  · exact roundDouble_mono_pos hx h
  · have hx' : roundDouble x ≤ 0 := by
      have := roundDouble_nonneg (x := -x) (by linarith)
      rw [roundDouble_neg] at this
      linarith
    rcases le_or_gt 0 y with hy | hy
    · exact hx'.trans (roundDouble_nonneg hy)
    · have := roundDouble_mono_pos (x := -y) (y := -x) (by linarith) (by linarith)
      rw [roundDouble_neg, roundDouble_neg] at this
      linarith

theorem ordered_double (acos : ℝ → ℝ) : Spec.Ordered (doubleArith acos) :=
  { mono := fun _ _ h => roundDouble_mono h
    one := by
      show roundDouble 1 = 1
      rw [roundDouble_eq (x := 1) 52 (2 ^ 52) (by norm_num) (by norm_num) (by norm_num)]
      norm_num }

end HandEye
