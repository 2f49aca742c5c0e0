import Verif.Lemmas.Rounded

/-! # Lemmas about rounding to 53 binary digits -/

namespace HandEye

theorem roundHalfEven_eq {x : ℝ} (hx : 0 ≤ x) {m : ℕ} (h : |x - m| < 1 / 2) : roundHalfEven x = m := by
  have h1 := roundHalfEven_close hx
  have h2 : |((roundHalfEven x : ℤ) - (m : ℤ) : ℤ)| < 1 := by
    have : |(((roundHalfEven x : ℤ) - (m : ℤ) : ℤ) : ℝ)| < 1 := by
      push_cast
      have := abs_sub_le (roundHalfEven x : ℝ) x m
      linarith
    exact_mod_cast this
  have := Int.abs_lt_one_iff.mp h2
  omega

theorem roundDouble_zero : roundDouble 0 = 0 := by
  unfold roundDouble
  have : roundHalfEven 0 = 0 := roundHalfEven_eq le_rfl (by norm_num)
  simp [this]

theorem roundDouble_neg (x : ℝ) : roundDouble (-x) = -roundDouble x := by
  rcases lt_trichotomy x 0 with h | h | h
  · unfold roundDouble
    rw [abs_neg, if_neg (by linarith), if_pos h]
    ring
  · rw [h, neg_zero, roundDouble_zero, neg_zero]
  · unfold roundDouble
    rw [abs_neg, if_pos (by linarith), if_neg (by linarith)]
    ring

/-- The relative error of rounding to 53 digits. -/
theorem roundDouble_near (x : ℝ) : |roundDouble x - x| ≤ 2⁻¹ ^ 53 * |x| := by
  have key : ∀ x : ℝ, 0 < x → |roundDouble x - x| ≤ 2⁻¹ ^ 53 * |x| := by
    intro x hx
    unfold roundDouble
    rw [if_neg (by linarith), one_mul, abs_of_pos hx]
    set unit : ℝ := 2 ^ (Int.log 2 x - 52) with hu
    have hu0 : 0 < unit := by positivity
    have h1 := roundHalfEven_close (x := x / unit) (by positivity)
    have h2 : (2 : ℝ) ^ Int.log 2 x ≤ x := by exact_mod_cast Int.zpow_log_le_self (b := 2) (by norm_num) hx
    have h3 : unit = 2 ^ Int.log 2 x * 2⁻¹ ^ 52 := by
      rw [hu, zpow_sub₀ (by norm_num)]
      norm_num
      ring
    have h4 : (roundHalfEven (x / unit) : ℝ) * unit - x = ((roundHalfEven (x / unit) : ℝ) - x / unit) * unit := by
      field_simp
    rw [h4, abs_mul, abs_of_pos hu0]
    calc _ ≤ 1 / 2 * unit := mul_le_mul_of_nonneg_right h1 hu0.le
      _ = 2⁻¹ ^ 53 * 2 ^ Int.log 2 x := by rw [h3]; ring
      _ ≤ _ := mul_le_mul_of_nonneg_left h2 (by positivity)
  rcases lt_trichotomy x 0 with h | h | h
  · have := key (-x) (by linarith)
    rw [roundDouble_neg, neg_sub_neg, abs_sub_comm, abs_neg] at this
    exact this
  · rw [h, roundDouble_zero]; simp
  · exact key x h

/-- Evaluation: if `x 2^k` has 53 digits before the point and is near to the natural number `m`. -/
theorem roundDouble_eq {x : ℝ} (k m : ℕ) (h1 : 2 ^ 52 ≤ x * 2 ^ k) (h2 : x * 2 ^ k < 2 ^ 53) (h3 : |x * 2 ^ k - m| < 1 / 2) :
    roundDouble x = m / 2 ^ k := by
  have hx : 0 < x := by
    have : 0 < x * 2 ^ k := lt_of_lt_of_le (by positivity) h1
    exact pos_of_mul_pos_left this (by positivity)
  have hlog : Int.log 2 x = 52 - k := by
    apply le_antisymm
    · have : x < (2 : ℝ) ^ (53 - k : ℤ) := by
        rw [zpow_sub₀ (by norm_num), zpow_natCast, lt_div_iff₀ (by positivity)]
        exact_mod_cast h2
      have h' : x < ((2 : ℕ) : ℝ) ^ ((53 : ℤ) - (k : ℤ)) := by rw [Nat.cast_ofNat]; exact this
      have := (Int.lt_zpow_iff_log_lt (b := 2) (by norm_num) hx).mp h'
      omega
    · apply (Int.zpow_le_iff_le_log (b := 2) (by norm_num) hx).mp
      push_cast
      rw [zpow_sub₀ (by norm_num), zpow_natCast, div_le_iff₀ (by positivity)]
      exact_mod_cast h1
  unfold roundDouble
  rw [if_neg (by linarith), one_mul, abs_of_pos hx, hlog]
  have e : (2 : ℝ) ^ ((52 - k : ℤ) - 52) = 1 / 2 ^ k := by
    rw [show (52 - k : ℤ) - 52 = -k by ring, zpow_neg, zpow_natCast, one_div]
  rw [e, roundHalfEven_eq (m := m) (by positivity) (by rw [div_div_eq_mul_div, div_one]; exact h3)]
  ring

theorem machine_double (acos : ℝ → ℝ) : Spec.Machine (2⁻¹ ^ 53) (doubleArith acos) := by
  have h : ∀ x : ℝ, |(doubleArith acos).fl x - x| ≤ 2⁻¹ ^ 53 * |x| := roundDouble_near
  have m : Spec.Machine (2⁻¹ ^ 53) ⟨roundDouble, fun p q => p.x * q.x + p.y * q.y + p.z * q.z + p.w * q.w, acos⟩ :=
    { small := by norm_num
      rounds := roundDouble_near
      dots := fun p q => by
        rw [sub_self, abs_zero]
        have := one_le_pow₀ (n := 4) (show (1 : ℝ) ≤ 1 + 2⁻¹ ^ 53 by norm_num)
        exact mul_nonneg (by linarith) (by positivity) }
  exact
    { small := by norm_num
      rounds := h
      dots := fun p q => Arith.sum_four m (roundDouble_near _) (roundDouble_near _) (roundDouble_near _) (roundDouble_near _) }

end HandEye
