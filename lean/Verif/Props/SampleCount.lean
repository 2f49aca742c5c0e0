import Verif.Lemmas.RoundOrder
import Verif.Lemmas.RoundedFar
import Verif.Model.RoundedInterp
import Verif.Spec.Arc

/-! # Properties C110 (equally spaced samples) and C111 (the number of samples) in floating-point arithmetic -/

namespace HandEye

/-- One sample of `np.linspace`. -/
theorem linspace_sample {u : ℝ} {A : Arith} (h : Spec.Machine u A) {a b M : ℝ} (hab : a < b) (ha : |a| ≤ M) (hb : |b| ≤ M) {n : ℕ} (hn : 1 ≤ n)
    {i : ℕ} (hi : i ≤ n) :
    |A.fl (A.fl (i * A.fl (A.fl (b - a) / n)) + a) - (a + i * ((b - a) / n))| ≤ 8 * u * M := by
  have h0 := h.nonneg
  have hs := h.small
  have hn0 : (0 : ℝ) < n := by exact_mod_cast hn
  have hin : (i : ℝ) / n ≤ 1 := by
    rw [div_le_one hn0]
    exact_mod_cast hi
  have hin0 : (0 : ℝ) ≤ i / n := by positivity
  have hM : 0 ≤ M := (abs_nonneg a).trans ha
  obtain ⟨a1, a2⟩ := abs_le.mp ha
  obtain ⟨b1, b2⟩ := abs_le.mp hb
  have r1 := h.rounds (b - a)
  rw [abs_of_pos (a := b - a) (by linarith)] at r1
  set D := A.fl (b - a) with hD
  have r2 := h.rounds (D / n)
  set S := A.fl (D / n) with hS
  have r3 := h.rounds (i * S)
  set X := A.fl (i * S) with hX
  have r4 := h.rounds (X + a)
  set Y := A.fl (X + a) with hY
  have hDb : |D| ≤ 1.001 * (b - a) := by
    have := abs_sub_abs_le_abs_sub D (b - a)
    rw [abs_of_pos (a := b - a) (by linarith)] at this
    norm_num
    nlinarith
  have e1 : |i * S - i * ((b - a) / n)| ≤ 2.002 * u * (b - a) := by
    have k : (i : ℝ) * S - i * ((b - a) / n) = i * (S - D / n) + i / n * (D - (b - a)) := by
      field_simp
      ring
    rw [k]
    refine (abs_add_le _ _).trans ?_
    rw [abs_mul, abs_mul, abs_of_nonneg hin0, abs_of_nonneg (Nat.cast_nonneg i)]
    have k1 : (i : ℝ) * |S - D / n| ≤ u * |D| := by
      have : (i : ℝ) * |S - D / n| ≤ i * (u * |D / n|) := mul_le_mul_of_nonneg_left r2 (Nat.cast_nonneg i)
      rw [abs_div, abs_of_pos hn0] at this
      have k : (i : ℝ) * (u * (|D| / n)) = i / n * (u * |D|) := by
        field_simp
      rw [k] at this
      have k2 : (i : ℝ) / n * (u * |D|) ≤ 1 * (u * |D|) := mul_le_mul_of_nonneg_right hin (by positivity)
      linarith
    have k2 : (i : ℝ) / n * |D - (b - a)| ≤ 1 * (u * (b - a)) := mul_le_mul hin r1 (abs_nonneg _) (by norm_num)
    have k3 : u * |D| ≤ u * (1.001 * (b - a)) := mul_le_mul_of_nonneg_left hDb h0
    norm_num at k3 ⊢
    have : 0 ≤ u * (b - a) := mul_nonneg h0 (by linarith)
    linarith
  have hT0 : 0 ≤ (i : ℝ) * ((b - a) / n) := mul_nonneg (Nat.cast_nonneg i) (div_nonneg (by linarith) hn0.le)
  have hT1 : (i : ℝ) * ((b - a) / n) ≤ b - a := by
    have k : (i : ℝ) * ((b - a) / n) = i / n * (b - a) := by
      field_simp
    rw [k]
    have : (i : ℝ) / n * (b - a) ≤ 1 * (b - a) := mul_le_mul_of_nonneg_right hin (by linarith)
    linarith
  have e2 : |(i : ℝ) * S| ≤ 1.01 * (b - a) := by
    have := abs_sub_abs_le_abs_sub ((i : ℝ) * S) (i * ((b - a) / n))
    rw [abs_of_nonneg hT0] at this
    have k4 : 2.002 * u * (b - a) ≤ 0.003 * (b - a) := mul_le_mul_of_nonneg_right (by norm_num; linarith) (by linarith)
    generalize (i : ℝ) * S = T at *
    norm_num at k4 e1 ⊢
    linarith
  have e3 : |X - i * ((b - a) / n)| ≤ 3.02 * u * (b - a) := by
    have := abs_sub_le X (i * S) (i * ((b - a) / n))
    have k3 : u * |(i : ℝ) * S| ≤ u * (1.01 * (b - a)) := mul_le_mul_of_nonneg_left e2 h0
    have : 0 ≤ u * (b - a) := mul_nonneg h0 (by linarith)
    generalize (i : ℝ) * S = T at *
    norm_num at k3 e1 ⊢
    linarith
  have hub : u * (b - a) ≤ 2 * (u * M) := by
    nlinarith
  have huM : 0 ≤ u * M := mul_nonneg h0 hM
  have hT2 : |a + i * ((b - a) / n)| ≤ M := by
    rw [abs_le]
    constructor <;> linarith
  have e4 : |X + a| ≤ 1.01 * M := by
    have := abs_sub_abs_le_abs_sub (X + a) (a + i * ((b - a) / n))
    have k : X + a - (a + i * ((b - a) / n)) = X - i * ((b - a) / n) := by ring
    rw [k] at this
    have : u * M ≤ 1 / 1000 * M := mul_le_mul_of_nonneg_right hs hM
    norm_num at e3 ⊢
    linarith
  have e5 : u * |X + a| ≤ u * (1.01 * M) := mul_le_mul_of_nonneg_left e4 h0
  have k : Y - (a + i * ((b - a) / n)) = (Y - (X + a)) + (X - i * ((b - a) / n)) := by ring
  rw [k]
  refine (abs_add_le _ _).trans ?_
  norm_num at e3 e5
  linarith

/-- **C110**, equally spaced samples: `np.linspace` between two floating-point numbers `a < b` gives samples that start at `a` (if the addition of zero
does not round), end at `b`, differ from the exact ones by at most `8 u M`, and strictly increase if the distance is more than `16 u M` -
so that the differences in `compute_angular_velocity_norms` are positive and its assertion never fails. -/
theorem C110_linspace {u : ℝ} {A : Arith} (h : Spec.Machine u A) (a b M : ℝ) (hab : a < b) (ha : |a| ≤ M) (hb : |b| ≤ M)
    (hfa : A.fl a = a) (n : ℕ) (hn : 2 ≤ n) :
    (A.linspace a b n).length = n ∧ (A.linspace a b n).head? = some a ∧ (A.linspace a b n).getLast? = some b ∧
      (∀ i (hi : i < (A.linspace a b n).length), |(A.linspace a b n)[i] - (a + i * ((b - a) / (n - 1)))| ≤ 8 * u * M) ∧
      (16 * u * M < (b - a) / (n - 1) → (A.linspace a b n).Pairwise (· < ·)) := by
  have h0 := h.nonneg
  have hM : 0 ≤ M := (abs_nonneg a).trans ha
  have hlen : (A.linspace a b n).length = n := by
    unfold Arith.linspace
    rw [List.length_append, List.length_map, List.length_range, List.length_singleton]
    omega
  have hn1 : ((n - 1 : ℕ) : ℝ) = n - 1 := by
    rw [Nat.cast_sub (by omega)]
    simp
  have hn2 : (0 : ℝ) < n - 1 := by
    have : (2 : ℝ) ≤ n := by exact_mod_cast hn
    linarith
  have hz : A.fl 0 = 0 := by
    have := h.rounds 0
    rw [abs_zero, mul_zero, sub_zero] at this
    exact abs_nonpos_iff.mp this
  have hget : ∀ i (hi : i < (A.linspace a b n).length), |(A.linspace a b n)[i] - (a + i * ((b - a) / (n - 1)))| ≤ 8 * u * M := by
    intro i hi
    by_cases hlast : i < n - 1
    · have : (A.linspace a b n)[i]? = some (A.fl (A.fl (i * A.fl (A.fl (b - a) / (n - 1 : ℕ))) + a)) := by
        unfold Arith.linspace
        dsimp only
        rw [List.getElem?_append_left (by rw [List.length_map, List.length_range]; exact hlast), List.getElem?_map, List.getElem?_range hlast]
        rfl
      rw [(List.getElem?_eq_some_iff.mp this).2, ← hn1]
      exact linspace_sample h hab ha hb (by omega) hlast.le
    · have hi' : i = n - 1 := by omega
      have : (A.linspace a b n)[i]? = some b := by
        unfold Arith.linspace
        dsimp only
        rw [List.getElem?_append_right (by rw [List.length_map, List.length_range]; omega), List.length_map, List.length_range, hi', Nat.sub_self]
        rfl
      rw [(List.getElem?_eq_some_iff.mp this).2, hi', hn1, mul_div_cancel₀ _ hn2.ne']
      have : b - (a + (b - a)) = 0 := by ring
      rw [this, abs_zero]
      positivity
  refine ⟨hlen, ?_, ?_, hget, ?_⟩
  · unfold Arith.linspace
    dsimp only
    obtain ⟨k, hk⟩ : ∃ k, n - 1 = k + 1 := ⟨n - 2, by omega⟩
    rw [hk, List.range_succ_eq_map]
    simp [hz, hfa]
  · unfold Arith.linspace
    simp
  · intro hstep
    rw [List.pairwise_iff_getElem]
    intro i j hi hj hij
    have e1 := abs_le.mp (hget i hi)
    have e2 := abs_le.mp (hget j hj)
    have : (i : ℝ) + 1 ≤ j := by exact_mod_cast hij
    have : ((i : ℝ) + 1) * ((b - a) / (n - 1)) ≤ j * ((b - a) / (n - 1)) := mul_le_mul_of_nonneg_right this (div_nonneg (by linarith) hn2.le)
    linarith [e1.2, e2.1]

example : ((doubleArith Real.arccos).linspace 1 2 101).Pairwise (· < ·) :=
  (C110_linspace (machine_double Real.arccos) 1 2 2 (by norm_num) (by norm_num) (by norm_num) (ordered_double Real.arccos).one 101 (by norm_num)).2.2.2.2
    (by norm_num)

end HandEye
