import Verif.Lemmas.RoundDouble
import Verif.Lemmas.RoundedDual

/-!
# The rounding errors of one pose far from the origin

The numbers that the lines of `inverse` and `__mul__` compute, in `float64`, for the pose of `C90_far_refuted`; every operation is one lemma.
-/

namespace HandEye

theorem rd_pos {x y : ℝ} (k m : ℕ) (h1 : 2 ^ 52 ≤ x * 2 ^ k) (h2 : x * 2 ^ k < 2 ^ 53) (h3 : x * 2 ^ k - m < 1 / 2) (h4 : m - x * 2 ^ k < 1 / 2)
    (h5 : (m : ℝ) / 2 ^ k = y) : roundDouble x = y := by
  rw [roundDouble_eq k m h1 h2 (by rw [abs_lt]; constructor <;> linarith), h5]

theorem rd_neg {x y : ℝ} (k m : ℕ) (h1 : 2 ^ 52 ≤ -x * 2 ^ k) (h2 : -x * 2 ^ k < 2 ^ 53) (h3 : -x * 2 ^ k - m < 1 / 2) (h4 : m - -x * 2 ^ k < 1 / 2)
    (h5 : -((m : ℝ) / 2 ^ k) = y) : roundDouble x = y := by
  have := rd_pos k m h1 h2 h3 h4 rfl
  rw [roundDouble_neg] at this
  linarith

/-- The product of two quaternions along the first axis. -/
theorem mul_axis (acos : ℝ → ℝ) {a b c d p q r s X W : ℝ} (hp : roundDouble (b * c) = p) (hq : roundDouble (a * d) = q)
    (hX : roundDouble (p + q) = X) (hX' : roundDouble X = X) (hr : roundDouble (b * d) = r) (hs : roundDouble (a * c) = s)
    (hW : roundDouble (r - s) = W) (hW' : roundDouble W = W) :
    (doubleArith acos).mul ⟨a, 0, 0, b⟩ ⟨c, 0, 0, d⟩ = ⟨X, 0, 0, W⟩ := by
  unfold Arith.mul doubleArith
  dsimp only
  simp only [mul_zero, zero_mul, roundDouble_zero, add_zero, sub_zero, hp, hq, hX, hX', hr, hs, hW, hW']

theorem far_xx : roundDouble ((8941396965703279 / 2 ^ 53) * (8941396965703279 / 2 ^ 53)) = (8876075396711847 / 2 ^ 53) :=
  rd_pos 53 8876075396711847 (by norm_num) (by norm_num) (by norm_num) (by norm_num) (by norm_num)

theorem far_ww : roundDouble ((8694122028382684 / 2 ^ 56) * (8694122028382684 / 2 ^ 56)) = (8391926913865370 / 2 ^ 59) :=
  rd_pos 59 8391926913865370 (by norm_num) (by norm_num) (by norm_num) (by norm_num) (by norm_num)

theorem far_sum : roundDouble ((8876075396711847 / 2 ^ 53) + (8391926913865370 / 2 ^ 59)) = (4503599627370497 / 2 ^ 52) :=
  rd_pos 52 4503599627370497 (by norm_num) (by norm_num) (by norm_num) (by norm_num) (by norm_num)

theorem far_xx2 : roundDouble ((8876075396711847 / 2 ^ 53)) = (8876075396711847 / 2 ^ 53) :=
  rd_pos 53 8876075396711847 (by norm_num) (by norm_num) (by norm_num) (by norm_num) (by norm_num)

theorem far_x : roundDouble ((8941396965703279 / 2 ^ 53)) = (8941396965703279 / 2 ^ 53) :=
  rd_pos 53 8941396965703279 (by norm_num) (by norm_num) (by norm_num) (by norm_num) (by norm_num)

theorem far_w : roundDouble ((8694122028382684 / 2 ^ 56)) = (8694122028382684 / 2 ^ 56) :=
  rd_pos 56 8694122028382684 (by norm_num) (by norm_num) (by norm_num) (by norm_num) (by norm_num)

theorem far_ix : roundDouble ((-(8941396965703279 / 2 ^ 53)) / (4503599627370497 / 2 ^ 52)) = (-(8941396965703277 / 2 ^ 53)) :=
  rd_neg 53 8941396965703277 (by norm_num) (by norm_num) (by norm_num) (by norm_num) (by norm_num)

theorem far_iw : roundDouble ((8694122028382684 / 2 ^ 56) / (4503599627370497 / 2 ^ 52)) = (8694122028382682 / 2 ^ 56) :=
  rd_pos 56 8694122028382682 (by norm_num) (by norm_num) (by norm_num) (by norm_num) (by norm_num)

theorem far_tq_1 : roundDouble (0 * (8941396965703279 / 2 ^ 53)) = 0 := by
  rw [show (0 * (8941396965703279 / 2 ^ 53) : ℝ) = 0 by norm_num, roundDouble_zero]

theorem far_tq_2 : roundDouble ((4503599627370496 / 2 ^ 24) * (8694122028382684 / 2 ^ 56)) = (8694122028382684 / 2 ^ 28) :=
  rd_pos 28 8694122028382684 (by norm_num) (by norm_num) (by norm_num) (by norm_num) (by norm_num)

theorem far_tq_3 : roundDouble (0 + (8694122028382684 / 2 ^ 28)) = (8694122028382684 / 2 ^ 28) :=
  rd_pos 28 8694122028382684 (by norm_num) (by norm_num) (by norm_num) (by norm_num) (by norm_num)

theorem far_tq_4 : roundDouble ((8694122028382684 / 2 ^ 28)) = (8694122028382684 / 2 ^ 28) :=
  rd_pos 28 8694122028382684 (by norm_num) (by norm_num) (by norm_num) (by norm_num) (by norm_num)

theorem far_tq_5 : roundDouble (0 * (8694122028382684 / 2 ^ 56)) = 0 := by
  rw [show (0 * (8694122028382684 / 2 ^ 56) : ℝ) = 0 by norm_num, roundDouble_zero]

theorem far_tq_6 : roundDouble ((4503599627370496 / 2 ^ 24) * (8941396965703279 / 2 ^ 53)) = (8941396965703279 / 2 ^ 25) :=
  rd_pos 25 8941396965703279 (by norm_num) (by norm_num) (by norm_num) (by norm_num) (by norm_num)

theorem far_tq_7 : roundDouble (0 - (8941396965703279 / 2 ^ 25)) = (-(8941396965703279 / 2 ^ 25)) :=
  rd_neg 25 8941396965703279 (by norm_num) (by norm_num) (by norm_num) (by norm_num) (by norm_num)

theorem far_tq_8 : roundDouble ((-(8941396965703279 / 2 ^ 25))) = (-(8941396965703279 / 2 ^ 25)) :=
  rd_neg 25 8941396965703279 (by norm_num) (by norm_num) (by norm_num) (by norm_num) (by norm_num)

theorem far_tq (acos : ℝ → ℝ) : (doubleArith acos).mul ⟨(4503599627370496 / 2 ^ 24), 0, 0, 0⟩ ⟨(8941396965703279 / 2 ^ 53), 0, 0, (8694122028382684 / 2 ^ 56)⟩ =
    ⟨(8694122028382684 / 2 ^ 28), 0, 0, (-(8941396965703279 / 2 ^ 25))⟩ :=
  mul_axis acos far_tq_1 far_tq_2 far_tq_3 far_tq_4 far_tq_5 far_tq_6 far_tq_7 far_tq_8

theorem far_dx : roundDouble (0.5 * (8694122028382684 / 2 ^ 28)) = (8694122028382684 / 2 ^ 29) :=
  rd_pos 29 8694122028382684 (by norm_num) (by norm_num) (by norm_num) (by norm_num) (by norm_num)

theorem far_dw : roundDouble (0.5 * (-(8941396965703279 / 2 ^ 25))) = (-(8941396965703279 / 2 ^ 26)) :=
  rd_neg 26 8941396965703279 (by norm_num) (by norm_num) (by norm_num) (by norm_num) (by norm_num)

theorem far_ir_1 : roundDouble ((8694122028382682 / 2 ^ 56) * (8941396965703279 / 2 ^ 53)) = (8630606931795953 / 2 ^ 56) :=
  rd_pos 56 8630606931795953 (by norm_num) (by norm_num) (by norm_num) (by norm_num) (by norm_num)

theorem far_ir_2 : roundDouble ((-(8941396965703277 / 2 ^ 53)) * (8694122028382684 / 2 ^ 56)) = (-(8630606931795953 / 2 ^ 56)) :=
  rd_neg 56 8630606931795953 (by norm_num) (by norm_num) (by norm_num) (by norm_num) (by norm_num)

theorem far_ir_3 : roundDouble ((8630606931795953 / 2 ^ 56) + (-(8630606931795953 / 2 ^ 56))) = 0 := by
  rw [show ((8630606931795953 / 2 ^ 56) + (-(8630606931795953 / 2 ^ 56)) : ℝ) = 0 by norm_num, roundDouble_zero]

theorem far_ir_4 : roundDouble (0) = 0 := by
  rw [show (0 : ℝ) = 0 by norm_num, roundDouble_zero]

theorem far_ir_5 : roundDouble ((8694122028382682 / 2 ^ 56) * (8694122028382684 / 2 ^ 56)) = (8391926913865368 / 2 ^ 59) :=
  rd_pos 59 8391926913865368 (by norm_num) (by norm_num) (by norm_num) (by norm_num) (by norm_num)

theorem far_ir_6 : roundDouble ((-(8941396965703277 / 2 ^ 53)) * (8941396965703279 / 2 ^ 53)) = (-(8876075396711845 / 2 ^ 53)) :=
  rd_neg 53 8876075396711845 (by norm_num) (by norm_num) (by norm_num) (by norm_num) (by norm_num)

theorem far_ir_7 : roundDouble ((8391926913865368 / 2 ^ 59) - (-(8876075396711845 / 2 ^ 53))) = (9007199254740991 / 2 ^ 53) :=
  rd_pos 53 9007199254740991 (by norm_num) (by norm_num) (by norm_num) (by norm_num) (by norm_num)

theorem far_ir_8 : roundDouble ((9007199254740991 / 2 ^ 53)) = (9007199254740991 / 2 ^ 53) :=
  rd_pos 53 9007199254740991 (by norm_num) (by norm_num) (by norm_num) (by norm_num) (by norm_num)

theorem far_ir (acos : ℝ → ℝ) : (doubleArith acos).mul ⟨(-(8941396965703277 / 2 ^ 53)), 0, 0, (8694122028382682 / 2 ^ 56)⟩ ⟨(8941396965703279 / 2 ^ 53), 0, 0, (8694122028382684 / 2 ^ 56)⟩ =
    ⟨0, 0, 0, (9007199254740991 / 2 ^ 53)⟩ :=
  mul_axis acos far_ir_1 far_ir_2 far_ir_3 far_ir_4 far_ir_5 far_ir_6 far_ir_7 far_ir_8

theorem far_e1_1 : roundDouble ((-(8694122028382682 / 2 ^ 56)) * (8694122028382684 / 2 ^ 29)) = (-(8391926913865368 / 2 ^ 32)) :=
  rd_neg 32 8391926913865368 (by norm_num) (by norm_num) (by norm_num) (by norm_num) (by norm_num)

theorem far_e1_2 : roundDouble ((8941396965703277 / 2 ^ 53) * (-(8941396965703279 / 2 ^ 26))) = (-(8876075396711845 / 2 ^ 26)) :=
  rd_neg 26 8876075396711845 (by norm_num) (by norm_num) (by norm_num) (by norm_num) (by norm_num)

theorem far_e1_3 : roundDouble ((-(8391926913865368 / 2 ^ 32)) + (-(8876075396711845 / 2 ^ 26))) = (-(9007199254740991 / 2 ^ 26)) :=
  rd_neg 26 9007199254740991 (by norm_num) (by norm_num) (by norm_num) (by norm_num) (by norm_num)

theorem far_e1_4 : roundDouble ((-(9007199254740991 / 2 ^ 26))) = (-(9007199254740991 / 2 ^ 26)) :=
  rd_neg 26 9007199254740991 (by norm_num) (by norm_num) (by norm_num) (by norm_num) (by norm_num)

theorem far_e1_5 : roundDouble ((-(8694122028382682 / 2 ^ 56)) * (-(8941396965703279 / 2 ^ 26))) = (8630606931795953 / 2 ^ 29) :=
  rd_pos 29 8630606931795953 (by norm_num) (by norm_num) (by norm_num) (by norm_num) (by norm_num)

theorem far_e1_6 : roundDouble ((8941396965703277 / 2 ^ 53) * (8694122028382684 / 2 ^ 29)) = (8630606931795953 / 2 ^ 29) :=
  rd_pos 29 8630606931795953 (by norm_num) (by norm_num) (by norm_num) (by norm_num) (by norm_num)

theorem far_e1_7 : roundDouble ((8630606931795953 / 2 ^ 29) - (8630606931795953 / 2 ^ 29)) = 0 := by
  rw [show ((8630606931795953 / 2 ^ 29) - (8630606931795953 / 2 ^ 29) : ℝ) = 0 by norm_num, roundDouble_zero]

theorem far_e1_8 : roundDouble (0) = 0 := by
  rw [show (0 : ℝ) = 0 by norm_num, roundDouble_zero]

theorem far_e1 (acos : ℝ → ℝ) : (doubleArith acos).mul ⟨(8941396965703277 / 2 ^ 53), 0, 0, (-(8694122028382682 / 2 ^ 56))⟩ ⟨(8694122028382684 / 2 ^ 29), 0, 0, (-(8941396965703279 / 2 ^ 26))⟩ =
    ⟨(-(9007199254740991 / 2 ^ 26)), 0, 0, 0⟩ :=
  mul_axis acos far_e1_1 far_e1_2 far_e1_3 far_e1_4 far_e1_5 far_e1_6 far_e1_7 far_e1_8

theorem far_e2_1 : roundDouble (0 * (-(8941396965703277 / 2 ^ 53))) = 0 := by
  rw [show (0 * (-(8941396965703277 / 2 ^ 53)) : ℝ) = 0 by norm_num, roundDouble_zero]

theorem far_e2_2 : roundDouble ((-(9007199254740991 / 2 ^ 26)) * (8694122028382682 / 2 ^ 56)) = (-(8694122028382681 / 2 ^ 29)) :=
  rd_neg 29 8694122028382681 (by norm_num) (by norm_num) (by norm_num) (by norm_num) (by norm_num)

theorem far_e2_3 : roundDouble (0 + (-(8694122028382681 / 2 ^ 29))) = (-(8694122028382681 / 2 ^ 29)) :=
  rd_neg 29 8694122028382681 (by norm_num) (by norm_num) (by norm_num) (by norm_num) (by norm_num)

theorem far_e2_4 : roundDouble ((-(8694122028382681 / 2 ^ 29))) = (-(8694122028382681 / 2 ^ 29)) :=
  rd_neg 29 8694122028382681 (by norm_num) (by norm_num) (by norm_num) (by norm_num) (by norm_num)

theorem far_e2_5 : roundDouble (0 * (8694122028382682 / 2 ^ 56)) = 0 := by
  rw [show (0 * (8694122028382682 / 2 ^ 56) : ℝ) = 0 by norm_num, roundDouble_zero]

theorem far_e2_6 : roundDouble ((-(9007199254740991 / 2 ^ 26)) * (-(8941396965703277 / 2 ^ 53))) = (8941396965703276 / 2 ^ 26) :=
  rd_pos 26 8941396965703276 (by norm_num) (by norm_num) (by norm_num) (by norm_num) (by norm_num)

theorem far_e2_7 : roundDouble (0 - (8941396965703276 / 2 ^ 26)) = (-(8941396965703276 / 2 ^ 26)) :=
  rd_neg 26 8941396965703276 (by norm_num) (by norm_num) (by norm_num) (by norm_num) (by norm_num)

theorem far_e2_8 : roundDouble ((-(8941396965703276 / 2 ^ 26))) = (-(8941396965703276 / 2 ^ 26)) :=
  rd_neg 26 8941396965703276 (by norm_num) (by norm_num) (by norm_num) (by norm_num) (by norm_num)

theorem far_e2 (acos : ℝ → ℝ) : (doubleArith acos).mul ⟨(-(9007199254740991 / 2 ^ 26)), 0, 0, 0⟩ ⟨(-(8941396965703277 / 2 ^ 53)), 0, 0, (8694122028382682 / 2 ^ 56)⟩ =
    ⟨(-(8694122028382681 / 2 ^ 29)), 0, 0, (-(8941396965703276 / 2 ^ 26))⟩ :=
  mul_axis acos far_e2_1 far_e2_2 far_e2_3 far_e2_4 far_e2_5 far_e2_6 far_e2_7 far_e2_8

theorem far_id_1 : roundDouble ((8694122028382682 / 2 ^ 56) * (8694122028382684 / 2 ^ 29)) = (8391926913865368 / 2 ^ 32) :=
  rd_pos 32 8391926913865368 (by norm_num) (by norm_num) (by norm_num) (by norm_num) (by norm_num)

theorem far_id_2 : roundDouble ((-(8941396965703277 / 2 ^ 53)) * (-(8941396965703279 / 2 ^ 26))) = (8876075396711845 / 2 ^ 26) :=
  rd_pos 26 8876075396711845 (by norm_num) (by norm_num) (by norm_num) (by norm_num) (by norm_num)

theorem far_id_3 : roundDouble ((8391926913865368 / 2 ^ 32) + (8876075396711845 / 2 ^ 26)) = (9007199254740991 / 2 ^ 26) :=
  rd_pos 26 9007199254740991 (by norm_num) (by norm_num) (by norm_num) (by norm_num) (by norm_num)

theorem far_id_4 : roundDouble ((9007199254740991 / 2 ^ 26)) = (9007199254740991 / 2 ^ 26) :=
  rd_pos 26 9007199254740991 (by norm_num) (by norm_num) (by norm_num) (by norm_num) (by norm_num)

theorem far_id_5 : roundDouble ((8694122028382682 / 2 ^ 56) * (-(8941396965703279 / 2 ^ 26))) = (-(8630606931795953 / 2 ^ 29)) :=
  rd_neg 29 8630606931795953 (by norm_num) (by norm_num) (by norm_num) (by norm_num) (by norm_num)

theorem far_id_6 : roundDouble ((-(8941396965703277 / 2 ^ 53)) * (8694122028382684 / 2 ^ 29)) = (-(8630606931795953 / 2 ^ 29)) :=
  rd_neg 29 8630606931795953 (by norm_num) (by norm_num) (by norm_num) (by norm_num) (by norm_num)

theorem far_id_7 : roundDouble ((-(8630606931795953 / 2 ^ 29)) - (-(8630606931795953 / 2 ^ 29))) = 0 := by
  rw [show ((-(8630606931795953 / 2 ^ 29)) - (-(8630606931795953 / 2 ^ 29)) : ℝ) = 0 by norm_num, roundDouble_zero]

theorem far_id_8 : roundDouble (0) = 0 := by
  rw [show (0 : ℝ) = 0 by norm_num, roundDouble_zero]

theorem far_id (acos : ℝ → ℝ) : (doubleArith acos).mul ⟨(-(8941396965703277 / 2 ^ 53)), 0, 0, (8694122028382682 / 2 ^ 56)⟩ ⟨(8694122028382684 / 2 ^ 29), 0, 0, (-(8941396965703279 / 2 ^ 26))⟩ =
    ⟨(9007199254740991 / 2 ^ 26), 0, 0, 0⟩ :=
  mul_axis acos far_id_1 far_id_2 far_id_3 far_id_4 far_id_5 far_id_6 far_id_7 far_id_8

theorem far_er_1 : roundDouble ((-(8941396965703276 / 2 ^ 26)) * (8941396965703279 / 2 ^ 53)) = (-(8876075396711844 / 2 ^ 26)) :=
  rd_neg 26 8876075396711844 (by norm_num) (by norm_num) (by norm_num) (by norm_num) (by norm_num)

theorem far_er_2 : roundDouble ((-(8694122028382681 / 2 ^ 29)) * (8694122028382684 / 2 ^ 56)) = (-(8391926913865367 / 2 ^ 32)) :=
  rd_neg 32 8391926913865367 (by norm_num) (by norm_num) (by norm_num) (by norm_num) (by norm_num)

theorem far_er_3 : roundDouble ((-(8876075396711844 / 2 ^ 26)) + (-(8391926913865367 / 2 ^ 32))) = (-(9007199254740990 / 2 ^ 26)) :=
  rd_neg 26 9007199254740990 (by norm_num) (by norm_num) (by norm_num) (by norm_num) (by norm_num)

theorem far_er_4 : roundDouble ((-(9007199254740990 / 2 ^ 26))) = (-(9007199254740990 / 2 ^ 26)) :=
  rd_neg 26 9007199254740990 (by norm_num) (by norm_num) (by norm_num) (by norm_num) (by norm_num)

theorem far_er_5 : roundDouble ((-(8941396965703276 / 2 ^ 26)) * (8694122028382684 / 2 ^ 56)) = (-(8630606931795952 / 2 ^ 29)) :=
  rd_neg 29 8630606931795952 (by norm_num) (by norm_num) (by norm_num) (by norm_num) (by norm_num)

theorem far_er_6 : roundDouble ((-(8694122028382681 / 2 ^ 29)) * (8941396965703279 / 2 ^ 53)) = (-(8630606931795952 / 2 ^ 29)) :=
  rd_neg 29 8630606931795952 (by norm_num) (by norm_num) (by norm_num) (by norm_num) (by norm_num)

theorem far_er_7 : roundDouble ((-(8630606931795952 / 2 ^ 29)) - (-(8630606931795952 / 2 ^ 29))) = 0 := by
  rw [show ((-(8630606931795952 / 2 ^ 29)) - (-(8630606931795952 / 2 ^ 29)) : ℝ) = 0 by norm_num, roundDouble_zero]

theorem far_er_8 : roundDouble (0) = 0 := by
  rw [show (0 : ℝ) = 0 by norm_num, roundDouble_zero]

theorem far_er (acos : ℝ → ℝ) : (doubleArith acos).mul ⟨(-(8694122028382681 / 2 ^ 29)), 0, 0, (-(8941396965703276 / 2 ^ 26))⟩ ⟨(8941396965703279 / 2 ^ 53), 0, 0, (8694122028382684 / 2 ^ 56)⟩ =
    ⟨(-(9007199254740990 / 2 ^ 26)), 0, 0, 0⟩ :=
  mul_axis acos far_er_1 far_er_2 far_er_3 far_er_4 far_er_5 far_er_6 far_er_7 far_er_8

theorem far_dual : roundDouble ((9007199254740991 / 2 ^ 26) + (-(9007199254740990 / 2 ^ 26))) = (4503599627370496 / 2 ^ 78) :=
  rd_pos 78 4503599627370496 (by norm_num) (by norm_num) (by norm_num) (by norm_num) (by norm_num)

end HandEye
