import Verif.Props.RoundedSolver
import Verif.Lemmas.RoundDouble
import Verif.Lemmas.SvdExists

/-! # Property C115: a run of the solver in `float64` that returns a dual quaternion that is not rigid -/

open Quaternion Matrix

namespace HandEye

/-! ## The last two right-singular vectors of the run -/

theorem rd_one : roundDouble 1 = 1 := by
  rw [roundDouble_eq 52 (2 ^ 52) (by norm_num) (by norm_num) (by norm_num)]; norm_num

theorem rd_two : roundDouble 2 = 2 := by
  rw [roundDouble_eq 51 (2 ^ 52) (by norm_num) (by norm_num) (by norm_num)]; norm_num

theorem rd_eps : roundDouble (2⁻¹ ^ 28) = 2⁻¹ ^ 28 := by
  rw [roundDouble_eq 80 (2 ^ 52) (by norm_num) (by norm_num) (by norm_num)]; norm_num

theorem rd_two_eps : roundDouble (2⁻¹ ^ 27) = 2⁻¹ ^ 27 := by
  rw [roundDouble_eq 79 (2 ^ 52) (by norm_num) (by norm_num) (by norm_num)]; norm_num

theorem rd_four_eps : roundDouble (2⁻¹ ^ 26) = 2⁻¹ ^ 26 := by
  rw [roundDouble_eq 78 (2 ^ 52) (by norm_num) (by norm_num) (by norm_num)]; norm_num

theorem rd_eps_sq : roundDouble (2⁻¹ ^ 56) = 2⁻¹ ^ 56 := by
  rw [roundDouble_eq 108 (2 ^ 52) (by norm_num) (by norm_num) (by norm_num)]; norm_num

theorem rd_four_eps_sq : roundDouble (2⁻¹ ^ 54) = 2⁻¹ ^ 54 := by
  rw [roundDouble_eq 106 (2 ^ 52) (by norm_num) (by norm_num) (by norm_num)]; norm_num

theorem rd_below : roundDouble (1 - 2⁻¹ ^ 56) = 1 := by
  rw [roundDouble_eq 53 (2 ^ 53) (by norm_num) (by norm_num) (by norm_num)]; norm_num

theorem rd_above : roundDouble (1 + 2⁻¹ ^ 54) = 1 := by
  rw [roundDouble_eq 52 (2 ^ 52) (by norm_num) (by norm_num) (by norm_num)]; norm_num

theorem rd_root : roundDouble (2 ^ 28) = 2 ^ 28 := by
  rw [roundDouble_eq 24 (2 ^ 52) (by norm_num) (by norm_num) (by norm_num)]; norm_num

theorem rd_two_root : roundDouble (2 ^ 29) = 2 ^ 29 := by
  rw [roundDouble_eq 23 (2 ^ 52) (by norm_num) (by norm_num) (by norm_num)]; norm_num

theorem rd_root_sq : roundDouble (2 ^ 56) = 2 ^ 56 := by
  have : (2 : ℝ) ^ 56 = (2 ^ 52 : ℕ) * 2 ^ 4 := by norm_num
  have hlog : Int.log 2 ((2 : ℝ) ^ 56) = 56 := by
    have := Int.log_zpow (R := ℝ) (b := 2) (by norm_num) 56
    norm_num at this ⊢
    exact this
  unfold roundDouble
  rw [if_neg (not_lt.mpr (by positivity)), abs_of_pos (by positivity), hlog, one_mul]
  have e : (2 : ℝ) ^ ((56 : ℤ) - 52) = 2 ^ 4 := by norm_num
  rw [e, roundHalfEven_eq (m := 2 ^ 52) (by positivity) (by norm_num)]
  norm_num

theorem dot_last (acos : ℝ → ℝ) (x y : ℝ) : (doubleArith acos).dot ⟨0, 0, 0, x⟩ ⟨0, 0, 0, y⟩ = roundDouble (roundDouble (x * y)) := by
  simp only [doubleArith, mul_zero, roundDouble_zero, add_zero, zero_add]

/-- The part of the solver after the singular value decomposition, on vectors of the plane spanned by `(0,0,0,1 | 0,0,0,0)` and
`(0,0,0,0 | 0,0,0,1)`. -/
theorem double_kernel (acos : ℝ → ℝ) :
    (doubleArith acos).kernel ⟨⟨0, 0, 0, 2⁻¹ ^ 28⟩, ⟨0, 0, 0, 1⟩⟩ ⟨⟨0, 0, 0, -1⟩, ⟨0, 0, 0, 2⁻¹ ^ 28⟩⟩ =
      .ok ⟨⟨0, 0, 0, 1⟩, ⟨0, 0, 0, -2⁻¹ ^ 28⟩⟩ := by
  have hfl : ∀ x, (doubleArith acos).fl x = roundDouble x := fun _ => rfl
  have d1 : (doubleArith acos).dot ⟨0, 0, 0, 2⁻¹ ^ 28⟩ ⟨0, 0, 0, 1⟩ = 2⁻¹ ^ 28 := by rw [dot_last, mul_one, rd_eps, rd_eps]
  have d2 : (doubleArith acos).dot ⟨0, 0, 0, 2⁻¹ ^ 28⟩ ⟨0, 0, 0, 2⁻¹ ^ 28⟩ = 2⁻¹ ^ 56 := by
    rw [dot_last, ← pow_add, rd_eps_sq, rd_eps_sq]
  have d3 : (doubleArith acos).dot ⟨0, 0, 0, -1⟩ ⟨0, 0, 0, 1⟩ = -1 := by
    rw [dot_last, mul_one, roundDouble_neg, rd_one, roundDouble_neg, rd_one]
  have d4 : (doubleArith acos).dot ⟨0, 0, 0, -1⟩ ⟨0, 0, 0, 2⁻¹ ^ 28⟩ = -2⁻¹ ^ 28 := by
    rw [dot_last, neg_one_mul, roundDouble_neg, rd_eps, roundDouble_neg, rd_eps]
  have d5 : (doubleArith acos).dot ⟨0, 0, 0, 2⁻¹ ^ 28⟩ ⟨0, 0, 0, -1⟩ = -2⁻¹ ^ 28 := by
    rw [dot_last, mul_neg_one, roundDouble_neg, rd_eps, roundDouble_neg, rd_eps]
  have d6 : (doubleArith acos).dot ⟨0, 0, 0, -1⟩ ⟨0, 0, 0, -1⟩ = 1 := by
    rw [dot_last, neg_one_mul, neg_neg, rd_one, rd_one]
  have hb : roundDouble (2⁻¹ ^ 56 + -1) = -1 := by
    rw [show (2⁻¹ ^ 56 + -1 : ℝ) = -(1 - 2⁻¹ ^ 56) by ring, roundDouble_neg, rd_below]
  have hdisc : roundDouble (roundDouble (-1 * -1) - roundDouble (roundDouble (4 * 2⁻¹ ^ 28) * -2⁻¹ ^ 28)) = 1 := by
    rw [show (-1 * -1 : ℝ) = 1 by norm_num, rd_one, show (4 * 2⁻¹ ^ 28 : ℝ) = 2⁻¹ ^ 26 by norm_num, rd_four_eps,
      show (2⁻¹ ^ 26 * -2⁻¹ ^ 28 : ℝ) = -2⁻¹ ^ 54 by norm_num, roundDouble_neg, rd_four_eps_sq, sub_neg_eq_add, rd_above]
  have h2a : roundDouble (2 * 2⁻¹ ^ 28) = 2⁻¹ ^ 27 := by rw [show (2 * 2⁻¹ ^ 28 : ℝ) = 2⁻¹ ^ 27 by norm_num, rd_two_eps]
  have c1 : (doubleArith acos).candidate ⟨⟨0, 0, 0, 2⁻¹ ^ 28⟩, ⟨0, 0, 0, 1⟩⟩ ⟨⟨0, 0, 0, -1⟩, ⟨0, 0, 0, 2⁻¹ ^ 28⟩⟩ 1 = (2 ^ 28, 0) := by
    unfold Arith.candidate
    simp only [d1, d2, d3, d5, d6, hfl]
    rw [hb, show (- -1 + 1 : ℝ) = 2 by norm_num, rd_two, h2a, show (2 / 2⁻¹ ^ 27 : ℝ) = 2 ^ 28 by norm_num, rd_root,
      show (2 ^ 28 * 2 ^ 28 : ℝ) = 2 ^ 56 by norm_num, rd_root_sq, show (2 ^ 56 * 2⁻¹ ^ 56 : ℝ) = 1 by norm_num, rd_one,
      show (2 * 2 ^ 28 : ℝ) = 2 ^ 29 by norm_num, rd_two_root, show (2 ^ 29 * -2⁻¹ ^ 28 : ℝ) = -2 by norm_num, roundDouble_neg, rd_two,
      show (1 + -2 : ℝ) = -1 by norm_num, roundDouble_neg, rd_one, neg_add_cancel, roundDouble_zero]
  have c2 : (doubleArith acos).candidate ⟨⟨0, 0, 0, 2⁻¹ ^ 28⟩, ⟨0, 0, 0, 1⟩⟩ ⟨⟨0, 0, 0, -1⟩, ⟨0, 0, 0, 2⁻¹ ^ 28⟩⟩ (-1) = (0, 1) := by
    unfold Arith.candidate
    simp only [d1, d2, d3, d5, d6, hfl]
    rw [hb, show (- -1 + -1 : ℝ) = 0 by norm_num, roundDouble_zero, zero_div, roundDouble_zero, zero_mul, roundDouble_zero, zero_mul, roundDouble_zero,
      mul_zero, roundDouble_zero, zero_mul, roundDouble_zero, add_zero, roundDouble_zero, zero_add, rd_one]
  unfold Arith.kernel
  simp only [d1, d2, d3, d4, hfl]
  rw [hb, hdisc, pyAssert_pos (by positivity), pyAssert_pos (by norm_num), Py.ok_bind, Py.ok_bind, if_neg (show ¬ (1 : ℝ) < 0 by norm_num), Real.sqrt_one, rd_one, c1, c2]
  rw [if_neg (show ¬ ((2 ^ 28, 0) : ℝ × ℝ).2 > ((0, 1) : ℝ × ℝ).2 by norm_num)]
  unfold Arith.weights
  simp only [hfl]
  rw [pyAssert_pos (by norm_num), Py.ok_bind, div_one, rd_one, Real.sqrt_one, rd_one, zero_mul, roundDouble_zero, Py.pure_eq, Py.ok_bind]
  have hcomb : (⟨(doubleArith acos).add ((doubleArith acos).smul 0 ⟨0, 0, 0, 2⁻¹ ^ 28⟩) ((doubleArith acos).smul 1 ⟨0, 0, 0, -1⟩),
      (doubleArith acos).add ((doubleArith acos).smul 0 ⟨0, 0, 0, 1⟩) ((doubleArith acos).smul 1 ⟨0, 0, 0, 2⁻¹ ^ 28⟩)⟩ : DQuat) =
      ⟨⟨0, 0, 0, -1⟩, ⟨0, 0, 0, 2⁻¹ ^ 28⟩⟩ := by
    unfold Arith.add Arith.smul
    simp only [hfl, zero_mul, one_mul, roundDouble_zero, zero_add, rd_eps, roundDouble_neg, rd_one]
  rw [hcomb]
  have hn : (doubleArith acos).norm ⟨0, 0, 0, -1⟩ = 1 := by
    unfold Arith.norm
    rw [d6, hfl, Real.sqrt_one, rd_one]
  unfold Arith.dqNormalize Arith.divScalar
  simp only [hn, one_ne_zero, if_false, Py.ok_bind]
  rw [Py.pure_eq, Py.ok_bind]
  unfold Arith.quot
  simp only [hfl, div_one, roundDouble_zero, rd_eps, roundDouble_neg, rd_one]
  rw [if_pos (by norm_num), Py.pure_eq]
  congr 1
  apply DQuat.ext' <;> ext <;> simp

/-! ## The whole run -/

/-- Poses at the origin: no turn, and a third of a turn about each diagonal of a cube.  All components are `float64` numbers. -/
noncomputable def turnPoses : List DQuat :=
  [DQuat.identity, ⟨⟨1 / 2, 1 / 2, 1 / 2, 1 / 2⟩, ⟨0, 0, 0, 0⟩⟩, ⟨⟨-1 / 2, 1 / 2, 1 / 2, 1 / 2⟩, ⟨0, 0, 0, 0⟩⟩,
    ⟨⟨1 / 2, -1 / 2, 1 / 2, 1 / 2⟩, ⟨0, 0, 0, 0⟩⟩, ⟨⟨1 / 2, 1 / 2, -1 / 2, 1 / 2⟩, ⟨0, 0, 0, 0⟩⟩]

/-- The block of the matrix for a pose whose axis is `(x, y, z) / 2`. -/
def turnBlock (x y z : ℝ) : Matrix (Fin 6) (Fin 8) ℝ :=
  !![0, -z, y, 0, 0, 0, 0, 0; z, 0, -x, 0, 0, 0, 0, 0; -y, x, 0, 0, 0, 0, 0, 0;
    0, 0, 0, 0, 0, -z, y, 0; 0, 0, 0, 0, z, 0, -x, 0; 0, 0, 0, 0, -y, x, 0, 0]

/-- The rows of the matrix. -/
def turnRows : List (Fin 8 → ℝ) :=
  sRows (turnBlock 0 0 0) ++ (sRows (turnBlock 1 1 1) ++ (sRows (turnBlock (-1) 1 1) ++ (sRows (turnBlock 1 (-1) 1) ++
    (sRows (turnBlock 1 1 (-1)) ++ []))))

theorem turn_scalar (acos : ℝ → ℝ) (x y z w : ℝ) : (doubleArith acos).scalar ⟨⟨x, y, z, w⟩, ⟨0, 0, 0, 0⟩⟩ =
    .ok ⟨⟨0, 0, 0, roundDouble (0.5 * roundDouble (w + w))⟩, ⟨0, 0, 0, 0⟩⟩ := by
  unfold Arith.scalar Arith.smul Arith.add
  have hfl : ∀ x, (doubleArith acos).fl x = roundDouble x := fun _ => rfl
  simp only [hfl, Quat.conj, neg_zero, add_zero, add_neg_cancel, roundDouble_zero, mul_zero]
  rw [pyAssert_pos (by norm_num [npIsclose])]
  rfl

theorem turn_setupS (acos : ℝ → ℝ) (x y z w : ℝ) : (doubleArith acos).setupS ⟨⟨x, y, z, w⟩, ⟨0, 0, 0, 0⟩⟩ ⟨⟨x, y, z, w⟩, ⟨0, 0, 0, 0⟩⟩ =
    .ok (turnBlock (roundDouble (x + x)) (roundDouble (y + y)) (roundDouble (z + z))) := by
  unfold Arith.setupS
  rw [turn_scalar, Py.ok_bind, Py.ok_bind, pyAssert_pos]
  · have hfl : ∀ x, (doubleArith acos).fl x = roundDouble x := fun _ => rfl
    rw [Py.ok_bind, Py.pure_eq]
    congr 1
    ext i j
    fin_cases i <;> fin_cases j <;> simp [turnBlock, Arith.sMatrix, Arith.vecAdd, Arith.vecSub, skewFromVector, hfl, roundDouble_zero]
  · have := abs_nonneg (roundDouble (0.5 * roundDouble (w + w)))
    norm_num [DQuat.allclose, Quat.allclose, npIsclose]
    try positivity

theorem turn_setupT (acos : ℝ → ℝ) : (doubleArith acos).setupT turnPoses turnPoses = .ok turnRows := by
  have e0 : DQuat.identity = ⟨⟨0, 0, 0, 1⟩, ⟨0, 0, 0, 0⟩⟩ := rfl
  have e1 : roundDouble (1 / 2 + 1 / 2) = 1 := by norm_num [rd_one]
  have e2 : roundDouble (-1 / 2 + -1 / 2) = -1 := by
    rw [show (-1 / 2 + -1 / 2 : ℝ) = -1 by norm_num, roundDouble_neg, rd_one]
  unfold turnPoses turnRows
  rw [e0]
  simp only [Arith.setupT, turn_setupS, Py.ok_bind, Py.pure_eq, add_zero, roundDouble_zero, e1, e2]

theorem turn_gate (acos : ℝ → ℝ) : (doubleArith acos).gate 1e-2 turnPoses turnPoses = .ok () := by
  have e0 : DQuat.identity = ⟨⟨0, 0, 0, 1⟩, ⟨0, 0, 0, 0⟩⟩ := rfl
  have hc : ∀ w : ℝ, DQuat.allclose ⟨⟨0, 0, 0, w⟩, ⟨0, 0, 0, 0⟩⟩ ⟨⟨0, 0, 0, w⟩, ⟨0, 0, 0, 0⟩⟩ 1e-2 := by
    intro w
    have := abs_nonneg w
    norm_num [DQuat.allclose, Quat.allclose, npIsclose]
    try positivity
  unfold turnPoses
  rw [e0]
  simp only [Arith.gate, turn_scalar, Py.ok_bind, pyAssert_pos (hc _)]

theorem turn_sign : enforceSameSign turnPoses turnPoses = .ok turnPoses := by
  norm_num [turnPoses, enforceSameSign, DQuat.identity, Py.pure_eq, Py.ok_bind]

/-- What the matrix does to two vectors. -/
theorem turn_gram (y z : Fin 8 → ℝ) : (Spec.ofRows turnRows *ᵥ y) ⬝ᵥ (Spec.ofRows turnRows *ᵥ z) =
    8 * (y 0 * z 0 + y 1 * z 1 + y 2 * z 2 + y 4 * z 4 + y 5 * z 5 + y 6 * z 6) := by
  have e : (Spec.ofRows turnRows *ᵥ y) ⬝ᵥ (Spec.ofRows turnRows *ᵥ z) =
      (turnRows.map fun row => (∑ j, row j * y j) * (∑ j, row j * z j)).sum := by
    rw [← Fin.sum_univ_fun_getElem]
    rfl
  have b : ∀ S : Matrix (Fin 6) (Fin 8) ℝ, ((sRows S).map fun row => (∑ j, row j * y j) * (∑ j, row j * z j)).sum =
      ∑ i, (∑ j, S i j * y j) * (∑ j, S i j * z j) := by
    intro S
    simp only [sRows, List.map_ofFn, List.sum_ofFn, Function.comp_apply]
  rw [e, turnRows]
  simp only [List.map_append, List.sum_append, b]
  simp [turnBlock, Fin.sum_univ_eight, Fin.sum_univ_six]
  ring

/-- The length of the last two rows before they are normalised. -/
noncomputable def turnLength : ℝ := Real.sqrt (1 + (2⁻¹ ^ 28) ^ 2)

/-- An exact choice of the right-singular vectors. -/
noncomputable def turnV : Matrix (Fin 8) (Fin 8) ℝ :=
  !![1, 0, 0, 0, 0, 0, 0, 0; 0, 1, 0, 0, 0, 0, 0, 0; 0, 0, 1, 0, 0, 0, 0, 0;
    0, 0, 0, 0, 1, 0, 0, 0; 0, 0, 0, 0, 0, 1, 0, 0; 0, 0, 0, 0, 0, 0, 1, 0;
    0, 0, 0, 2⁻¹ ^ 28 / turnLength, 0, 0, 0, 1 / turnLength; 0, 0, 0, -1 / turnLength, 0, 0, 0, 2⁻¹ ^ 28 / turnLength]

/-- The right-singular vectors that the library returns: the last two are too long by less than `2⁻⁵⁷`. -/
noncomputable def turnV' : Matrix (Fin 8) (Fin 8) ℝ :=
  !![1, 0, 0, 0, 0, 0, 0, 0; 0, 1, 0, 0, 0, 0, 0, 0; 0, 0, 1, 0, 0, 0, 0, 0;
    0, 0, 0, 0, 1, 0, 0, 0; 0, 0, 0, 0, 0, 1, 0, 0; 0, 0, 0, 0, 0, 0, 1, 0;
    0, 0, 0, 2⁻¹ ^ 28, 0, 0, 0, 1; 0, 0, 0, -1, 0, 0, 0, 2⁻¹ ^ 28]

/-- The singular values. -/
noncomputable def turnS : Fin 8 → ℝ :=
  ![Real.sqrt 8, Real.sqrt 8, Real.sqrt 8, Real.sqrt 8, Real.sqrt 8, Real.sqrt 8, 0, 0]

theorem turnLength_bounds : 1 ≤ turnLength ∧ turnLength ≤ 1 + 2⁻¹ ^ 57 ∧ turnLength ^ 2 = 1 + (2⁻¹ ^ 28) ^ 2 := by
  refine ⟨Real.one_le_sqrt.mpr (by norm_num), ?_, Real.sq_sqrt (by positivity)⟩
  exact Real.sqrt_le_iff.mpr ⟨by positivity, by norm_num⟩

theorem turn_isSVD : Spec.IsSVD turnRows (List.ofFn turnS) turnV := by
  obtain ⟨hl, _, hq⟩ := turnLength_bounds
  have hl0 : turnLength ≠ 0 := by linarith
  have hs2 : Real.sqrt 8 ^ 2 = 8 := Real.sq_sqrt (by norm_num)
  apply isSVD_of_gram
  · simp [turnRows, sRows_length]
  · intro i
    fin_cases i <;> simp [turnS]
  · rw [Fin.antitone_iff_succ_le]
    intro i
    fin_cases i <;> simp [turnS]
  · ext i j
    fin_cases i <;> fin_cases j <;> simp [turnV, Matrix.mul_apply, Fin.sum_univ_eight] <;> field_simp <;> nlinarith
  · intro i j
    rw [turn_gram]
    fin_cases i <;> fin_cases j <;> simp [turnV, turnS]

theorem turn_nearSVD : Spec.NearSVD 0 (2⁻¹ ^ 56) turnRows (List.ofFn turnS) turnV' := by
  obtain ⟨hl, hl2, hq⟩ := turnLength_bounds
  have hl0 : 0 < turnLength := by linarith
  refine ⟨turnRows, turnV, rfl, ?_, turn_isSVD, ?_⟩
  · have : ∀ T : List (Fin 8 → ℝ), Spec.diffSq T T = 0 := by
      intro T
      induction T with
      | nil => rfl
      | cons a T ih =>
        simp only [Spec.diffSq, List.zipWith_cons_cons, List.sum_cons] at ih ⊢
        rw [ih]
        simp [Spec.sumSq]
    rw [this]
    simp
  · have k : |1 - 1 / turnLength| ≤ 2⁻¹ ^ 57 := by
      rw [abs_of_nonneg (by rw [sub_nonneg, div_le_one hl0]; exact hl), one_sub_div hl0.ne', div_le_iff₀ hl0]
      nlinarith [show (0 : ℝ) < 2⁻¹ ^ 57 by positivity]
    have k2 : (1 - 1 / turnLength) ^ 2 ≤ (2⁻¹ ^ 57) ^ 2 := sq_le_sq' (by linarith [(abs_le.mp k).1]) (abs_le.mp k).2
    have hsum : (1 - 1 / turnLength) ^ 2 * (1 + (2⁻¹ ^ 28) ^ 2) ≤ (2⁻¹ ^ 56) ^ 2 := by
      refine (mul_le_mul_of_nonneg_right k2 (by positivity)).trans (by norm_num)
    intro i
    fin_cases i
    iterate 6 · simp [Spec.sumSq, turnV, turnV']
    · refine le_trans (le_of_eq ?_) hsum
      simp only [Spec.sumSq, Fin.sum_univ_eight, turnV, turnV', Pi.sub_apply]
      simp
      ring
    · refine le_trans (le_of_eq ?_) hsum
      simp only [Spec.sumSq, Fin.sum_univ_eight, turnV, turnV', Pi.sub_apply]
      simp
      ring

open Classical in
/-- A decomposition that knows this matrix only. -/
noncomputable def turnSvd : Svd := fun T => if T = turnRows then .ok (List.ofFn turnS, turnV') else .error .value

theorem turnSvd_near (T : List (Fin 8 → ℝ)) (s : List ℝ) (V : Matrix (Fin 8) (Fin 8) ℝ) (h : turnSvd T = .ok (s, V)) :
    Spec.NearSVD 0 (2⁻¹ ^ 56) T s V := by
  unfold turnSvd at h
  split_ifs at h with hT
  cases h
  rw [hT]
  exact turn_nearSVD

/-- The run. -/
theorem turn_run (acos : ℝ → ℝ) : (doubleArith acos).calibrate turnSvd turnPoses turnPoses 1e-2 true =
    .ok ⟨⟨⟨0, 0, 0, 1⟩, ⟨0, 0, 0, -2⁻¹ ^ 28⟩⟩, List.ofFn turnS, badSingularValues (List.ofFn turnS), turnPoses⟩ := by
  have hp : pyAt turnPoses 0 = .ok DQuat.identity := rfl
  have hi : DQuat.identity.allclose DQuat.identity 1e-8 := by
    norm_num [DQuat.allclose, Quat.allclose, npIsclose, DQuat.identity]
  have hv : turnSvd turnRows = .ok (List.ofFn turnS, turnV') := by simp [turnSvd]
  have h6 : splitRow (turnV' 6) = ⟨⟨0, 0, 0, 2⁻¹ ^ 28⟩, ⟨0, 0, 0, 1⟩⟩ := rfl
  have h7 : splitRow (turnV' 7) = ⟨⟨0, 0, 0, -1⟩, ⟨0, 0, 0, 2⁻¹ ^ 28⟩⟩ := rfl
  unfold Arith.calibrate
  simp only [hp, Py.ok_bind, pyAssert_pos hi, if_true, turn_sign, turn_gate, turn_setupT, hv, h6, h7, double_kernel, Py.pure_eq]

theorem turn_exact : Spec.Exact turnPoses turnPoses DQuat.identity := by
  have h : ∀ b : DQuat, Spec.HandEyeEq b DQuat.identity b := by
    intro b
    unfold Spec.HandEyeEq
    rw [show DQuat.identity.toDual = 1 from TrivSqZeroExt.ext Quat.toH_one Quat.toH_zero, mul_one, one_mul]
  unfold Spec.Exact turnPoses
  exact .cons (h _) (.cons (h _) (.cons (h _) (.cons (h _) (.cons (h _) .nil))))

theorem turn_measured : Spec.Measured true 0 turnPoses turnPoses turnPoses turnPoses := by
  have h : ∀ b : DQuat, Spec.NearDQ 0 b b := by intro b; simp [Spec.NearDQ]
  refine ⟨?_, ?_, ?_⟩
  · unfold turnPoses
    exact .cons (h _) (.cons (h _) (.cons (h _) (.cons (h _) (.cons (h _) .nil))))
  · unfold turnPoses
    exact .cons (.inl (h _)) (.cons (.inl (h _)) (.cons (.inl (h _)) (.cons (.inl (h _)) (.cons (.inl (h _)) .nil))))
  · intro _
    norm_num [turnPoses, DQuat.identity]

theorem turn_unit : Spec.IsUnit DQuat.identity := by
  rw [DQuat.isUnit_iff]
  norm_num [Quat.dot, DQuat.identity]

/-- **C115** the dual quaternion that the solver returns in `float64` is in general not rigid to rounding accuracy: there are poses whose
components are all `float64` numbers, which satisfy the hand-eye equation exactly, and a decomposition that is exact but for errors of `2⁻⁵⁶`
in the right-singular vectors, such that the product of the two parts of the result, which is zero for a rigid motion, is more than thirty million times
the unit roundoff `2⁻⁵³`. -/
theorem C115_rigid_refuted (acos : ℝ → ℝ) : ∃ (svd : Svd) (bs ws : List DQuat) (X : DQuat) (r : Calibration),
    (∀ T s V, svd T = .ok (s, V) → Spec.NearSVD 0 (2⁻¹ ^ 56) T s V) ∧
    (∀ b ∈ bs ++ ws, ∀ j, roundDouble (Spec.vec8 b j) = Spec.vec8 b j) ∧ (∀ b ∈ bs ++ ws, Spec.IsUnit b) ∧ Spec.IsUnit X ∧ Spec.Exact bs ws X ∧
    (doubleArith acos).calibrate svd bs ws 1e-2 true = .ok r ∧ r.singular_values[5]? = some (Real.sqrt 8) ∧ r.bad_singular_values = false ∧
    3e7 * 2⁻¹ ^ 53 ≤ |r.dq_H_E.rot.x * r.dq_H_E.dual.x + r.dq_H_E.rot.y * r.dq_H_E.dual.y + r.dq_H_E.rot.z * r.dq_H_E.dual.z +
      r.dq_H_E.rot.w * r.dq_H_E.dual.w| := by
  have h8 : 1 ≤ Real.sqrt 8 := Real.one_le_sqrt.mpr (by norm_num)
  have rd_half : roundDouble (1 / 2) = 1 / 2 := by
    rw [roundDouble_eq 53 (2 ^ 52) (by norm_num) (by norm_num) (by norm_num)]; norm_num
  have rd_half' : roundDouble (-1 / 2) = -1 / 2 := by
    rw [show (-1 / 2 : ℝ) = -(1 / 2) by norm_num, roundDouble_neg, rd_half]
  refine ⟨turnSvd, turnPoses, turnPoses, DQuat.identity, _, turnSvd_near, ?_, ?_, turn_unit, turn_exact, turn_run acos, rfl, ?_, ?_⟩
  · have : ∀ b ∈ turnPoses, ∀ j, roundDouble (Spec.vec8 b j) = Spec.vec8 b j := by
      intro b hb j
      simp only [turnPoses, List.mem_cons, List.not_mem_nil, or_false] at hb
      obtain rfl | rfl | rfl | rfl | rfl := hb <;> fin_cases j <;>
        simp only [Spec.vec8, DQuat.identity] <;> first | exact roundDouble_zero | exact rd_one | exact rd_half | exact rd_half'
    intro b hb
    rcases List.mem_append.mp hb with h | h <;> exact this b h
  · have : ∀ b ∈ turnPoses, Spec.IsUnit b := by
      intro b hb
      simp only [turnPoses, List.mem_cons, List.not_mem_nil, or_false] at hb
      obtain rfl | rfl | rfl | rfl | rfl := hb
      · exact turn_unit
      all_goals
        rw [DQuat.isUnit_iff]
        norm_num [Quat.dot]
    intro b hb
    rcases List.mem_append.mp hb with h | h <;> exact this b h
  · have a : ¬ Real.sqrt 8 < 5e-1 := by norm_num; linarith
    have e : List.ofFn turnS = [Real.sqrt 8, Real.sqrt 8, Real.sqrt 8, Real.sqrt 8, Real.sqrt 8, Real.sqrt 8, 0, 0] := rfl
    rw [e]
    norm_num [badSingularValues, List.zipIdx, a]
    linarith
  · norm_num [abs_of_neg]

/-- The bounds for this run are less than `10⁻¹⁴`. -/
theorem turn_bounds (acos : ℝ → ℝ) (r : Calibration) (h : (doubleArith acos).calibrate turnSvd turnPoses turnPoses 1e-2 true = .ok r) :
    Spec.translationLength r.dq_H_E ≤ 1 / 100 ∧ r.singular_values[5]? = some (Real.sqrt 8) ∧ (∀ b ∈ turnPoses, Spec.sumSq (Spec.vec8 b) ≤ 1 ^ 2) ∧
    0 ≤ 1.02 * (4 * (0 + (2⁻¹ ^ 53 + 1.001 * 0) * 1) * Real.sqrt (turnPoses.length : ℝ) / Real.sqrt 8) + 5 * 2⁻¹ ^ 53 + 2 * 2⁻¹ ^ 56 ∧
    1.02 * (4 * (0 + (2⁻¹ ^ 53 + 1.001 * 0) * 1) * Real.sqrt (turnPoses.length : ℝ) / Real.sqrt 8) + 5 * 2⁻¹ ^ 53 + 2 * 2⁻¹ ^ 56 ≤ 1.6e-15 := by
  have h8 : 2 ≤ Real.sqrt 8 := Real.le_sqrt_of_sq_le (by norm_num)
  have h5 : Real.sqrt (turnPoses.length : ℝ) ≤ 2.3 := Real.sqrt_le_iff.mpr ⟨by norm_num, by norm_num [turnPoses]⟩
  have hr := Except.ok.inj ((turn_run acos).symm.trans h)
  refine ⟨?_, by rw [← hr]; rfl, ?_, by positivity, ?_⟩
  · rw [← hr]
    simp only [Spec.translationLength]
    have : Real.sqrt (0 ^ 2 + 0 ^ 2 + 0 ^ 2 + (-2⁻¹ ^ 28) ^ 2) ≤ 1 / 200 := Real.sqrt_le_iff.mpr ⟨by norm_num, by norm_num⟩
    linarith
  · intro b hb
    simp only [turnPoses, List.mem_cons, List.not_mem_nil, or_false] at hb
    obtain rfl | rfl | rfl | rfl | rfl := hb <;> simp [Spec.sumSq, Fin.sum_univ_eight, Spec.vec8, DQuat.identity] <;> norm_num
  · have : 4 * (0 + (2⁻¹ ^ 53 + 1.001 * 0) * 1) * Real.sqrt (turnPoses.length : ℝ) / Real.sqrt 8 ≤ 4 * 2⁻¹ ^ 53 * 2.3 / 2 := by
      rw [div_le_div_iff₀ (by linarith) (by norm_num)]
      norm_num
      nlinarith
    refine (add_le_add_left (add_le_add_left (mul_le_mul_of_nonneg_left this (by norm_num)) _) _).trans (by norm_num)

/-- The bound of the rotation for this run: the rotation is correct to better than `10⁻¹⁴`, in the sine of half the angle. -/
example (acos : ℝ → ℝ) (r : Calibration) (h : (doubleArith acos).calibrate turnSvd turnPoses turnPoses 1e-2 true = .ok r) :
    1 - Spec.cosHalf r.dq_H_E.rot DQuat.identity.rot ^ 2 ≤ 1e-28 := by
  obtain ⟨ht, h5, hs, hq0, hq⟩ := turn_bounds acos r h
  have ht0 : 0 ≤ Spec.translationLength r.dq_H_E := by unfold Spec.translationLength; positivity
  refine (C115_rotation_partial (machine_double acos) 0 (2⁻¹ ^ 56) le_rfl (by positivity) (by norm_num) turnSvd turnSvd_near 0 1 le_rfl zero_le_one
    DQuat.identity turn_unit true turnPoses turnPoses turnPoses turnPoses turn_exact turn_measured hs hs 1e-2 r h (Real.sqrt 8) (by positivity) h5).2.trans ?_
  refine (mul_le_mul (pow_le_pow_left₀ hq0 hq 2) (show 1 + Spec.translationLength r.dq_H_E ^ 2 / 4 ≤ 2 by nlinarith) (by positivity) (by positivity)).trans
    (by norm_num)

/-- The bound of the motion for this run: points within 10 m of the camera are mapped correctly to better than a tenth of a picometre, although the
dual quaternion is not rigid. -/
example (acos : ℝ → ℝ) (r : Calibration) (h : (doubleArith acos).calibrate turnSvd turnPoses turnPoses 1e-2 true = .ok r)
    (p : Vec3) (hp : Spec.dist p ⟨0, 0, 0⟩ ≤ 10) : Spec.dist (Spec.motion r.dq_H_E p) (Spec.motion DQuat.identity p) ≤ 1e-13 := by
  obtain ⟨ht, h5, hs, hq0, hq⟩ := turn_bounds acos r h
  have ht0 : 0 ≤ Spec.translationLength r.dq_H_E := by unfold Spec.translationLength; positivity
  have hX : Spec.translationLength DQuat.identity = 0 := by norm_num [Spec.translationLength, DQuat.identity]
  have hs2 : Real.sqrt (1 + Spec.translationLength r.dq_H_E ^ 2 / 4) ≤ 1.1 := Real.sqrt_le_iff.mpr ⟨by norm_num, by nlinarith⟩
  have hρ := mul_le_mul hq hs2 (Real.sqrt_nonneg _) (by norm_num)
  refine (C115_motion_partial (machine_double acos) 0 (2⁻¹ ^ 56) le_rfl (by positivity) (by norm_num) turnSvd turnSvd_near 0 1 le_rfl zero_le_one
    DQuat.identity turn_unit true turnPoses turnPoses turnPoses turnPoses turn_exact turn_measured hs hs 1e-2 r h (Real.sqrt 8) (by positivity) h5 _ rfl
    (hρ.trans (by norm_num)) p).trans ?_
  rw [hX]
  have hp0 : 0 ≤ Spec.dist p ⟨0, 0, 0⟩ := Real.sqrt_nonneg _
  exact (mul_le_mul hρ (show _ ≤ (25 : ℝ) by linarith) (by positivity) (by norm_num)).trans (by norm_num)

/-- The hypothesis about the decomposition cannot be dropped from the bounds: with arbitrary right-singular vectors the result is arbitrary. -/
example : ¬ Spec.NearSVD 0 (1 / 1000) turnRows (List.ofFn turnS) 0 := by
  rintro ⟨T', V', _, _, hs, hv⟩
  have h := congrFun (congrFun hs.orthogonal 0) 0
  have h0 := hv 0
  simp only [Matrix.mul_apply, Matrix.transpose_apply, Matrix.one_apply_eq] at h
  have : Spec.sumSq ((0 : Matrix (Fin 8) (Fin 8) ℝ) 0 - V' 0) = 1 := by
    rw [← h]
    simp [Spec.sumSq, sq]
  rw [this] at h0
  norm_num at h0

end HandEye
