import Verif.Props.RoundedBaseline
import Verif.Props.RoundedSolver2

/-! # Property C116: a run of the baseline algorithm in `float64` -/

open Quaternion Matrix

namespace HandEye

/-- Poses at the origin: no turn, and a third of a turn about two diagonals of a cube.  All components are `float64` numbers. -/
noncomputable def twoTurns : List DQuat :=
  [⟨⟨0, 0, 0, 1⟩, ⟨0, 0, 0, 0⟩⟩, ⟨⟨1 / 2, 1 / 2, 1 / 2, 1 / 2⟩, ⟨0, 0, 0, 0⟩⟩, ⟨⟨-1 / 2, 1 / 2, 1 / 2, 1 / 2⟩, ⟨0, 0, 0, 0⟩⟩]

/-- The rows of the matrix of the solver. -/
def twoRows : List (Fin 8 → ℝ) := sRows (turnBlock 0 0 0) ++ (sRows (turnBlock 1 1 1) ++ (sRows (turnBlock (-1) 1 1) ++ []))

theorem two_setupT (acos : ℝ → ℝ) : (doubleArith acos).setupT twoTurns twoTurns = .ok twoRows := by
  have e1 : roundDouble (1 / 2 + 1 / 2) = 1 := by norm_num [rd_one]
  have e2 : roundDouble (-1 / 2 + -1 / 2) = -1 := by
    rw [show (-1 / 2 + -1 / 2 : ℝ) = -1 by norm_num, roundDouble_neg, rd_one]
  unfold twoTurns twoRows
  simp only [Arith.setupT, turn_setupS, Py.ok_bind, Py.pure_eq, add_zero, roundDouble_zero, e1, e2]

theorem scalar_close (w : ℝ) : DQuat.allclose ⟨⟨0, 0, 0, w⟩, ⟨0, 0, 0, 0⟩⟩ ⟨⟨0, 0, 0, w⟩, ⟨0, 0, 0, 0⟩⟩ 1e-2 := by
  have := abs_nonneg w
  norm_num [DQuat.allclose, Quat.allclose, npIsclose]
  try positivity

theorem two_gate (acos : ℝ → ℝ) : (doubleArith acos).gate 1e-2 twoTurns twoTurns = .ok () := by
  unfold twoTurns
  simp only [Arith.gate, turn_scalar, Py.ok_bind, pyAssert_pos (scalar_close _)]

theorem two_sign : enforceSameSign twoTurns twoTurns = .ok twoTurns := by
  norm_num [twoTurns, enforceSameSign, Py.pure_eq, Py.ok_bind]

theorem two_gram (y z : Fin 8 → ℝ) : (Spec.ofRows twoRows *ᵥ y) ⬝ᵥ (Spec.ofRows twoRows *ᵥ z) =
    4 * (y 0 * z 0 + y 1 * z 1 + y 2 * z 2 + y 4 * z 4 + y 5 * z 5 + y 6 * z 6) -
      2 * (y 1 * z 2 + y 2 * z 1 + y 5 * z 6 + y 6 * z 5) := by
  have e : (Spec.ofRows twoRows *ᵥ y) ⬝ᵥ (Spec.ofRows twoRows *ᵥ z) =
      (twoRows.map fun row => (∑ j, row j * y j) * (∑ j, row j * z j)).sum := by
    rw [← Fin.sum_univ_fun_getElem]
    rfl
  have b : ∀ S : Matrix (Fin 6) (Fin 8) ℝ, ((sRows S).map fun row => (∑ j, row j * y j) * (∑ j, row j * z j)).sum =
      ∑ i, (∑ j, S i j * y j) * (∑ j, S i j * z j) := by
    intro S
    simp only [sRows, List.map_ofFn, List.sum_ofFn, Function.comp_apply]
  rw [e, twoRows]
  simp only [List.map_append, List.sum_append, b]
  simp [turnBlock, Fin.sum_univ_eight, Fin.sum_univ_six]
  ring

/-- An exact choice of the right-singular vectors. -/
noncomputable def twoV : Matrix (Fin 8) (Fin 8) ℝ :=
  !![0, 1 / Real.sqrt 2, -1 / Real.sqrt 2, 0, 0, 0, 0, 0; 0, 0, 0, 0, 0, 1 / Real.sqrt 2, -1 / Real.sqrt 2, 0;
    1, 0, 0, 0, 0, 0, 0, 0; 0, 0, 0, 0, 1, 0, 0, 0;
    0, 1 / Real.sqrt 2, 1 / Real.sqrt 2, 0, 0, 0, 0, 0; 0, 0, 0, 0, 0, 1 / Real.sqrt 2, 1 / Real.sqrt 2, 0;
    0, 0, 0, 2⁻¹ ^ 28 / turnLength, 0, 0, 0, 1 / turnLength; 0, 0, 0, -1 / turnLength, 0, 0, 0, 2⁻¹ ^ 28 / turnLength]

/-- The right-singular vectors that the library returns: the last two are too long by less than `2⁻⁵⁷`. -/
noncomputable def twoV' : Matrix (Fin 8) (Fin 8) ℝ :=
  !![0, 1 / Real.sqrt 2, -1 / Real.sqrt 2, 0, 0, 0, 0, 0; 0, 0, 0, 0, 0, 1 / Real.sqrt 2, -1 / Real.sqrt 2, 0;
    1, 0, 0, 0, 0, 0, 0, 0; 0, 0, 0, 0, 1, 0, 0, 0;
    0, 1 / Real.sqrt 2, 1 / Real.sqrt 2, 0, 0, 0, 0, 0; 0, 0, 0, 0, 0, 1 / Real.sqrt 2, 1 / Real.sqrt 2, 0;
    0, 0, 0, 2⁻¹ ^ 28, 0, 0, 0, 1; 0, 0, 0, -1, 0, 0, 0, 2⁻¹ ^ 28]

/-- The singular values. -/
noncomputable def twoS : Fin 8 → ℝ := ![Real.sqrt 6, Real.sqrt 6, 2, 2, Real.sqrt 2, Real.sqrt 2, 0, 0]

theorem two_isSVD : Spec.IsSVD twoRows (List.ofFn twoS) twoV := by
  obtain ⟨hl, _, hq⟩ := turnLength_bounds
  have hl0 : turnLength ≠ 0 := by linarith
  have hs2 : Real.sqrt 2 ^ 2 = 2 := Real.sq_sqrt (by norm_num)
  have hs6 : Real.sqrt 6 ^ 2 = 6 := Real.sq_sqrt (by norm_num)
  have h2 : Real.sqrt 2 ≠ 0 := by positivity
  have h26 : (2 : ℝ) ≤ Real.sqrt 6 := Real.le_sqrt_of_sq_le (by norm_num)
  have h22 : Real.sqrt 2 ≤ 2 := Real.sqrt_le_iff.mpr ⟨by norm_num, by norm_num⟩
  apply isSVD_of_gram
  · simp [twoRows, sRows_length]
  · intro i
    fin_cases i <;> simp [twoS]
  · rw [Fin.antitone_iff_succ_le]
    intro i
    fin_cases i <;> simp [twoS, h26, h22]
  · ext i j
    fin_cases i <;> fin_cases j <;> simp [twoV, Matrix.mul_apply, Fin.sum_univ_eight] <;> field_simp <;> nlinarith
  · intro i j
    rw [two_gram]
    fin_cases i <;> fin_cases j <;> simp [twoV, twoS] <;> field_simp <;> nlinarith

theorem two_nearSVD : Spec.NearSVD 0 (2⁻¹ ^ 56) twoRows (List.ofFn twoS) twoV' := by
  obtain ⟨hl, hl2, hq⟩ := turnLength_bounds
  have hl0 : 0 < turnLength := by linarith
  refine ⟨twoRows, twoV, rfl, ?_, two_isSVD, ?_⟩
  · have : ∀ T : List (Fin 8 → ℝ), Spec.diffSq T T = 0 := by
      intro T
      induction T with
      | nil => rfl
      | cons a T ih =>
        simp only [Spec.diffSq, List.zipWith_cons_cons, List.sum_cons] at ih ⊢
        rw [ih]
        simp [Spec.sumSq]
    rw [this]
    simp
  · have k : |1 - 1 / turnLength| ≤ 2⁻¹ ^ 57 := by
      rw [abs_of_nonneg (by rw [sub_nonneg, div_le_one hl0]; exact hl), one_sub_div hl0.ne', div_le_iff₀ hl0]
      nlinarith [show (0 : ℝ) < 2⁻¹ ^ 57 by positivity]
    have k2 : (1 - 1 / turnLength) ^ 2 ≤ (2⁻¹ ^ 57) ^ 2 := sq_le_sq' (by linarith [(abs_le.mp k).1]) (abs_le.mp k).2
    have hsum : (1 - 1 / turnLength) ^ 2 * (1 + (2⁻¹ ^ 28) ^ 2) ≤ (2⁻¹ ^ 56) ^ 2 := by
      refine (mul_le_mul_of_nonneg_right k2 (by positivity)).trans (by norm_num)
    intro i
    fin_cases i
    iterate 6 · simp [Spec.sumSq, twoV, twoV']
    · refine le_trans (le_of_eq ?_) hsum
      simp only [Spec.sumSq, Fin.sum_univ_eight, twoV, twoV', Pi.sub_apply]
      simp
      ring
    · refine le_trans (le_of_eq ?_) hsum
      simp only [Spec.sumSq, Fin.sum_univ_eight, twoV, twoV', Pi.sub_apply]
      simp
      ring

open Classical in
/-- A decomposition that knows this matrix only. -/
noncomputable def twoSvd : Svd := fun T => if T = twoRows then .ok (List.ofFn twoS, twoV') else .error .value

theorem twoSvd_near (T : List (Fin 8 → ℝ)) (s : List ℝ) (V : Matrix (Fin 8) (Fin 8) ℝ) (h : twoSvd T = .ok (s, V)) :
    Spec.NearSVD 0 (2⁻¹ ^ 56) T s V := by
  unfold twoSvd at h
  split_ifs at h with hT
  cases h
  rw [hT]
  exact two_nearSVD

theorem two_calibrate (acos : ℝ → ℝ) : (doubleArith acos).calibrate twoSvd twoTurns twoTurns 1e-2 true =
    .ok ⟨⟨⟨0, 0, 0, 1⟩, ⟨0, 0, 0, -2⁻¹ ^ 28⟩⟩, List.ofFn twoS, badSingularValues (List.ofFn twoS), twoTurns⟩ := by
  have hp : pyAt twoTurns 0 = .ok ⟨⟨0, 0, 0, 1⟩, ⟨0, 0, 0, 0⟩⟩ := rfl
  have hi : DQuat.allclose ⟨⟨0, 0, 0, 1⟩, ⟨0, 0, 0, 0⟩⟩ DQuat.identity 1e-8 := by
    norm_num [DQuat.allclose, Quat.allclose, npIsclose, DQuat.identity]
  have hv : twoSvd twoRows = .ok (List.ofFn twoS, twoV') := by simp [twoSvd]
  have h6 : splitRow (twoV' 6) = ⟨⟨0, 0, 0, 2⁻¹ ^ 28⟩, ⟨0, 0, 0, 1⟩⟩ := rfl
  have h7 : splitRow (twoV' 7) = ⟨⟨0, 0, 0, -1⟩, ⟨0, 0, 0, 2⁻¹ ^ 28⟩⟩ := rfl
  unfold Arith.calibrate
  simp only [hp, Py.ok_bind, pyAssert_pos hi, if_true, two_sign, two_gate, two_setupT, hv, h6, h7, double_kernel, Py.pure_eq]

theorem rd_half : roundDouble (1 / 2) = 1 / 2 := by
  rw [roundDouble_eq 53 (2 ^ 52) (by norm_num) (by norm_num) (by norm_num)]; norm_num

theorem rd_minus_half : roundDouble (-1 / 2) = -1 / 2 := by
  rw [show (-1 / 2 : ℝ) = -(1 / 2) by norm_num, roundDouble_neg, rd_half]

/-- Aligned at the first pose, the poses do not change. -/
theorem two_align (acos : ℝ → ℝ) : (doubleArith acos).alignPaths twoTurns 0 true = .ok twoTurns := by
  have hfl : ∀ x, (doubleArith acos).fl x = roundDouble x := fun _ => rfl
  have hg : pyGet twoTurns 0 = .ok ⟨⟨0, 0, 0, 1⟩, ⟨0, 0, 0, 0⟩⟩ := rfl
  have hd : (doubleArith acos).dot ⟨0, 0, 0, 1⟩ ⟨0, 0, 0, 1⟩ = 1 := by rw [dot_last, mul_one, rd_one, rd_one]
  have hinv : (doubleArith acos).dqInverse ⟨⟨0, 0, 0, 1⟩, ⟨0, 0, 0, 0⟩⟩ = .ok ⟨⟨0, 0, 0, 1⟩, ⟨0, 0, 0, 0⟩⟩ := by
    unfold Arith.dqInverse Arith.norm Arith.inverse Arith.divScalar
    rw [hd, hfl, Real.sqrt_one, rd_one, pyAssert_pos (by norm_num), Py.ok_bind, if_neg one_ne_zero, Py.ok_bind, Py.pure_eq]
    simp [Arith.quot, Arith.mul, hfl, Quat.conj, roundDouble_zero, rd_one]
  have hre : twoTurns.map ((doubleArith acos).rebase ⟨⟨0, 0, 0, 1⟩, ⟨0, 0, 0, 0⟩⟩ true) = twoTurns := by
    have hr : ∀ x y z w : ℝ, 0 < w → roundDouble x = x → roundDouble y = y → roundDouble z = z → roundDouble w = w →
        (doubleArith acos).rebase ⟨⟨0, 0, 0, 1⟩, ⟨0, 0, 0, 0⟩⟩ true ⟨⟨x, y, z, w⟩, ⟨0, 0, 0, 0⟩⟩ = ⟨⟨x, y, z, w⟩, ⟨0, 0, 0, 0⟩⟩ := by
      intro x y z w h0 hx hy hz hw
      unfold Arith.rebase Arith.dqMul Arith.mul Arith.add
      simp only [hfl, one_mul, zero_mul, mul_zero, roundDouble_zero, add_zero, sub_zero, hx, hy, hz, hw, if_true, if_neg h0.not_gt]
    unfold twoTurns
    simp only [List.map_cons, List.map_nil]
    rw [hr _ _ _ _ one_pos roundDouble_zero roundDouble_zero roundDouble_zero rd_one, hr _ _ _ _ (by norm_num) rd_half rd_half rd_half rd_half,
      hr _ _ _ _ (by norm_num) rd_minus_half rd_half rd_half rd_half]
  have hi : DQuat.allclose ⟨⟨0, 0, 0, 1⟩, ⟨0, 0, 0, 0⟩⟩ DQuat.identity 1e-8 := by
    norm_num [DQuat.allclose, Quat.allclose, npIsclose, DQuat.identity]
  have hz : pyFrom twoTurns 0 ++ pyTo twoTurns 0 = twoTurns := rfl
  have h0 : pyAt twoTurns 0 = .ok ⟨⟨0, 0, 0, 1⟩, ⟨0, 0, 0, 0⟩⟩ := rfl
  unfold Arith.alignPaths
  simp only [hg, hinv, Py.ok_bind, hre, hz, h0, pyAssert_pos hi, Py.pure_eq]

/-- The settings of the run: no prefilter, at least three pairs. -/
def twoConfig : HandEyeConfig := { min_num_inliers := 2, hand_eye_calibration_scalar_part_equality_tolerance := 1e-2, prefilter_poses_enabled := false, enable_exhaustive_search := false }

theorem two_inliers (acos : ℝ → ℝ) : (doubleArith acos).inliersAt twoTurns twoTurns 0 = .ok (twoTurns, twoTurns) := by
  have hm : (twoTurns.zip twoTurns).mapM (fun p => (doubleArith acos).scalarMatch 1e-2 p.1 p.2) = .ok [true, true, true] := by
    have hs : ∀ x y z w : ℝ, (doubleArith acos).scalarMatch 1e-2 ⟨⟨x, y, z, w⟩, ⟨0, 0, 0, 0⟩⟩ ⟨⟨x, y, z, w⟩, ⟨0, 0, 0, 0⟩⟩ = .ok true := by
      intro x y z w
      unfold Arith.scalarMatch
      simp only [turn_scalar, Py.ok_bind, Py.pure_eq, decide_eq_true (scalar_close _)]
    simp only [twoTurns, List.zip_cons_cons, List.zip_nil_left, List.mapM_cons, List.mapM_nil, hs, Py.ok_bind, Py.pure_eq]
  unfold Arith.inliersAt
  simp only [Nat.cast_zero, two_align, Py.ok_bind, hm, Py.pure_eq]
  rfl

/-- The run. -/
theorem two_run (acos : ℝ → ℝ) : (doubleArith acos).baselineCalibration twoSvd twoConfig (fun b w => .ok (b, w)) twoTurns twoTurns =
    .ok (some ⟨⟨⟨0, 0, 0, 1⟩, ⟨0, 0, 0, -2⁻¹ ^ 28⟩⟩, List.ofFn twoS, badSingularValues (List.ofFn twoS), twoTurns⟩) := by
  have hfl : ∀ x, (doubleArith acos).fl x = roundDouble x := fun _ => rfl
  have hl : twoTurns.length = 3 := rfl
  have hfi : (doubleArith acos).firstInliers 2 twoTurns twoTurns (List.range 3) = .ok (0, twoTurns, twoTurns) := by
    rw [show List.range 3 = [0, 1, 2] from rfl, Arith.firstInliers]
    simp only [two_inliers, Py.ok_bind, pyAssert_pos, hl]
    norm_num
  have hn : (doubleArith acos).dqNormalize ⟨⟨0, 0, 0, 1⟩, ⟨0, 0, 0, -2⁻¹ ^ 28⟩⟩ = .ok ⟨⟨0, 0, 0, 1⟩, ⟨0, 0, 0, -2⁻¹ ^ 28⟩⟩ := by
    have hnorm : (doubleArith acos).norm ⟨0, 0, 0, 1⟩ = 1 := by
      unfold Arith.norm
      rw [dot_last, mul_one, rd_one, rd_one, hfl, Real.sqrt_one, rd_one]
    unfold Arith.dqNormalize Arith.divScalar
    simp only [hnorm, one_ne_zero, if_false, Py.ok_bind, Py.pure_eq, Arith.quot, hfl, div_one, roundDouble_zero, rd_one, roundDouble_neg, rd_eps]
  have ht : (doubleArith acos).tryCalibrate twoSvd twoConfig.hand_eye_calibration_scalar_part_equality_tolerance twoTurns twoTurns =
      some ⟨⟨⟨0, 0, 0, 1⟩, ⟨0, 0, 0, -2⁻¹ ^ 28⟩⟩, List.ofFn twoS, badSingularValues (List.ofFn twoS), twoTurns⟩ := by
    unfold Arith.tryCalibrate
    rw [show twoConfig.hand_eye_calibration_scalar_part_equality_tolerance = 1e-2 from rfl, two_calibrate]
    simp only [Py.ok_bind, hn, Py.pure_eq]
  unfold Arith.baselineCalibration
  rw [pyAssert_pos rfl, Py.ok_bind, two_sign]
  simp only [Py.ok_bind, hl, show twoConfig.min_num_inliers = 2 from rfl, hfi, Nat.cast_zero, two_align, ht, Py.pure_eq]

/-- The true poses are the recorded ones. -/
theorem two_recorded : ∀ p ∈ twoTurns.zip twoTurns, ∃ p₀ ∈ twoTurns.zip twoTurns, Spec.RecordedPair 0 0 0 p p₀ := by
  have hu : ∀ x y z w : ℝ, x ^ 2 + y ^ 2 + z ^ 2 + w ^ 2 = 1 → Spec.RecordedPose 0 0 0 ⟨⟨x, y, z, w⟩, ⟨0, 0, 0, 0⟩⟩ ⟨⟨x, y, z, w⟩, ⟨0, 0, 0, 0⟩⟩ := by
    intro x y z w h
    refine ⟨?_, by simp [Spec.gap], by simp [Spec.gap], by simp [Spec.len]⟩
    rw [DQuat.isUnit_iff]
    simp [Quat.dot]
    linarith
  intro p hp
  refine ⟨p, hp, ?_⟩
  simp only [twoTurns, List.zip_cons_cons, List.zip_nil_left, List.mem_cons, List.not_mem_nil, or_false] at hp
  obtain rfl | rfl | rfl := hp <;> exact ⟨hu _ _ _ _ (by norm_num), hu _ _ _ _ (by norm_num)⟩

theorem two_fits : ∀ p ∈ twoTurns.zip twoTurns, Spec.FitsMotion DQuat.identity DQuat.identity p := by
  have hid : ∀ x, Spec.motion DQuat.identity x = x := by
    intro x
    exact DQuat.motion_one x
  intro p hp x
  rw [hid, hid]
  simp only [twoTurns, List.zip_cons_cons, List.zip_nil_left, List.mem_cons, List.not_mem_nil, or_false] at hp
  obtain rfl | rfl | rfl := hp <;> rfl

theorem two_turns : ∀ p ∈ twoTurns.zip twoTurns, ∀ q ∈ twoTurns.zip twoTurns, Spec.relativeError (2⁻¹ ^ 53) 0 0 0 < Spec.cosHalf p.1.rot q.1.rot := by
  intro p hp q hq
  simp only [twoTurns, List.zip_cons_cons, List.zip_nil_left, List.mem_cons, List.not_mem_nil, or_false] at hp hq
  obtain rfl | rfl | rfl := hp <;> obtain rfl | rfl | rfl := hq <;> norm_num [Spec.relativeError, Spec.cosHalf]

theorem two_keeps : Spec.KeepsPairs fun b w => .ok (b, w) := by
  intro bs ws r hl h
  cases h
  exact ⟨hl, List.Sublist.refl _⟩

/-- The bounds for this run are less than `10⁻¹³`. -/
theorem two_bounds (acos : ℝ → ℝ) (c : Calibration)
    (h : (doubleArith acos).baselineCalibration twoSvd twoConfig (fun b w => .ok (b, w)) twoTurns twoTurns = .ok (some c)) :
    Spec.translationLength c.dq_H_E ≤ 1 / 100 ∧ c.singular_values[5]? = some (Real.sqrt 2) ∧
    0 ≤ 1.06 * (4 * (Spec.relativeError (2⁻¹ ^ 53) 0 0 0 + (2⁻¹ ^ 53 + 1.001 * 0) * (1 + 2 * 0 + Spec.relativeError (2⁻¹ ^ 53) 0 0 0)) *
      Real.sqrt (twoTurns.length : ℝ) / Real.sqrt 2) + 15 * 2⁻¹ ^ 53 + 2.1 * 2⁻¹ ^ 56 ∧
    1.06 * (4 * (Spec.relativeError (2⁻¹ ^ 53) 0 0 0 + (2⁻¹ ^ 53 + 1.001 * 0) * (1 + 2 * 0 + Spec.relativeError (2⁻¹ ^ 53) 0 0 0)) *
      Real.sqrt (twoTurns.length : ℝ) / Real.sqrt 2) + 15 * 2⁻¹ ^ 53 + 2.1 * 2⁻¹ ^ 56 ≤ 2.5e-14 := by
  have h2 : 1.4 ≤ Real.sqrt 2 := Real.le_sqrt_of_sq_le (by norm_num)
  have h3 : Real.sqrt (twoTurns.length : ℝ) ≤ 1.8 := Real.sqrt_le_iff.mpr ⟨by norm_num, by norm_num [twoTurns]⟩
  have h30 : 0 ≤ Real.sqrt (twoTurns.length : ℝ) := Real.sqrt_nonneg _
  have hη : Spec.relativeError (2⁻¹ ^ 53) 0 0 0 = 19 * 2⁻¹ ^ 53 := by norm_num [Spec.relativeError]
  have hr := Option.some.inj (Except.ok.inj ((two_run acos).symm.trans h))
  rw [hη]
  refine ⟨?_, by rw [← hr]; rfl, by positivity, ?_⟩
  · rw [← hr]
    simp only [Spec.translationLength]
    have : Real.sqrt (0 ^ 2 + 0 ^ 2 + 0 ^ 2 + (-2⁻¹ ^ 28) ^ 2) ≤ 1 / 200 := Real.sqrt_le_iff.mpr ⟨by norm_num, by norm_num⟩
    linarith
  · have : 4 * (19 * 2⁻¹ ^ 53 + (2⁻¹ ^ 53 + 1.001 * 0) * (1 + 2 * 0 + 19 * 2⁻¹ ^ 53)) * Real.sqrt (twoTurns.length : ℝ) / Real.sqrt 2 ≤
        4 * (21 * 2⁻¹ ^ 53) * 1.8 / 1.4 := by
      gcongr
      norm_num
    refine (add_le_add_left (add_le_add_left (mul_le_mul_of_nonneg_left this (by norm_num)) _) _).trans (by norm_num)

/-- The bound of the rotation for this run: the rotation is correct to better than `10⁻¹³`, in the sine of half the angle. -/
example (acos : ℝ → ℝ) (c : Calibration)
    (h : (doubleArith acos).baselineCalibration twoSvd twoConfig (fun b w => .ok (b, w)) twoTurns twoTurns = .ok (some c)) :
    1 - Spec.cosHalf c.dq_H_E.rot DQuat.identity.rot ^ 2 ≤ 1e-26 := by
  obtain ⟨ht, h5, hq0, hq⟩ := two_bounds acos c h
  have ht0 : 0 ≤ Spec.translationLength c.dq_H_E := by unfold Spec.translationLength; positivity
  refine (C116_rotation_partial (machine_double acos) 0 (2⁻¹ ^ 56) le_rfl (by positivity) (by norm_num) twoSvd twoSvd_near 0 0 0 le_rfl (by norm_num) le_rfl
    le_rfl DQuat.identity DQuat.identity turn_unit turn_unit twoTurns twoTurns _ two_recorded two_fits _ rfl two_turns twoConfig _ two_keeps c h (Real.sqrt 2)
    (by positivity) h5).2.trans ?_
  refine (mul_le_mul (pow_le_pow_left₀ hq0 hq 2) (show 1 + Spec.translationLength c.dq_H_E ^ 2 / 4 ≤ 2 by nlinarith) (by positivity) (by positivity)).trans
    (by norm_num)

/-- The bound of the motion for this run: points within 10 m of the camera are mapped correctly to better than a picometre. -/
example (acos : ℝ → ℝ) (c : Calibration)
    (h : (doubleArith acos).baselineCalibration twoSvd twoConfig (fun b w => .ok (b, w)) twoTurns twoTurns = .ok (some c))
    (p : Vec3) (hp : Spec.dist p ⟨0, 0, 0⟩ ≤ 10) : Spec.dist (Spec.motion c.dq_H_E p) (Spec.motion DQuat.identity p) ≤ 1e-12 := by
  obtain ⟨ht, h5, hq0, hq⟩ := two_bounds acos c h
  have ht0 : 0 ≤ Spec.translationLength c.dq_H_E := by unfold Spec.translationLength; positivity
  have hX : Spec.translationLength DQuat.identity = 0 := by norm_num [Spec.translationLength, DQuat.identity]
  have hs2 : Real.sqrt (1 + Spec.translationLength c.dq_H_E ^ 2 / 4) ≤ 1.1 := Real.sqrt_le_iff.mpr ⟨by norm_num, by nlinarith⟩
  have hρ := mul_le_mul hq hs2 (Real.sqrt_nonneg _) (by norm_num)
  refine (C116_motion_partial (machine_double acos) 0 (2⁻¹ ^ 56) le_rfl (by positivity) (by norm_num) twoSvd twoSvd_near 0 0 0 le_rfl (by norm_num) le_rfl
    le_rfl DQuat.identity DQuat.identity turn_unit turn_unit twoTurns twoTurns _ two_recorded two_fits _ rfl two_turns twoConfig _ two_keeps c h (Real.sqrt 2)
    (by positivity) h5 _ rfl (hρ.trans (by norm_num)) p).trans ?_
  rw [hX]
  have hp0 : 0 ≤ Spec.dist p ⟨0, 0, 0⟩ := Real.sqrt_nonneg _
  exact (mul_le_mul hρ (show _ ≤ (25 : ℝ) by linarith) (by positivity) (by norm_num)).trans (by norm_num)

/-- Without rounding: a configuration for which `C116_exact` speaks. -/
example : twoConfig.enable_exhaustive_search = false ∧ (baselineFilter twoConfig twoTurns twoTurns = .ok (twoTurns, twoTurns)) := by
  refine ⟨rfl, ?_⟩
  unfold baselineFilter
  rw [if_neg (by simp [twoConfig])]

end HandEye
