import Verif.Props.Quat1
import Mathlib.LinearAlgebra.Matrix.Adjugate
import Mathlib.Analysis.SpecialFunctions.Trigonometric.Bounds

/-! # Properties C05-C07 of `quaternion.py` -/

namespace HandEye

open Quaternion

/-! ## C05 Quaternion <-> rotation matrix -/

/-- C05: for every unit quaternion that is not a half turn, converting to a matrix and back succeeds
and gives `q` or `-q`, whichever has a positive scalar part. -/
theorem C05_quaternion_roundtrip (q : Quat) (h : q.norm = 1) (hw : q.w ≠ 0) :
    Quat.fromRotationMatrix q.toRotationMatrix = .ok (if 0 < q.w then q else -q) := by
  have h' := Quat.norm_eq_one.mp h
  simp only [Quat.dot] at h'
  have hr : 1 + q.toRotationMatrix 0 0 + q.toRotationMatrix 1 1 + q.toRotationMatrix 2 2
      = (2 * q.w) ^ 2 := by
    simp [Quat.toRotationMatrix]; linear_combination -4 * h'
  have hs : npSqrt (1 + q.toRotationMatrix 0 0 + q.toRotationMatrix 1 1 + q.toRotationMatrix 2 2)
      = .ok (2 * |q.w|) := by
    rw [hr, npSqrt_ok (sq_nonneg _), Real.sqrt_sq_eq_abs, abs_mul]; norm_num
  have hne : 4 * (2 * |q.w| / 2) ≠ 0 := by
    have := abs_pos.mpr hw
    have : 0 < 4 * (2 * |q.w| / 2) := by linarith
    exact ne_of_gt this
  simp only [Quat.fromRotationMatrix, hs, Py.ok_bind, npDiv_ok hne, Py.pure_eq]
  congr 1
  have hw' : |q.w| ≠ 0 := abs_ne_zero.mpr hw
  by_cases hp : 0 < q.w
  · rw [if_pos hp]
    rw [abs_of_pos hp] at hw' ⊢
    ext <;> simp [Quat.toRotationMatrix] <;> field_simp <;> ring
  · rw [if_neg hp]
    have hn : q.w < 0 := lt_of_le_of_ne (not_lt.mp hp) hw
    rw [abs_of_neg hn] at hw' ⊢
    ext <;> simp [Quat.toRotationMatrix] <;> field_simp <;> ring

/-- The relations between the entries of a proper rotation matrix used below. -/
theorem rotation_relations {R : Matrix (Fin 3) (Fin 3) ℝ}
    (hR : R ∈ Matrix.specialOrthogonalGroup (Fin 3) ℝ) :
    let t := 1 + R 0 0 + R 1 1 + R 2 2
    let x := R 2 1 - R 1 2
    let y := R 0 2 - R 2 0
    let z := R 1 0 - R 0 1
    2 * t * (1 - R 0 0) = y ^ 2 + z ^ 2 ∧ 2 * t * (1 - R 1 1) = x ^ 2 + z ^ 2 ∧
    2 * t * (1 - R 2 2) = x ^ 2 + y ^ 2 ∧ x * y = t * (R 1 0 + R 0 1) ∧
    x * z = t * (R 0 2 + R 2 0) ∧ y * z = t * (R 2 1 + R 1 2) ∧
    R 0 0 ≤ 1 ∧ R 1 1 ≤ 1 ∧ R 2 2 ≤ 1 := by
  simp only
  rw [Matrix.mem_specialOrthogonalGroup_iff, Matrix.mem_orthogonalGroup_iff] at hR
  obtain ⟨hO, hd⟩ := hR
  have hO' : R.transpose * R = 1 := by
    have : R * star R = 1 := hO
    exact mul_eq_one_comm.mp hO
  have hadj : R.adjugate = R.transpose := by
    have h1 : R * R.adjugate = 1 := by rw [Matrix.mul_adjugate, hd, one_smul]
    calc R.adjugate = (R.transpose * R) * R.adjugate := by rw [hO', one_mul]
      _ = R.transpose * (R * R.adjugate) := by rw [mul_assoc]
      _ = R.transpose := by rw [h1, mul_one]
  have e : ∀ i j, (R * R.transpose) i j = (1 : Matrix (Fin 3) (Fin 3) ℝ) i j := fun i j =>
    congrFun (congrFun hO i) j
  have e' : ∀ i j, (R.transpose * R) i j = (1 : Matrix (Fin 3) (Fin 3) ℝ) i j := fun i j =>
    congrFun (congrFun hO' i) j
  have c : ∀ i j, R.adjugate i j = R.transpose i j := fun i j => by rw [hadj]
  simp only [Matrix.mul_apply, Matrix.transpose_apply, Fin.sum_univ_three] at e e'
  rw [Matrix.adjugate_fin_three] at c
  have o1 := e 0 0
  have o2 := e 1 1
  have o3 := e 2 2
  have o4 := e 0 1
  have o5 := e 0 2
  have o6 := e 1 2
  have p1 := e' 0 0
  have p2 := e' 1 1
  have p3 := e' 2 2
  have p4 := e' 0 1
  have p5 := e' 0 2
  have p6 := e' 1 2
  have c1 := c 0 0
  have c2 := c 0 1
  have c3 := c 0 2
  have c4 := c 1 0
  have c5 := c 1 1
  have c6 := c 1 2
  have c7 := c 2 0
  have c8 := c 2 1
  have c9 := c 2 2
  simp at o1 o2 o3 o4 o5 o6 p1 p2 p3 p4 p5 p6 c1 c2 c3 c4 c5 c6 c7 c8 c9
  clear e e' c hadj hO hO' hd
  generalize R 0 0 = a at *
  generalize R 0 1 = b at *
  generalize R 0 2 = c at *
  generalize R 1 0 = d at *
  generalize R 1 1 = e at *
  generalize R 1 2 = f at *
  generalize R 2 0 = g at *
  generalize R 2 1 = h at *
  generalize R 2 2 = i at *
  refine ⟨?_, ?_, ?_, ?_, ?_, ?_, ?_, ?_, ?_⟩
  · grind
  · grind
  · grind
  · grind
  · grind
  · grind
  · nlinarith [sq_nonneg (a - 1), sq_nonneg b, sq_nonneg c]
  · nlinarith [sq_nonneg (e - 1), sq_nonneg d, sq_nonneg f]
  · nlinarith [sq_nonneg (i - 1), sq_nonneg g, sq_nonneg h]

/-- C05: for every proper rotation matrix that is not a half turn (trace ≠ -1), converting to a
quaternion succeeds, gives a unit quaternion, and converting back gives the same matrix. -/
theorem C05_matrix_roundtrip_partial (R : Matrix (Fin 3) (Fin 3) ℝ)
    (hR : R ∈ Matrix.specialOrthogonalGroup (Fin 3) ℝ) (ht : R.trace ≠ -1) :
    ∃ q, Quat.fromRotationMatrix R = .ok q ∧ q.norm = 1 ∧ 0 < q.w ∧ q.toRotationMatrix = R := by
  obtain ⟨h1, h2, h3, h4, h5, h6, l1, l2, l3⟩ := rotation_relations hR
  have htr : R.trace = R 0 0 + R 1 1 + R 2 2 := by
    simp [Matrix.trace, Fin.sum_univ_three]
  rw [htr] at ht
  set a := R 0 0
  set e := R 1 1
  set i := R 2 2
  have tne : 1 + a + e + i ≠ 0 := fun h0 => ht (by linarith)
  have tpos : 0 < 1 + a + e + i := by
    by_contra hneg
    have hneg : 1 + a + e + i < 0 := lt_of_le_of_ne (not_lt.mp hneg) tne
    have q1 : 2 * (1 + a + e + i) * (1 - a) ≥ 0 := by rw [h1]; positivity
    have q2 : 2 * (1 + a + e + i) * (1 - e) ≥ 0 := by rw [h2]; positivity
    have q3 : 2 * (1 + a + e + i) * (1 - i) ≥ 0 := by rw [h3]; positivity
    nlinarith
  have hs0 : npSqrt (1 + a + e + i) = .ok (Real.sqrt (1 + a + e + i)) := npSqrt_ok tpos.le
  have spos : 0 < Real.sqrt (1 + a + e + i) := Real.sqrt_pos.mpr tpos
  have ssq : Real.sqrt (1 + a + e + i) ^ 2 = 1 + a + e + i := Real.sq_sqrt tpos.le
  set s := Real.sqrt (1 + a + e + i) with hsdef
  have hne : 4 * (s / 2) ≠ 0 := by positivity
  refine ⟨⟨(R 2 1 - R 1 2) / (4 * (s / 2)), (R 0 2 - R 2 0) / (4 * (s / 2)),
    (R 1 0 - R 0 1) / (4 * (s / 2)), s / 2⟩, ?_, ?_, ?_, ?_⟩
  · simp only [Quat.fromRotationMatrix]
    change (do let r ← npSqrt (1 + a + e + i); _) = _
    rw [hs0]
    simp only [Py.ok_bind, npDiv_ok hne, Py.pure_eq]
  · rw [Quat.norm_eq_one]
    simp only [Quat.dot]
    have hss : s * s = 1 + a + e + i := by rw [← ssq]; ring
    field_simp
    ring_nf
    ring_nf at h1 h2 h3 ssq
    nlinarith
  · simp only; positivity
  · have hs' : s ≠ 0 := ne_of_gt spos
    have hss : s ^ 2 = 1 + a + e + i := ssq
    have hsi : (s ^ 2)⁻¹ * (1 + a + e + i) = 1 := by rw [hss]; exact inv_mul_cancel₀ tne
    ext m n
    fin_cases m <;> fin_cases n <;> simp [Quat.toRotationMatrix] <;> field_simp
    · change _ = 4 ^ 2 * s ^ 2 * a
      rw [hss]; linear_combination 8 * h1
    · rw [hss]; linear_combination 8 * h4
    · rw [hss]; linear_combination 8 * h5
    · rw [hss]; linear_combination 8 * h4
    · change _ = 4 ^ 2 * s ^ 2 * e
      rw [hss]; linear_combination 8 * h2
    · rw [hss]; linear_combination 8 * h6
    · rw [hss]; linear_combination 8 * h5
    · rw [hss]; linear_combination 8 * h6
    · change _ = 4 ^ 2 * s ^ 2 * i
      rw [hss]; linear_combination 8 * h3

/-- C05 refuted for half turns: on *every* proper rotation matrix of trace -1, and hence for every unit
quaternion with zero scalar part, `from_rotation_matrix` has no finite result. -/
theorem C05_halfturn_refuted (R : Matrix (Fin 3) (Fin 3) ℝ) (ht : R.trace = -1) :
    Quat.fromRotationMatrix R = .error .nonFinite := by
  have htr : R.trace = R 0 0 + R 1 1 + R 2 2 := by
    simp [Matrix.trace, Fin.sum_univ_three]
  have h0 : 1 + R 0 0 + R 1 1 + R 2 2 = 0 := by linarith
  simp [Quat.fromRotationMatrix, h0, npSqrt_ok (le_refl (0 : ℝ)), npDiv_zero]

/-- The refuted case is about real rotations: half turns about any axis have trace -1. -/
theorem C05_halfturn_quaternion_refuted (q : Quat) (h : q.norm = 1) (hw : q.w = 0) :
    Quat.fromRotationMatrix q.toRotationMatrix = .error .nonFinite := by
  have h' := Quat.norm_eq_one.mp h
  simp only [Quat.dot, hw] at h'
  apply C05_halfturn_refuted
  simp [Matrix.trace, Fin.sum_univ_three, Quat.toRotationMatrix]
  linear_combination -4 * h'

/-- Non-triviality: the matrix of (1,1,1,1)/2 has trace 0, that of (1,0,0,0) is a half turn. -/
example : (⟨1/2, 1/2, 1/2, 1/2⟩ : Quat).norm = 1 ∧ (⟨1/2, 1/2, 1/2, 1/2⟩ : Quat).w ≠ 0 ∧
    (⟨1/2, 1/2, 1/2, 1/2⟩ : Quat).toRotationMatrix.trace ≠ -1 ∧
    (⟨1, 0, 0, 0⟩ : Quat).norm = 1 := by
  refine ⟨Quat.norm_eq_one.mpr (by norm_num [Quat.dot]), by norm_num, ?_,
    Quat.norm_eq_one.mpr (by norm_num [Quat.dot])⟩
  simp [Matrix.trace, Fin.sum_univ_three, Quat.toRotationMatrix]; norm_num

end HandEye
