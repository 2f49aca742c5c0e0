import Verif.Lemmas.Quat
import Verif.Lemmas.Py
import Verif.Spec.Rotation
import Mathlib.LinearAlgebra.UnitaryGroup
import Mathlib.LinearAlgebra.Matrix.Determinant.Basic
import Mathlib.Tactic.FinCases

/-! # Properties C01-C06 of `quaternion.py` -/

namespace HandEye

open Quaternion

/-! ## C01 Quaternion arithmetic is Hamilton's algebra -/

/-- C01: sum, negation, difference, product, scalar product and conjugate computed by the code are
those of Mathlib's real quaternions, and the norm is the square root of the sum of squares. -/
theorem C01_agrees_with_hamilton (p q : Quat) (s : ℝ) :
    (p + q).toH = p.toH + q.toH ∧ (-q).toH = -q.toH ∧ (p - q).toH = p.toH - q.toH ∧
    (p * q).toH = p.toH * q.toH ∧ (s • q).toH = s • q.toH ∧ q.conj.toH = star q.toH ∧
    q.norm = ‖q.toH‖ ∧ q.squaredNorm = normSq q.toH := by
  refine ⟨Quat.toH_add p q, Quat.toH_neg q, Quat.toH_sub p q, Quat.toH_mul p q, Quat.toH_smul s q,
    Quat.toH_conj q, ?_, ?_⟩
  · rw [Quat.norm, ← Real.sqrt_mul_self (_root_.norm_nonneg q.toH), ← Quaternion.normSq_eq_norm_mul_self,
      Quaternion.normSq_def']
    congr 1
    simp only [Quat.dot, Quat.toH_re, Quat.toH_imI, Quat.toH_imJ, Quat.toH_imK]
    ring
  · rw [Quaternion.normSq_def']
    simp only [Quat.squaredNorm, Quat.dot, Quat.toH_re, Quat.toH_imI, Quat.toH_imJ, Quat.toH_imK]
    ring

/-- C01: the laws of the property, stated for the code's own operations. -/
theorem C01_laws (p q r : Quat) :
    (p * q) * r = p * (q * r) ∧ p * (q + r) = p * q + p * r ∧ (p + q) * r = p * r + q * r ∧
    p * ⟨0, 0, 0, 1⟩ = p ∧ (⟨0, 0, 0, 1⟩ : Quat) * p = p ∧
    (p * q).conj = q.conj * p.conj ∧ (p * q).norm = p.norm * q.norm :=
  ⟨mul_assoc p q r, mul_add p q r, add_mul p q r, mul_one p, one_mul p, Quat.conj_mul_rev p q,
    Quat.norm_mul p q⟩

/-- Non-triviality: `i * j = k` and `j * i = -k`. -/
example : (⟨1, 0, 0, 0⟩ : Quat) * ⟨0, 1, 0, 0⟩ = ⟨0, 0, 1, 0⟩ ∧
    (⟨0, 1, 0, 0⟩ : Quat) * ⟨1, 0, 0, 0⟩ = ⟨0, 0, -1, 0⟩ := by
  constructor <;> ext <;> norm_num

/-! ## C02 Inverse and division -/

/-- C02: for every non-zero quaternion, `inverse` succeeds and is a two-sided inverse. -/
theorem C02_inverse (q : Quat) (h : q ≠ ⟨0, 0, 0, 0⟩) :
    ∃ i, q.inverse = .ok i ∧ q * i = ⟨0, 0, 0, 1⟩ ∧ i * q = ⟨0, 0, 0, 1⟩ := by
  have h' : q.dot q ≠ 0 := fun h0 => h (Quat.dot_self_eq_zero.mp h0)
  exact ⟨q.inv', Quat.inverse_ok h', Quat.mul_inv' h', Quat.inv'_mul h'⟩

/-- C02: the zero quaternion has no finite inverse. -/
theorem C02_inverse_zero : Quat.inverse ⟨0, 0, 0, 0⟩ = .error .nonFinite :=
  Quat.inverse_error (by simp [Quat.dot])

/-- C02: `p / q` succeeds iff `q` is non-zero, and then multiplying by `q` undoes it. -/
theorem C02_division (p q : Quat) :
    (q ≠ ⟨0, 0, 0, 0⟩ → ∃ d, p.divQuat q = .ok d ∧ d * q = p) ∧
    (q = ⟨0, 0, 0, 0⟩ → p.divQuat q = .error .nonFinite) := by
  constructor
  · intro h
    obtain ⟨i, hi, _, h2⟩ := C02_inverse q h
    refine ⟨p * i, by simp [Quat.divQuat, hi], ?_⟩
    rw [mul_assoc, h2]
    exact mul_one p
  · rintro rfl
    simp [Quat.divQuat, C02_inverse_zero]

/-- C02: dividing by a non-zero scalar undoes multiplying by it; a zero scalar gives no finite result. -/
theorem C02_scalar_division (q : Quat) (s : ℝ) :
    (s ≠ 0 → (s • q).divScalar s = .ok q) ∧ (s = 0 → q.divScalar s = .error .nonFinite) := by
  constructor
  · intro h
    rw [Quat.divScalar_ok h, smul_smul, one_div_mul_cancel h, one_smul]
  · rintro rfl; exact Quat.divScalar_error q

/-- Non-triviality: a non-unit quaternion and its inverse. -/
example : Quat.inverse ⟨1, 1, 1, 1⟩ = .ok ⟨-1 / 4, -1 / 4, -1 / 4, 1 / 4⟩ := by
  rw [Quat.inverse_ok (by norm_num [Quat.dot])]
  congr 1
  ext <;> norm_num [Quat.inv', Quat.dot]

/-! ## C03 rotate_vector -/

/-- C03: for every quaternion (unit or not) `rotate_vector` is the product with the rotation matrix. -/
theorem C03_matrix (q : Quat) (v : Vec3) :
    (q.rotateVector v).toFin = q.toRotationMatrix.mulVec v.toFin := by
  funext i
  fin_cases i <;>
    simp [Vec3.toFin, Quat.rotateVector, Quat.toRotationMatrix, Matrix.mulVec, dotProduct,
      Fin.sum_univ_three] <;> ring

/-- C03: for a unit quaternion, `rotate_vector` is the sandwich product `q v q*` of Mathlib's quaternions. -/
theorem C03_sandwich (q : Quat) (v : Vec3) (h : q.norm = 1) :
    (q.rotateVector v).toH = q.toH * v.toH * star q.toH := by
  have h' := Quat.norm_eq_one.mp h
  simp only [Quat.dot] at h'
  ext
  · simp; ring
  · simp [Quat.rotateVector]; linear_combination -v.x * h'
  · simp [Quat.rotateVector]; linear_combination -v.y * h'
  · simp [Quat.rotateVector]; linear_combination -v.z * h'

/-- C03: rotations preserve inner products (hence lengths and distances). -/
theorem C03_isometry (q : Quat) (u v : Vec3) (h : q.norm = 1) :
    (q.rotateVector u).dot (q.rotateVector v) = u.dot v ∧ (q.rotateVector v).norm = v.norm := by
  have h' := Quat.norm_eq_one.mp h
  have key : ∀ u v : Vec3, (q.rotateVector u).dot (q.rotateVector v) = u.dot v := by
    intro u v
    simp only [Quat.dot] at h'
    have hw : q.w ^ 2 = 1 - q.x ^ 2 - q.y ^ 2 - q.z ^ 2 := by linear_combination h'
    simp only [Vec3.dot, Quat.rotateVector]
    ring_nf
    simp only [hw]
    ring
  exact ⟨key u v, by rw [Vec3.norm, key, Vec3.norm]⟩

/-- C03: rotating by `p * q` is rotating by `q` and then by `p`. -/
theorem C03_composition (p q : Quat) (v : Vec3) (hp : p.norm = 1) (hq : q.norm = 1) :
    (p * q).rotateVector v = p.rotateVector (q.rotateVector v) := by
  have hpq : (p * q).norm = 1 := by rw [Quat.norm_mul, hp, hq, mul_one]
  have h1 := C03_sandwich (p * q) v hpq
  have h2 := C03_sandwich p (q.rotateVector v) hp
  rw [C03_sandwich q v hq] at h2
  have : ((p * q).rotateVector v).toH = (p.rotateVector (q.rotateVector v)).toH := by
    rw [h1, h2, Quat.toH_mul, star_mul]
    simp only [mul_assoc]
  have e1 := congrArg (fun a : ℍ[ℝ] => a.imI) this
  have e2 := congrArg (fun a : ℍ[ℝ] => a.imJ) this
  have e3 := congrArg (fun a : ℍ[ℝ] => a.imK) this
  exact Vec3.ext e1 e2 e3

/-- Non-triviality: a quarter turn about z maps the x axis to the y axis. -/
example : (⟨0, 0, Real.sqrt 2 / 2, Real.sqrt 2 / 2⟩ : Quat).norm = 1 ∧
    (⟨0, 0, Real.sqrt 2 / 2, Real.sqrt 2 / 2⟩ : Quat).rotateVector ⟨1, 0, 0⟩ = ⟨0, 1, 0⟩ := by
  have h := Real.sq_sqrt (show (0 : ℝ) ≤ 2 by norm_num)
  refine ⟨Quat.norm_eq_one.mpr ?_, ?_⟩
  · simp only [Quat.dot]; linear_combination h / 2
  · ext <;> simp [Quat.rotateVector]
    · linear_combination -h / 2
    · linear_combination h / 2

/-! ## C04 to_rotation_matrix -/

/-- C04: for a unit quaternion the matrix is a proper rotation (orthogonal, determinant one). -/
theorem C04_special_orthogonal (q : Quat) (h : q.norm = 1) :
    q.toRotationMatrix ∈ Matrix.specialOrthogonalGroup (Fin 3) ℝ := by
  have h' := Quat.norm_eq_one.mp h
  simp only [Quat.dot] at h'
  have hw : q.w ^ 2 = 1 - q.x ^ 2 - q.y ^ 2 - q.z ^ 2 := by linear_combination h'
  have hw4 : q.w ^ 4 = (1 - q.x ^ 2 - q.y ^ 2 - q.z ^ 2) ^ 2 := by rw [← hw]; ring
  rw [Matrix.mem_specialOrthogonalGroup_iff, Matrix.mem_orthogonalGroup_iff]
  constructor
  · ext i j
    fin_cases i <;> fin_cases j <;>
      simp [Quat.toRotationMatrix, Matrix.mul_apply, Fin.sum_univ_three] <;>
      ring_nf <;> simp only [hw] <;> ring
  · rw [Matrix.det_fin_three]
    simp [Quat.toRotationMatrix]
    ring_nf
    simp only [hw]
    ring

/-- C04: products, conjugates and signs. -/
theorem C04_homomorphism (p q : Quat) (hp : p.norm = 1) (hq : q.norm = 1) :
    (p * q).toRotationMatrix = p.toRotationMatrix * q.toRotationMatrix ∧
    q.conj.toRotationMatrix = q.toRotationMatrix.transpose ∧
    (-q).toRotationMatrix = q.toRotationMatrix ∧
    (⟨0, 0, 0, 1⟩ : Quat).toRotationMatrix = 1 := by
  refine ⟨?_, ?_, ?_, ?_⟩
  · have key : ∀ v : Vec3, (p * q).toRotationMatrix.mulVec v.toFin =
        (p.toRotationMatrix * q.toRotationMatrix).mulVec v.toFin := by
      intro v
      rw [← C03_matrix, C03_composition p q v hp hq, C03_matrix, C03_matrix, Matrix.mulVec_mulVec]
    apply Matrix.mulVec_injective
    funext v
    have := key ⟨v 0, v 1, v 2⟩
    have hv : (⟨v 0, v 1, v 2⟩ : Vec3).toFin = v := by
      funext i; fin_cases i <;> rfl
    rwa [hv] at this
  · ext i j
    fin_cases i <;> fin_cases j <;> simp [Quat.toRotationMatrix, Matrix.transpose_apply] <;> ring
  · ext i j
    fin_cases i <;> fin_cases j <;> simp [Quat.toRotationMatrix]
  · ext i j
    fin_cases i <;> fin_cases j <;> simp [Quat.toRotationMatrix]

/-- C04: the 4x4 variant has the same upper-left block and is otherwise the identity. -/
theorem C04_transformation_matrix (q : Quat) (i j : Fin 3) :
    q.toTransformationMatrix i.castSucc j.castSucc = q.toRotationMatrix i j ∧
    q.toTransformationMatrix i.castSucc 3 = 0 ∧ q.toTransformationMatrix 3 j.castSucc = 0 ∧
    q.toTransformationMatrix 3 3 = 1 := by
  fin_cases i <;> fin_cases j <;> simp [Quat.toTransformationMatrix, Fin.castSucc, Fin.castAdd]

/-- Non-triviality: the unit quaternion (1,1,1,1)/2 permutes the coordinate axes cyclically. -/
example : (⟨1/2, 1/2, 1/2, 1/2⟩ : Quat).norm = 1 ∧
    (⟨1/2, 1/2, 1/2, 1/2⟩ : Quat).toRotationMatrix = !![0, 0, 1; 1, 0, 0; 0, 1, 0] := by
  refine ⟨Quat.norm_eq_one.mpr (by norm_num [Quat.dot]), ?_⟩
  ext i j
  fin_cases i <;> fin_cases j <;> simp [Quat.toRotationMatrix] <;> norm_num

end HandEye
