import Verif.Spec.Interp
import Mathlib.Tactic.LinearCombination
import Mathlib.Tactic.Linarith
import Mathlib.Tactic.FieldSimp
import Mathlib.Tactic.NoncommRing

/-! # Lemmas about the quaternion model -/

namespace HandEye

open Quaternion

@[simp] theorem Vec3.toH_re (v : Vec3) : v.toH.re = 0 := rfl
@[simp] theorem Vec3.toH_imI (v : Vec3) : v.toH.imI = v.x := rfl
@[simp] theorem Vec3.toH_imJ (v : Vec3) : v.toH.imJ = v.y := rfl
@[simp] theorem Vec3.toH_imK (v : Vec3) : v.toH.imK = v.z := rfl

namespace Vec3

@[simp] theorem add_x (u v : Vec3) : (u + v).x = u.x + v.x := rfl
@[simp] theorem add_y (u v : Vec3) : (u + v).y = u.y + v.y := rfl
@[simp] theorem add_z (u v : Vec3) : (u + v).z = u.z + v.z := rfl
@[simp] theorem sub_x (u v : Vec3) : (u - v).x = u.x - v.x := rfl
@[simp] theorem sub_y (u v : Vec3) : (u - v).y = u.y - v.y := rfl
@[simp] theorem sub_z (u v : Vec3) : (u - v).z = u.z - v.z := rfl
@[simp] theorem smul_x (s : ℝ) (u : Vec3) : (s • u).x = s * u.x := rfl
@[simp] theorem smul_y (s : ℝ) (u : Vec3) : (s • u).y = s * u.y := rfl
@[simp] theorem smul_z (s : ℝ) (u : Vec3) : (s • u).z = s * u.z := rfl
@[simp] theorem zero_x : (0 : Vec3).x = 0 := rfl
@[simp] theorem zero_y : (0 : Vec3).y = 0 := rfl
@[simp] theorem zero_z : (0 : Vec3).z = 0 := rfl

theorem dot_self_nonneg (v : Vec3) : 0 ≤ v.dot v := by
  simp only [dot]; nlinarith [sq_nonneg v.x, sq_nonneg v.y, sq_nonneg v.z]

theorem dot_self_eq_zero {v : Vec3} : v.dot v = 0 ↔ v = ⟨0, 0, 0⟩ := by
  constructor
  · intro h
    simp only [dot] at h
    have hx : v.x = 0 := by nlinarith [sq_nonneg v.x, sq_nonneg v.y, sq_nonneg v.z]
    have hy : v.y = 0 := by nlinarith [sq_nonneg v.x, sq_nonneg v.y, sq_nonneg v.z]
    have hz : v.z = 0 := by nlinarith [sq_nonneg v.x, sq_nonneg v.y, sq_nonneg v.z]
    exact Vec3.ext hx hy hz
  · rintro rfl; simp [dot]

theorem norm_nonneg (v : Vec3) : 0 ≤ v.norm := Real.sqrt_nonneg _

theorem norm_mul_self (v : Vec3) : v.norm * v.norm = v.dot v :=
  Real.mul_self_sqrt v.dot_self_nonneg

theorem norm_eq_one {v : Vec3} : v.norm = 1 ↔ v.dot v = 1 := by
  rw [norm, Real.sqrt_eq_one]

theorem norm_eq_zero {v : Vec3} : v.norm = 0 ↔ v = ⟨0, 0, 0⟩ := by
  rw [norm, Real.sqrt_eq_zero v.dot_self_nonneg, dot_self_eq_zero]

theorem norm_smul (s : ℝ) (v : Vec3) : (s • v).norm = |s| * v.norm := by
  have : (s • v).dot (s • v) = (s * s) * v.dot v := by simp [dot]; ring
  rw [norm, this, Real.sqrt_mul (mul_self_nonneg s), Real.sqrt_mul_self_eq_abs]
  rfl

end Vec3

namespace Quat

@[simp] theorem add_x (p q : Quat) : (p + q).x = p.x + q.x := rfl
@[simp] theorem add_y (p q : Quat) : (p + q).y = p.y + q.y := rfl
@[simp] theorem add_z (p q : Quat) : (p + q).z = p.z + q.z := rfl
@[simp] theorem add_w (p q : Quat) : (p + q).w = p.w + q.w := rfl
@[simp] theorem sub_x (p q : Quat) : (p - q).x = p.x - q.x := rfl
@[simp] theorem sub_y (p q : Quat) : (p - q).y = p.y - q.y := rfl
@[simp] theorem sub_z (p q : Quat) : (p - q).z = p.z - q.z := rfl
@[simp] theorem sub_w (p q : Quat) : (p - q).w = p.w - q.w := rfl
@[simp] theorem neg_x (q : Quat) : (-q).x = -q.x := rfl
@[simp] theorem neg_y (q : Quat) : (-q).y = -q.y := rfl
@[simp] theorem neg_z (q : Quat) : (-q).z = -q.z := rfl
@[simp] theorem neg_w (q : Quat) : (-q).w = -q.w := rfl
@[simp] theorem smul_x (s : ℝ) (q : Quat) : (s • q).x = s * q.x := rfl
@[simp] theorem smul_y (s : ℝ) (q : Quat) : (s • q).y = s * q.y := rfl
@[simp] theorem smul_z (s : ℝ) (q : Quat) : (s • q).z = s * q.z := rfl
@[simp] theorem smul_w (s : ℝ) (q : Quat) : (s • q).w = s * q.w := rfl
@[simp] theorem mul_x (p q : Quat) :
    (p * q).x = p.w * q.x + p.x * q.w + p.y * q.z - p.z * q.y := rfl
@[simp] theorem mul_y (p q : Quat) :
    (p * q).y = p.w * q.y - p.x * q.z + p.y * q.w + p.z * q.x := rfl
@[simp] theorem mul_z (p q : Quat) :
    (p * q).z = p.w * q.z + p.x * q.y - p.y * q.x + p.z * q.w := rfl
@[simp] theorem mul_w (p q : Quat) :
    (p * q).w = p.w * q.w - p.x * q.x - p.y * q.y - p.z * q.z := rfl
@[simp] theorem conj_x (q : Quat) : q.conj.x = -q.x := rfl
@[simp] theorem conj_y (q : Quat) : q.conj.y = -q.y := rfl
@[simp] theorem conj_z (q : Quat) : q.conj.z = -q.z := rfl
@[simp] theorem conj_w (q : Quat) : q.conj.w = q.w := rfl

@[simp] theorem toH_re (q : Quat) : q.toH.re = q.w := rfl
@[simp] theorem toH_imI (q : Quat) : q.toH.imI = q.x := rfl
@[simp] theorem toH_imJ (q : Quat) : q.toH.imJ = q.y := rfl
@[simp] theorem toH_imK (q : Quat) : q.toH.imK = q.z := rfl

theorem toH_injective : Function.Injective Quat.toH := by
  intro p q h
  have h1 := congrArg (fun a : ℍ[ℝ] => a.re) h
  have h2 := congrArg (fun a : ℍ[ℝ] => a.imI) h
  have h3 := congrArg (fun a : ℍ[ℝ] => a.imJ) h
  have h4 := congrArg (fun a : ℍ[ℝ] => a.imK) h
  exact Quat.ext h2 h3 h4 h1

theorem toH_add (p q : Quat) : (p + q).toH = p.toH + q.toH := by
  ext <;> simp

theorem toH_neg (q : Quat) : (-q).toH = -q.toH := by
  ext <;> simp

theorem toH_sub (p q : Quat) : (p - q).toH = p.toH - q.toH := by
  ext <;> simp

theorem toH_smul (s : ℝ) (q : Quat) : (s • q).toH = s • q.toH := by
  ext <;> simp

theorem toH_mul (p q : Quat) : (p * q).toH = p.toH * q.toH := by
  ext <;> simp

theorem toH_conj (q : Quat) : q.conj.toH = star q.toH := by
  ext <;> simp

instance : Zero Quat := ⟨⟨0, 0, 0, 0⟩⟩
instance : One Quat := ⟨⟨0, 0, 0, 1⟩⟩
instance : SMul ℕ Quat := ⟨fun n q => ⟨n * q.x, n * q.y, n * q.z, n * q.w⟩⟩
instance : SMul ℤ Quat := ⟨fun n q => ⟨n * q.x, n * q.y, n * q.z, n * q.w⟩⟩
instance : NatCast Quat := ⟨fun n => ⟨0, 0, 0, n⟩⟩
instance : IntCast Quat := ⟨fun n => ⟨0, 0, 0, n⟩⟩
instance : Pow Quat ℕ := ⟨fun q n => npowRec n q⟩

@[simp] theorem zero_x : (0 : Quat).x = 0 := rfl
@[simp] theorem zero_y : (0 : Quat).y = 0 := rfl
@[simp] theorem zero_z : (0 : Quat).z = 0 := rfl
@[simp] theorem zero_w : (0 : Quat).w = 0 := rfl
@[simp] theorem one_x : (1 : Quat).x = 0 := rfl
@[simp] theorem one_y : (1 : Quat).y = 0 := rfl
@[simp] theorem one_z : (1 : Quat).z = 0 := rfl
@[simp] theorem one_w : (1 : Quat).w = 1 := rfl

@[simp] theorem nsmul_x (n : ℕ) (q : Quat) : (n • q).x = n * q.x := rfl
@[simp] theorem nsmul_y (n : ℕ) (q : Quat) : (n • q).y = n * q.y := rfl
@[simp] theorem nsmul_z (n : ℕ) (q : Quat) : (n • q).z = n * q.z := rfl
@[simp] theorem nsmul_w (n : ℕ) (q : Quat) : (n • q).w = n * q.w := rfl
@[simp] theorem zsmul_x (n : ℤ) (q : Quat) : (n • q).x = n * q.x := rfl
@[simp] theorem zsmul_y (n : ℤ) (q : Quat) : (n • q).y = n * q.y := rfl
@[simp] theorem zsmul_z (n : ℤ) (q : Quat) : (n • q).z = n * q.z := rfl
@[simp] theorem zsmul_w (n : ℤ) (q : Quat) : (n • q).w = n * q.w := rfl
@[simp] theorem natCast_x (n : ℕ) : (n : Quat).x = 0 := rfl
@[simp] theorem natCast_y (n : ℕ) : (n : Quat).y = 0 := rfl
@[simp] theorem natCast_z (n : ℕ) : (n : Quat).z = 0 := rfl
@[simp] theorem natCast_w (n : ℕ) : (n : Quat).w = n := rfl
@[simp] theorem intCast_x (n : ℤ) : (n : Quat).x = 0 := rfl
@[simp] theorem intCast_y (n : ℤ) : (n : Quat).y = 0 := rfl
@[simp] theorem intCast_z (n : ℤ) : (n : Quat).z = 0 := rfl
@[simp] theorem intCast_w (n : ℤ) : (n : Quat).w = n := rfl

theorem toH_zero : (0 : Quat).toH = 0 := by ext <;> simp
theorem toH_one : (1 : Quat).toH = 1 := by ext <;> simp

theorem toH_pow (q : Quat) (n : ℕ) : (q ^ n).toH = q.toH ^ n := by
  induction n with
  | zero => exact toH_one
  | succ n ih =>
    have : q ^ (n + 1) = q ^ n * q := rfl
    rw [this, toH_mul, ih, pow_succ]

instance : Ring Quat :=
  toH_injective.ring Quat.toH toH_zero toH_one toH_add toH_mul toH_neg toH_sub
    (fun n q => by ext <;> simp)
    (fun n q => by ext <;> simp)
    toH_pow
    (fun n => by ext <;> simp)
    (fun n => by ext <;> simp)

/-- `toH` as an additive homomorphism. -/
def toHAdd : Quat →+ ℍ[ℝ] where
  toFun := Quat.toH
  map_zero' := toH_zero
  map_add' := toH_add

noncomputable instance : Module ℝ Quat := toH_injective.module ℝ toHAdd toH_smul

theorem smul_mul (s : ℝ) (p q : Quat) : (s • p) * q = s • (p * q) := by
  ext <;> simp <;> ring

theorem mul_smul' (s : ℝ) (p q : Quat) : p * (s • q) = s • (p * q) := by
  ext <;> simp <;> ring

theorem dot_self_nonneg (q : Quat) : 0 ≤ q.dot q := by
  simp only [dot]; nlinarith [sq_nonneg q.x, sq_nonneg q.y, sq_nonneg q.z, sq_nonneg q.w]

theorem dot_self_eq_zero {q : Quat} : q.dot q = 0 ↔ q = 0 := by
  constructor
  · intro h
    simp only [dot] at h
    have hx : q.x = 0 := by nlinarith [sq_nonneg q.x, sq_nonneg q.y, sq_nonneg q.z, sq_nonneg q.w]
    have hy : q.y = 0 := by nlinarith [sq_nonneg q.x, sq_nonneg q.y, sq_nonneg q.z, sq_nonneg q.w]
    have hz : q.z = 0 := by nlinarith [sq_nonneg q.x, sq_nonneg q.y, sq_nonneg q.z, sq_nonneg q.w]
    have hw : q.w = 0 := by nlinarith [sq_nonneg q.x, sq_nonneg q.y, sq_nonneg q.z, sq_nonneg q.w]
    exact Quat.ext hx hy hz hw
  · rintro rfl; simp [dot]

theorem dot_comm (p q : Quat) : p.dot q = q.dot p := by simp only [dot]; ring

theorem dot_mul_mul (p q : Quat) : (p * q).dot (p * q) = p.dot p * q.dot q := by
  simp [dot]; ring

theorem dot_mul_left (r p q : Quat) : (r * p).dot (r * q) = r.dot r * p.dot q := by
  simp [dot]; ring

theorem dot_mul_right (r p q : Quat) : (p * r).dot (q * r) = r.dot r * p.dot q := by
  simp [dot]; ring

@[simp] theorem dot_conj_conj (p q : Quat) : p.conj.dot q.conj = p.dot q := by
  simp [dot]

@[simp] theorem dot_neg_neg (p q : Quat) : (-p).dot (-q) = p.dot q := by
  simp [dot]

@[simp] theorem neg_dot (p q : Quat) : (-p).dot q = -p.dot q := by
  simp [dot]; ring

@[simp] theorem dot_neg (p q : Quat) : p.dot (-q) = -p.dot q := by
  simp [dot]; ring

theorem smul_dot (s : ℝ) (p q : Quat) : (s • p).dot q = s * p.dot q := by
  simp [dot]; ring

theorem dot_smul (s : ℝ) (p q : Quat) : p.dot (s • q) = s * p.dot q := by
  simp [dot]; ring

theorem norm_nonneg (q : Quat) : 0 ≤ q.norm := Real.sqrt_nonneg _

theorem norm_sq (q : Quat) : q.norm ^ 2 = q.dot q := Real.sq_sqrt q.dot_self_nonneg

theorem norm_mul_self (q : Quat) : q.norm * q.norm = q.dot q :=
  Real.mul_self_sqrt q.dot_self_nonneg

theorem norm_eq_one {q : Quat} : q.norm = 1 ↔ q.dot q = 1 := by
  rw [norm, Real.sqrt_eq_one]

theorem norm_eq_zero {q : Quat} : q.norm = 0 ↔ q = 0 := by
  rw [norm, Real.sqrt_eq_zero q.dot_self_nonneg, dot_self_eq_zero]

theorem norm_mul (p q : Quat) : (p * q).norm = p.norm * q.norm := by
  rw [norm, dot_mul_mul, Real.sqrt_mul p.dot_self_nonneg]; rfl

@[simp] theorem norm_conj (q : Quat) : q.conj.norm = q.norm := by simp [norm]
@[simp] theorem norm_neg (q : Quat) : (-q).norm = q.norm := by simp [norm]

theorem norm_smul (s : ℝ) (q : Quat) : (s • q).norm = |s| * q.norm := by
  rw [norm, smul_dot, dot_smul, ← mul_assoc, Real.sqrt_mul (mul_self_nonneg s),
    Real.sqrt_mul_self_eq_abs]
  rfl

theorem mul_conj (q : Quat) : q * q.conj = q.dot q • 1 := by
  ext <;> simp [dot] <;> ring

theorem conj_mul (q : Quat) : q.conj * q = q.dot q • 1 := by
  ext <;> simp [dot] <;> ring

theorem conj_mul_rev (p q : Quat) : (p * q).conj = q.conj * p.conj := by
  ext <;> simp <;> ring

@[simp] theorem conj_conj (q : Quat) : q.conj.conj = q := by ext <;> simp

@[simp] theorem conj_neg (q : Quat) : (-q).conj = -q.conj := by ext <;> simp

@[simp] theorem conj_add (p q : Quat) : (p + q).conj = p.conj + q.conj := by
  ext <;> simp <;> ring

@[simp] theorem conj_smul (s : ℝ) (q : Quat) : (s • q).conj = s • q.conj := by ext <;> simp

@[simp] theorem conj_one : (1 : Quat).conj = 1 := by ext <;> simp

/-- The value of the inverse of a non-zero quaternion. -/
noncomputable def inv' (q : Quat) : Quat := (1 / q.dot q) • q.conj

theorem divScalar_ok {q : Quat} {s : ℝ} (h : s ≠ 0) : q.divScalar s = .ok ((1 / s) • q) := by
  simp only [divScalar, if_neg h]
  congr 1
  ext <;> simp [div_eq_inv_mul]

theorem divScalar_error (q : Quat) : q.divScalar 0 = .error .nonFinite := by simp [divScalar]

theorem inverse_ok {q : Quat} (h : q.dot q ≠ 0) : q.inverse = .ok q.inv' := by
  simp only [inverse, squaredNorm]; exact divScalar_ok h

theorem inverse_error {q : Quat} (h : q.dot q = 0) : q.inverse = .error .nonFinite := by
  simp only [inverse, squaredNorm, h]; exact divScalar_error _

theorem mul_inv' {q : Quat} (h : q.dot q ≠ 0) : q * q.inv' = 1 := by
  rw [inv', mul_smul', mul_conj, smul_smul, one_div_mul_cancel h, one_smul]

theorem inv'_mul {q : Quat} (h : q.dot q ≠ 0) : q.inv' * q = 1 := by
  rw [inv', smul_mul, conj_mul, smul_smul, one_div_mul_cancel h, one_smul]

theorem inv'_unit {q : Quat} (h : q.dot q = 1) : q.inv' = q.conj := by
  rw [inv', h]; simp

theorem inverse_unit {q : Quat} (h : q.dot q = 1) : q.inverse = .ok q.conj := by
  rw [inverse_ok (by rw [h]; exact one_ne_zero), inv'_unit h]

theorem mul_conj_unit {q : Quat} (h : q.dot q = 1) : q * q.conj = 1 := by
  rw [mul_conj, h, one_smul]

theorem conj_mul_unit {q : Quat} (h : q.dot q = 1) : q.conj * q = 1 := by
  rw [conj_mul, h, one_smul]

theorem norm_pos {q : Quat} (h : q.dot q ≠ 0) : 0 < q.norm :=
  Real.sqrt_pos.mpr (lt_of_le_of_ne q.dot_self_nonneg (Ne.symm h))

theorem normalize_of_gt {q : Quat} (h : q.norm > 1e-8) : q.normalize = (1 / q.norm) • q := by
  simp only [normalize, if_pos h]
  ext <;> simp [div_eq_inv_mul]

theorem normalize_of_le {q : Quat} (h : q.norm ≤ 1e-8) : q.normalize = q := by
  simp only [normalize, if_neg (not_lt.mpr h)]

theorem normalize_unit {q : Quat} (h : q.dot q = 1) : q.normalize = q := by
  have hn : q.norm = 1 := norm_eq_one.mpr h
  rw [normalize_of_gt (by rw [hn]; norm_num), hn]; simp

theorem normalize_dot_self {q : Quat} (h : q.norm > 1e-8) : q.normalize.dot q.normalize = 1 := by
  have h0 : q.norm ≠ 0 := ne_of_gt (lt_trans (by norm_num) h)
  rw [normalize_of_gt h, smul_dot, dot_smul, ← norm_mul_self]
  field_simp

end Quat

end HandEye
