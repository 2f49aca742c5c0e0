import Verif.Props.Quat2

/-! # Properties C06 and C07 of `quaternion.py` -/

namespace HandEye

open Quaternion

/-! ## C06 from_angle_axis -/

theorem fromAngleAxis_eq {angle : ℝ} {axis : Vec3} (h : axis.norm > 1e-16) :
    Quat.fromAngleAxis angle axis =
      ⟨Real.sin (angle / 2) * (axis.x / axis.norm), Real.sin (angle / 2) * (axis.y / axis.norm),
        Real.sin (angle / 2) * (axis.z / axis.norm), Real.cos (angle / 2)⟩ := by
  have hn : (⟨axis.x, axis.y, axis.z, 0⟩ : Quat).norm = axis.norm := by
    simp [Quat.norm, Quat.dot, Vec3.norm, Vec3.dot]
  simp only [Quat.fromAngleAxis, hn, if_pos h]
  ext <;> simp <;> ring

theorem direction_dot_self {v : Vec3} (h : v.norm ≠ 0) :
    v.x / v.norm * (v.x / v.norm) + v.y / v.norm * (v.y / v.norm) + v.z / v.norm * (v.z / v.norm)
      = 1 := by
  have := v.norm_mul_self
  simp only [Vec3.dot] at this
  field_simp
  linear_combination -this

/-- C06, for axes longer than the code's cut-off of 1e-16: `from_angle_axis` returns a unit
quaternion with scalar part `cos (angle/2)` that acts on every vector by Rodrigues' formula, so it
fixes the axis and turns by `angle` about it. -/
theorem C06_from_angle_axis_partial (angle : ℝ) (axis : Vec3) (h : axis.norm > 1e-16) :
    (Quat.fromAngleAxis angle axis).norm = 1 ∧
    (Quat.fromAngleAxis angle axis).w = Real.cos (angle / 2) ∧
    (Quat.fromAngleAxis angle axis).rotateVector axis = axis ∧
    ∀ v, (Quat.fromAngleAxis angle axis).rotateVector v =
      Spec.rodrigues angle (Spec.direction axis) v := by
  have h0 : axis.norm ≠ 0 := ne_of_gt (lt_trans (by norm_num) h)
  have hu := direction_dot_self h0
  have hsc := Real.sin_sq_add_cos_sq (angle / 2)
  rw [fromAngleAxis_eq h]
  refine ⟨?_, rfl, ?_, ?_⟩
  · rw [Quat.norm_eq_one]
    simp only [Quat.dot]
    linear_combination Real.sin (angle / 2) ^ 2 * hu + hsc
  · have ex : axis.x = axis.norm * (axis.x / axis.norm) := by field_simp
    have ey : axis.y = axis.norm * (axis.y / axis.norm) := by field_simp
    have ez : axis.z = axis.norm * (axis.z / axis.norm) := by field_simp
    ext <;> simp only [Quat.rotateVector]
    · rw [ex, ey, ez]
      simp only [← ex, ← ey, ← ez]
      ring
    · rw [ex, ey, ez]
      simp only [← ex, ← ey, ← ez]
      ring
    · rw [ex, ey, ez]
      simp only [← ex, ← ey, ← ez]
      ring
  · intro v
    have hc : Real.cos angle = 1 - 2 * Real.sin (angle / 2) ^ 2 := by
      have : angle = 2 * (angle / 2) := by ring
      conv_lhs => rw [this, Real.cos_two_mul]
      linear_combination 2 * hsc
    have hs : Real.sin angle = 2 * Real.sin (angle / 2) * Real.cos (angle / 2) := by
      have : angle = 2 * (angle / 2) := by ring
      conv_lhs => rw [this, Real.sin_two_mul]
    simp only [Spec.rodrigues, Spec.direction, hc, hs]
    have hd : ∀ t : ℝ, 1 / axis.norm * t = t / axis.norm := fun t => by ring
    ext <;> simp only [Quat.rotateVector, Vec3.add_x, Vec3.add_y, Vec3.add_z, Vec3.smul_x,
      Vec3.smul_y, Vec3.smul_z, Spec.cross, Vec3.dot, hd]
    · generalize axis.x / axis.norm = a at *
      generalize axis.y / axis.norm = b at *
      generalize axis.z / axis.norm = c at *
      linear_combination (-2 * Real.sin (angle / 2) ^ 2 * v.x) * hu
    · generalize axis.x / axis.norm = a at *
      generalize axis.y / axis.norm = b at *
      generalize axis.z / axis.norm = c at *
      linear_combination (-2 * Real.sin (angle / 2) ^ 2 * v.y) * hu
    · generalize axis.x / axis.norm = a at *
      generalize axis.y / axis.norm = b at *
      generalize axis.z / axis.norm = c at *
      linear_combination (-2 * Real.sin (angle / 2) ^ 2 * v.z) * hu

/-- C06 refuted without the cut-off: there is a non-zero axis for which the result is not a unit
quaternion. -/
theorem C06_short_axis_refuted :
    ∃ (angle : ℝ) (axis : Vec3), axis ≠ ⟨0, 0, 0⟩ ∧ (Quat.fromAngleAxis angle axis).norm ≠ 1 := by
  refine ⟨Real.pi, ⟨1e-17, 0, 0⟩, ?_, ?_⟩
  · intro h
    have := congrArg Vec3.x h
    norm_num at this
  · have hn : (⟨1e-17, 0, 0, 0⟩ : Quat).norm = 1e-17 := by
      have e : (⟨1e-17, 0, 0, 0⟩ : Quat).dot ⟨1e-17, 0, 0, 0⟩ = (1e-17 : ℝ) ^ 2 := by
        simp [Quat.dot]; ring
      rw [Quat.norm, e, Real.sqrt_sq (by norm_num)]
    have hq : Quat.fromAngleAxis Real.pi ⟨1e-17, 0, 0⟩ = ⟨1e-17, 0, 0, 0⟩ := by
      simp only [Quat.fromAngleAxis, hn, Real.cos_pi_div_two]
      rw [if_neg (by norm_num)]
    rw [hq, hn]
    norm_num

/-- Non-triviality: an axis of length 5. -/
example : (⟨3, 0, 4⟩ : Vec3).norm > 1e-16 := by
  have : (⟨3, 0, 4⟩ : Vec3).dot ⟨3, 0, 4⟩ = 5 ^ 2 := by norm_num [Vec3.dot]
  rw [Vec3.norm, this, Real.sqrt_sq (by norm_num)]; norm_num

/-! ## C07 angle_axis -/

/-- Scalar part of a unit quaternion lies in [-1, 1]. -/
theorem Quat.w_mem {q : Quat} (h : q.dot q = 1) : -1 ≤ q.w ∧ q.w ≤ 1 := by
  simp only [Quat.dot] at h
  constructor <;> nlinarith [sq_nonneg q.x, sq_nonneg q.y, sq_nonneg q.z, sq_nonneg q.w]

/-- C07, outside of the tolerance branch and away from the full turn `w = -1`: `angle_axis` returns a
unit axis and an angle in `(0, 2π)`, and `from_angle_axis` turns them back into the same quaternion. -/
theorem C07_roundtrip_partial (q : Quat) (h : q.norm = 1) (hw : q.w < 1 - (1e-12 + 1e-5))
    (hm : q.w ≠ -1) :
    ∃ axis angle, q.angleAxis = .ok (axis, angle) ∧ axis.norm = 1 ∧ 0 < angle ∧
      angle < 2 * Real.pi ∧ Quat.fromAngleAxis angle axis = q := by
  have h' := Quat.norm_eq_one.mp h
  obtain ⟨h1, h2⟩ := Quat.w_mem h'
  simp only [Quat.dot] at h'
  have hnot : ¬ npIsclose q.w 1 1e-12 := by
    simp only [npIsclose, not_le, abs_one]
    rw [abs_of_nonpos (by linarith)]; linarith
  have hpos : 0 < 1 - q.w * q.w := by
    have : -1 < q.w := lt_of_le_of_ne h1 (Ne.symm hm)
    have h2 : q.w < 1 := by linarith
    nlinarith
  have hs : Real.sqrt (1 - q.w * q.w) ≠ 0 := ne_of_gt (Real.sqrt_pos.mpr hpos)
  have hss : Real.sqrt (1 - q.w * q.w) * Real.sqrt (1 - q.w * q.w) = 1 - q.w * q.w :=
    Real.mul_self_sqrt hpos.le
  have hn : (⟨q.x / Real.sqrt (1 - q.w * q.w), q.y / Real.sqrt (1 - q.w * q.w),
      q.z / Real.sqrt (1 - q.w * q.w)⟩ : Vec3).norm = 1 := by
    rw [Vec3.norm_eq_one]
    simp only [Vec3.dot]
    generalize Real.sqrt (1 - q.w * q.w) = s at *
    field_simp
    linear_combination h' - hss
  refine ⟨⟨q.x / Real.sqrt (1 - q.w * q.w), q.y / Real.sqrt (1 - q.w * q.w),
    q.z / Real.sqrt (1 - q.w * q.w)⟩, 2 * Real.arccos q.w, ?_, hn, ?_, ?_, ?_⟩
  · simp only [Quat.angleAxis, if_neg hnot, npArccos_ok h1 h2, npSqrt_ok hpos.le, Py.ok_bind,
      npDiv_ok hs, Py.pure_eq]
  · have := Real.arccos_pos.mpr (show q.w < 1 by linarith)
    linarith
  · have : Real.arccos q.w < Real.pi :=
      lt_of_le_of_ne (Real.arccos_le_pi _) (fun he => hm (le_antisymm (Real.arccos_eq_pi.mp he) h1))
    linarith
  · rw [fromAngleAxis_eq (by rw [hn]; norm_num), hn]
    have hh : 2 * Real.arccos q.w / 2 = Real.arccos q.w := by ring
    simp only [hh, Real.sin_arccos, Real.cos_arccos h1 h2, div_one]
    have e : 1 - q.w ^ 2 = 1 - q.w * q.w := by ring
    rw [e]
    generalize Real.sqrt (1 - q.w * q.w) = s at *
    ext <;> simp only
    · field_simp
    · field_simp
    · field_simp

/-- C07, inside of the tolerance branch: the result is "no rotation", and the quaternion is within
about 0.5 degrees of the identity (its vector part has squared length at most 2.1e-5). -/
theorem C07_tolerance_branch (q : Quat) (h : q.norm = 1) (hw : 1 - (1e-12 + 1e-5) ≤ q.w) :
    q.angleAxis = .ok (⟨1, 0, 0⟩, 0) ∧ q.x ^ 2 + q.y ^ 2 + q.z ^ 2 ≤ 2.1e-5 := by
  have h' := Quat.norm_eq_one.mp h
  obtain ⟨h1, h2⟩ := Quat.w_mem h'
  simp only [Quat.dot] at h'
  constructor
  · have : npIsclose q.w 1 1e-12 := by
      simp only [npIsclose, abs_one]
      rw [abs_of_nonpos (by linarith)]; linarith
    simp only [Quat.angleAxis, if_pos this]
  · nlinarith

/-- C07 refuted: every rotation by an angle of at most 0.0089 rad (0.51 degrees), about any unit axis,
is reported as no rotation at all, although the quaternion is not the identity. -/
theorem C07_small_rotations_refuted (angle : ℝ) (axis : Vec3) (hn : axis.norm = 1)
    (ha : 0 < angle) (ha' : angle ≤ 0.0089) :
    (Quat.fromAngleAxis angle axis).angleAxis = .ok (⟨1, 0, 0⟩, 0) ∧
    Quat.fromAngleAxis 0 ⟨1, 0, 0⟩ ≠ Quat.fromAngleAxis angle axis := by
  have hgt : axis.norm > 1e-16 := by rw [hn]; norm_num
  obtain ⟨hu, hw, -, -⟩ := C06_from_angle_axis_partial angle axis hgt
  have hc : 1 - (angle / 2) ^ 2 / 2 ≤ Real.cos (angle / 2) := Real.one_sub_sq_div_two_le_cos
  have hle : 1 - (1e-12 + 1e-5) ≤ Real.cos (angle / 2) := by
    have : (angle / 2) ^ 2 ≤ (0.0089 / 2) ^ 2 := by
      apply pow_le_pow_left₀ <;> linarith
    norm_num at this ⊢
    linarith
  refine ⟨(C07_tolerance_branch _ hu (by rw [hw]; exact hle)).1, ?_⟩
  intro he
  have := congrArg Quat.w he
  rw [hw] at this
  simp only [Quat.fromAngleAxis, zero_div, Real.cos_zero] at this
  have hlt : Real.cos (angle / 2) < 1 := by
    rw [← Real.cos_zero]
    exact Real.cos_lt_cos_of_nonneg_of_le_pi_div_two le_rfl
      (by have := Real.one_le_pi_div_two; linarith) (by linarith)
  linarith

/-- C07 refuted at the full turn: the quaternion -1 (the identity rotation) has no finite angle/axis. -/
theorem C07_full_turn_refuted : Quat.angleAxis ⟨0, 0, 0, -1⟩ = .error .nonFinite := by
  have hnot : ¬ npIsclose (-1 : ℝ) 1 1e-12 := by
    simp only [npIsclose, not_le, abs_one]
    rw [abs_of_nonpos (by norm_num)]; norm_num
  simp only [Quat.angleAxis, if_neg hnot, npArccos_ok le_rfl (by norm_num : (-1 : ℝ) ≤ 1),
    Py.ok_bind]
  simp [npSqrt_ok (le_refl (0 : ℝ)), npDiv_zero]

/-- Non-triviality: a rotation by 120 degrees meets the hypotheses of the round trip. -/
example : (⟨1/2, 1/2, 1/2, 1/2⟩ : Quat).norm = 1 ∧
    (⟨1/2, 1/2, 1/2, 1/2⟩ : Quat).w < 1 - (1e-12 + 1e-5) ∧ (⟨1/2, 1/2, 1/2, 1/2⟩ : Quat).w ≠ -1 := by
  refine ⟨Quat.norm_eq_one.mpr (by norm_num [Quat.dot]), by norm_num, by norm_num⟩

end HandEye
