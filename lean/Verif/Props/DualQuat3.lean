import Verif.Props.DualQuat2
import Verif.Props.Quat3

/-! # Properties C18 to C20 of `dual_quaternion.py` -/

namespace HandEye

open Quaternion

/-! ## C18 screw parameters -/

/-- The rotation angle in degrees as computed by `screw_axis`. -/
theorem screw_rotation {w : ℝ} (h0 : -1 ≤ w) :
    npMod (2 * npDegrees (Real.arccos w)) 360 =
      if w = -1 then 0 else 360 / Real.pi * Real.arccos w := by
  have hpi := Real.pi_pos
  have e : 2 * npDegrees (Real.arccos w) = 360 / Real.pi * Real.arccos w := by
    unfold npDegrees; ring
  rw [e]
  unfold npMod
  have e2 : 360 / Real.pi * Real.arccos w / 360 = Real.arccos w / Real.pi := by field_simp
  rw [e2]
  split
  · rename_i h
    rw [h, Real.arccos_neg_one, div_self hpi.ne', Int.floor_one]
    push_cast
    field_simp
    ring
  · rename_i h
    have hlt : Real.arccos w < Real.pi :=
      lt_of_le_of_ne (Real.arccos_le_pi _) (fun he => h (le_antisymm (Real.arccos_eq_pi.mp he) h0))
    have : ⌊Real.arccos w / Real.pi⌋ = 0 := by
      rw [Int.floor_eq_zero_iff]
      exact ⟨div_nonneg (Real.arccos_nonneg _) hpi.le, (div_lt_one hpi).mpr hlt⟩
    rw [this]
    simp

/-- The three outcomes of `screw_axis` on a unit dual quaternion. -/
theorem screwAxis_eq {a : DQuat} (ha : Spec.IsUnit a) :
    a.screwAxis =
      let rotation := if a.rot.w = -1 then 0 else 360 / Real.pi * Real.arccos a.rot.w
      let s := Real.sin (Real.arccos a.rot.w)
      let m := 2 * Real.sqrt (a.dual.x ^ 2 + a.dual.y ^ 2 + a.dual.z ^ 2)
      if rotation > 1e-12 then
        .ok (⟨a.rot.x / s, a.rot.y / s, a.rot.z / s⟩, rotation, -2 * a.dual.w / s)
      else if m > 1e-12 then
        .ok (⟨2 * a.dual.x / m, 2 * a.dual.y / m, 2 * a.dual.z / m⟩, rotation, m)
      else .ok (⟨0, 0, 0⟩, rotation, m) := by
  obtain ⟨h0, h1⟩ := Quat.w_mem (DQuat.IsUnit.rot ha)
  have hpi := Real.pi_pos
  unfold DQuat.screwAxis
  rw [npArccos_ok h0 h1]
  simp only [Py.ok_bind, screw_rotation h0]
  by_cases hc : (if a.rot.w = -1 then 0 else 360 / Real.pi * Real.arccos a.rot.w) > 1e-12
  · rw [if_pos hc, if_pos hc]
    have hne : a.rot.w ≠ -1 := by
      intro h; rw [if_pos h] at hc; norm_num at hc
    rw [if_neg hne] at hc ⊢
    have hang : 360 / Real.pi * Real.arccos a.rot.w / 2 * Real.pi / 180 = Real.arccos a.rot.w := by
      field_simp; ring
    rw [hang]
    have hpos : 0 < Real.arccos a.rot.w := by
      by_contra hle
      have : 360 / Real.pi * Real.arccos a.rot.w ≤ 0 :=
        mul_nonpos_of_nonneg_of_nonpos (by positivity) (not_lt.mp hle)
      norm_num at hc
      linarith
    have hlt : Real.arccos a.rot.w < Real.pi :=
      lt_of_le_of_ne (Real.arccos_le_pi _) (fun he => hne (le_antisymm (Real.arccos_eq_pi.mp he) h0))
    have hs : Real.sin (Real.arccos a.rot.w) ≠ 0 := (Real.sin_pos_of_pos_of_lt_pi hpos hlt).ne'
    simp only [npDiv_ok hs, Py.ok_bind, Py.pure_eq]
  · rw [if_neg hc, if_neg hc]
    rfl

theorem screw_small {a : DQuat} (ha : Spec.IsUnit a)
    (hc : ¬ (if a.rot.w = -1 then 0 else 360 / Real.pi * Real.arccos a.rot.w) > 1e-12) :
    ∃ n ρ, a.screwAxis =
      .ok (n, ρ, 2 * Real.sqrt (a.dual.x ^ 2 + a.dual.y ^ 2 + a.dual.z ^ 2)) := by
  rw [screwAxis_eq ha]
  simp only
  rw [if_neg hc]
  split
  · exact ⟨_, _, rfl⟩
  · exact ⟨_, _, rfl⟩

/-- C18, the parameters: `screw_axis()` of a unit dual quaternion always succeeds with a rotation in
[0, 360) degrees.  Above the cut-off of 1e-12 degrees the axis is a unit vector, the real part is
`(sin(rotation/2) axis, cos(rotation/2))`, and the reported translation is the component of the motion
of the origin along that axis. -/
theorem C18_parameters (a : DQuat) (ha : Spec.IsUnit a) :
    ∃ axis rotation translation, a.screwAxis = .ok (axis, rotation, translation) ∧
      0 ≤ rotation ∧ rotation < 360 ∧
      (rotation > 1e-12 → axis.norm = 1 ∧
        a.rot.vec = Real.sin (rotation / 2 * (Real.pi / 180)) • axis ∧
        a.rot.w = Real.cos (rotation / 2 * (Real.pi / 180)) ∧
        translation = axis.dot (Spec.motion a ⟨0, 0, 0⟩)) := by
  obtain ⟨h0, h1⟩ := Quat.w_mem (DQuat.IsUnit.rot ha)
  have hpi := Real.pi_pos
  have hr0 : 0 ≤ (if a.rot.w = -1 then 0 else 360 / Real.pi * Real.arccos a.rot.w) := by
    split
    · exact le_rfl
    · exact mul_nonneg (by positivity) (Real.arccos_nonneg _)
  have hr1 : (if a.rot.w = -1 then 0 else 360 / Real.pi * Real.arccos a.rot.w) < 360 := by
    split
    · norm_num
    · rename_i hne
      have hlt : Real.arccos a.rot.w < Real.pi :=
        lt_of_le_of_ne (Real.arccos_le_pi _)
          (fun he => hne (le_antisymm (Real.arccos_eq_pi.mp he) h0))
      rw [div_mul_eq_mul_div, div_lt_iff₀ hpi]
      linarith
  rw [screwAxis_eq ha]
  simp only
  by_cases hc : (if a.rot.w = -1 then 0 else 360 / Real.pi * Real.arccos a.rot.w) > 1e-12
  · rw [if_pos hc]
    refine ⟨_, _, _, rfl, hr0, hr1, fun _ => ?_⟩
    have hne : a.rot.w ≠ -1 := by
      intro h; rw [if_pos h] at hc; norm_num at hc
    rw [if_neg hne] at hc ⊢
    have hang : 360 / Real.pi * Real.arccos a.rot.w / 2 * (Real.pi / 180) = Real.arccos a.rot.w := by
      field_simp; ring
    rw [hang, Real.cos_arccos h0 h1]
    have hpos : 0 < Real.arccos a.rot.w := by
      by_contra hle
      have : 360 / Real.pi * Real.arccos a.rot.w ≤ 0 :=
        mul_nonpos_of_nonneg_of_nonpos (by positivity) (not_lt.mp hle)
      norm_num at hc
      linarith
    have hlt : Real.arccos a.rot.w < Real.pi :=
      lt_of_le_of_ne (Real.arccos_le_pi _) (fun he => hne (le_antisymm (Real.arccos_eq_pi.mp he) h0))
    have hs : Real.sin (Real.arccos a.rot.w) ≠ 0 := (Real.sin_pos_of_pos_of_lt_pi hpos hlt).ne'
    have hsq : Real.sin (Real.arccos a.rot.w) ^ 2 = 1 - a.rot.w ^ 2 := by
      rw [Real.sin_sq, Real.cos_arccos h0 h1]
    have hu := DQuat.IsUnit.rot ha
    have ho := DQuat.IsUnit.orth ha
    simp only [Quat.dot] at hu ho
    generalize Real.sin (Real.arccos a.rot.w) = s at *
    refine ⟨?_, ?_, rfl, ?_⟩
    · rw [Vec3.norm_eq_one]
      simp only [Vec3.dot]
      field_simp
      linear_combination hu - hsq
    · ext <;> simp <;> field_simp
    · have hm := DQuat.motion_unit ha ⟨0, 0, 0⟩
      have hx := congrArg Quat.x hm
      have hy := congrArg Quat.y hm
      have hz := congrArg Quat.z hm
      simp at hx hy hz
      simp only [Vec3.dot, hx, hy, hz]
      field_simp
      linear_combination (-a.rot.w) * ho + a.dual.w * hu
  · rw [if_neg hc]
    split
    · exact ⟨_, _, _, rfl, hr0, hr1, fun h => absurd h hc⟩
    · exact ⟨_, _, _, rfl, hr0, hr1, fun h => absurd h hc⟩

/-- The scalar parts of a dual quaternion are conjugation invariant. -/
theorem conj_scalar_parts {a x : DQuat} (hx : Spec.IsUnit x) :
    (x * a * x.conj).rot.w = a.rot.w ∧ (x * a * x.conj).dual.w = a.dual.w := by
  have hu := DQuat.IsUnit.rot hx
  have ho := DQuat.IsUnit.orth hx
  simp only [Quat.dot] at hu ho
  constructor
  · simp
    linear_combination a.rot.w * hu
  · simp
    linear_combination a.dual.w * hu + 2 * a.rot.w * ho

/-- The vector part of a conjugated real part is rotated. -/
theorem conj_rot_vec {a x : DQuat} (hx : Spec.IsUnit x) :
    (x * a * x.conj).rot.vec = x.rot.rotateVector a.rot.vec := by
  have hu := DQuat.IsUnit.rot hx
  simp only [Quat.dot] at hu
  ext <;> simp [Quat.rotateVector]
  · linear_combination a.rot.x * hu
  · linear_combination a.rot.y * hu
  · linear_combination a.rot.z * hu

/-- C18, screw congruence: conjugating a unit dual quaternion with a unit dual quaternion leaves the
rotation unchanged.  If the rotation is above the cut-off, or there is no rotation at all, it also
leaves the translation unchanged, and above the cut-off the axis is rotated along. -/
theorem C18_congruence_partial (a x : DQuat) (ha : Spec.IsUnit a) (hx : Spec.IsUnit x) :
    ∃ xi n n' rotation translation translation', x.inverse = .ok xi ∧
      a.screwAxis = .ok (n, rotation, translation) ∧
      (x * a * xi).screwAxis = .ok (n', rotation, translation') ∧
      (rotation > 1e-12 → translation' = translation ∧ n' = x.rot.rotateVector n) ∧
      (a.rot.vec = ⟨0, 0, 0⟩ → translation' = translation) := by
  have hb : Spec.IsUnit (x * a * x.conj) :=
    DQuat.isUnit_mul (DQuat.isUnit_mul hx ha) (DQuat.isUnit_conj hx)
  obtain ⟨hw, hdw⟩ := conj_scalar_parts (a := a) hx
  have hv := conj_rot_vec (a := a) hx
  refine ⟨x.conj, ?_⟩
  rw [screwAxis_eq ha, screwAxis_eq hb]
  simp only [hw, hdw]
  by_cases hc : (if a.rot.w = -1 then 0 else 360 / Real.pi * Real.arccos a.rot.w) > 1e-12
  · rw [if_pos hc, if_pos hc]
    refine ⟨_, _, _, _, _, DQuat.inverse_unit hx, rfl, rfl, fun _ => ⟨rfl, ?_⟩, fun _ => rfl⟩
    have h1 := congrArg Vec3.x hv
    have h2 := congrArg Vec3.y hv
    have h3 := congrArg Vec3.z hv
    simp only [Quat.vec_x, Quat.vec_y, Quat.vec_z] at h1 h2 h3
    rw [h1, h2, h3]
    ext <;> simp [Quat.rotateVector] <;> ring
  · rw [if_neg hc, if_neg hc]
    have key : a.rot.vec = ⟨0, 0, 0⟩ → (x * a * x.conj).dual.x ^ 2 + (x * a * x.conj).dual.y ^ 2 +
        (x * a * x.conj).dual.z ^ 2 = a.dual.x ^ 2 + a.dual.y ^ 2 + a.dual.z ^ 2 := by
      intro h
      have e : a.rot = a.rot.w • (1 : Quat) := by
        have h1 := congrArg Vec3.x h
        have h2 := congrArg Vec3.y h
        have h3 := congrArg Vec3.z h
        simp at h1 h2 h3
        ext <;> simp [h1, h2, h3]
      have hdual : (x * a * x.conj).dual = x.rot * a.dual * x.rot.conj := by
        have hc0 := DQuat.cross_conj x.rot x.dual
        rw [DQuat.IsUnit.orth hx, mul_zero, zero_smul] at hc0
        simp only [DQuat.mul_dual, DQuat.mul_rot, DQuat.conj_dual, DQuat.conj_rot]
        rw [e]
        simp only [Quat.mul_smul', Quat.smul_mul, mul_one, add_mul]
        have : a.rot.w • (x.rot * x.dual.conj) + a.rot.w • (x.dual * x.rot.conj) = 0 := by
          rw [← smul_add, hc0, smul_zero]
        rw [add_comm (x.rot * a.dual * x.rot.conj), ← add_assoc, this, zero_add]
      have hdd : (x * a * x.conj).dual.dot (x * a * x.conj).dual = a.dual.dot a.dual := by
        rw [hdual, Quat.dot_mul_mul, Quat.dot_mul_mul, Quat.dot_conj_conj, DQuat.IsUnit.rot hx]
        ring
      simp only [Quat.dot, hdw] at hdd
      linear_combination hdd
    by_cases hm : 2 * Real.sqrt (a.dual.x ^ 2 + a.dual.y ^ 2 + a.dual.z ^ 2) > 1e-12 <;>
      by_cases hm' : 2 * Real.sqrt ((x * a * x.conj).dual.x ^ 2 + (x * a * x.conj).dual.y ^ 2 +
        (x * a * x.conj).dual.z ^ 2) > 1e-12 <;>
      (first | rw [if_pos hm] | rw [if_neg hm]) <;> (first | rw [if_pos hm'] | rw [if_neg hm']) <;>
      exact ⟨_, _, _, _, _, DQuat.inverse_unit hx, rfl, rfl, fun h => absurd h hc,
        fun h => by rw [key h]⟩

/-- C18 refuted below the cut-off: a tiny rotation about an axis through the origin, and the same screw
about a displaced axis, are reported with different translations. -/
theorem C18_tiny_rotation_refuted :
    ∃ a x n n' rotation rotation' t t', Spec.IsUnit a ∧ Spec.IsUnit x ∧
      a.screwAxis = .ok (n, rotation, t) ∧ (x * a * x.conj).screwAxis = .ok (n', rotation', t') ∧
      x.inverse = .ok x.conj ∧ t ≠ t' := by
  set φ : ℝ := 1e-15 with hφ
  have hpi := Real.pi_pos
  have hpi2 := Real.one_le_pi_div_two
  have hφ0 : 0 < φ := by rw [hφ]; norm_num
  have hφ1 : φ < 1 := by rw [hφ]; norm_num
  have hsc := Real.sin_sq_add_cos_sq φ
  have hspos : 0 < Real.sin φ := Real.sin_pos_of_pos_of_lt_pi hφ0 (by linarith)
  have ha : Spec.IsUnit ⟨⟨0, 0, Real.sin φ, Real.cos φ⟩, ⟨0, 0, 0, 0⟩⟩ := by
    rw [DQuat.isUnit_iff]; simp only [Quat.dot]; constructor
    · linear_combination hsc
    · ring
  have hx : Spec.IsUnit ⟨⟨0, 0, 0, 1⟩, ⟨1, 0, 0, 0⟩⟩ := by
    rw [DQuat.isUnit_iff]; norm_num [Quat.dot]
  have hac : Real.arccos (Real.cos φ) = φ := Real.arccos_cos hφ0.le (by linarith)
  have hb := DQuat.isUnit_mul (DQuat.isUnit_mul hx ha) (DQuat.isUnit_conj hx)
  have hcut : ¬ (if Real.cos φ = -1 then 0 else 360 / Real.pi * Real.arccos (Real.cos φ)) > 1e-12 := by
    rw [not_lt]
    split
    · norm_num
    · rw [hac, div_mul_eq_mul_div, div_le_iff₀ hpi, hφ]
      norm_num
      linarith
  have hb' : ((⟨⟨0, 0, 0, 1⟩, ⟨1, 0, 0, 0⟩⟩ : DQuat) *
      ⟨⟨0, 0, Real.sin φ, Real.cos φ⟩, ⟨0, 0, 0, 0⟩⟩ *
      DQuat.conj ⟨⟨0, 0, 0, 1⟩, ⟨1, 0, 0, 0⟩⟩) =
      ⟨⟨0, 0, Real.sin φ, Real.cos φ⟩, ⟨0, -(2 * Real.sin φ), 0, 0⟩⟩ := by
    apply DQuat.ext' <;> ext <;> simp <;> ring
  obtain ⟨n, ρ, h1⟩ := screw_small ha hcut
  rw [hb'] at hb
  obtain ⟨n', ρ', h2⟩ := screw_small hb hcut
  rw [← hb'] at h2
  refine ⟨_, _, n, n', ρ, ρ', _, _, ha, hx, h1, h2, DQuat.inverse_unit hx, ?_⟩
  apply ne_of_lt
  have e : (0 : ℝ) ^ 2 + (-(2 * Real.sin φ)) ^ 2 + 0 ^ 2 = (2 * Real.sin φ) ^ 2 := by ring
  simp only [hb', e]
  rw [Real.sqrt_sq (by linarith)]
  have z : (0 : ℝ) ^ 2 + 0 ^ 2 + 0 ^ 2 = 0 := by norm_num
  rw [z, Real.sqrt_zero]
  linarith

/-- Non-triviality: a screw motion with 73.7 degrees about x, and a unit dual quaternion to conjugate
with. -/
example : Spec.IsUnit ⟨⟨3/5, 0, 0, 4/5⟩, ⟨4, 5, 6, -3⟩⟩ ∧ Spec.IsUnit ⟨⟨0, 0, 1, 0⟩, ⟨1, 2, 0, 3⟩⟩ := by
  rw [DQuat.isUnit_iff, DQuat.isUnit_iff]; norm_num [Quat.dot]

/-! ## C19 equality -/

/-- C19: every dual quaternion compares equal to itself. -/
theorem C19_reflexive (a : DQuat) : a.pyEq a := by
  have h : ∀ x : ℝ, npIsclose x x 1e-8 := fun x => npIsclose_self x (by norm_num)
  exact ⟨⟨h _, h _, h _, h _⟩, ⟨h _, h _, h _, h _⟩⟩

theorem npIsclose_nearly_symm {x y : ℝ} (h : npIsclose x y 1e-8) :
    |y - x| ≤ 1.1e-8 + 1.1e-5 * |x| := by
  unfold npIsclose at h
  have h1 : |y| ≤ |x| + |x - y| := by
    have : y = x - (x - y) := by ring
    calc |y| = |x - (x - y)| := by rw [← this]
      _ ≤ |x| + |x - y| := abs_sub _ _
  rw [abs_sub_comm y x]
  have := abs_nonneg x
  linarith

/-- C19, what is left of symmetry: if `a == b`, then `b` is within slightly larger tolerances of `a`. -/
theorem C19_nearly_symmetric_partial (a b : DQuat) (h : a.pyEq b) :
    |b.rot.x - a.rot.x| ≤ 1.1e-8 + 1.1e-5 * |a.rot.x| ∧
    |b.rot.y - a.rot.y| ≤ 1.1e-8 + 1.1e-5 * |a.rot.y| ∧
    |b.rot.z - a.rot.z| ≤ 1.1e-8 + 1.1e-5 * |a.rot.z| ∧
    |b.rot.w - a.rot.w| ≤ 1.1e-8 + 1.1e-5 * |a.rot.w| ∧
    |b.dual.x - a.dual.x| ≤ 1.1e-8 + 1.1e-5 * |a.dual.x| ∧
    |b.dual.y - a.dual.y| ≤ 1.1e-8 + 1.1e-5 * |a.dual.y| ∧
    |b.dual.z - a.dual.z| ≤ 1.1e-8 + 1.1e-5 * |a.dual.z| ∧
    |b.dual.w - a.dual.w| ≤ 1.1e-8 + 1.1e-5 * |a.dual.w| := by
  obtain ⟨⟨h1, h2, h3, h4⟩, ⟨h5, h6, h7, h8⟩⟩ := h
  exact ⟨npIsclose_nearly_symm h1, npIsclose_nearly_symm h2, npIsclose_nearly_symm h3,
    npIsclose_nearly_symm h4, npIsclose_nearly_symm h5, npIsclose_nearly_symm h6,
    npIsclose_nearly_symm h7, npIsclose_nearly_symm h8⟩

/-- C19 refuted: `==` is not symmetric, not even on unit dual quaternions (numpy's relative tolerance
is taken of the right operand only). -/
theorem C19_symmetry_refuted :
    ∃ a b, Spec.IsUnit a ∧ Spec.IsUnit b ∧ a.pyEq b ∧ ¬ b.pyEq a := by
  refine ⟨⟨⟨0, 0, 0, 1⟩, ⟨1, 0, 0, 0⟩⟩, ⟨⟨0, 0, 0, 1⟩, ⟨1 + 1.001e-5 + 5e-11, 0, 0, 0⟩⟩, ?_, ?_, ?_, ?_⟩
  · rw [DQuat.isUnit_iff]; norm_num [Quat.dot]
  · rw [DQuat.isUnit_iff]; norm_num [Quat.dot]
  · refine ⟨⟨?_, ?_, ?_, ?_⟩, ⟨?_, ?_, ?_, ?_⟩⟩ <;> norm_num [npIsclose, abs_le]
  · rintro ⟨-, h, -⟩
    norm_num [npIsclose] at h

/-- C19 refuted: the two representatives of one motion never compare equal, although they stand for the
same motion. -/
theorem C19_same_motion_refuted (a : DQuat) (ha : Spec.IsUnit a) :
    (∀ x, Spec.motion (-a) x = Spec.motion a x) ∧ ¬ a.pyEq (-a) := by
  constructor
  · intro x
    rw [DQuat.motion_eq, DQuat.motion_eq]
    simp
  · rintro ⟨⟨h1, h2, h3, h4⟩, -⟩
    have key : ∀ x : ℝ, npIsclose x (-x) 1e-8 → x ^ 2 ≤ 1e-10 := by
      intro x h
      unfold npIsclose at h
      have e : |x - -x| = 2 * |x| := by
        rw [sub_neg_eq_add, ← two_mul, abs_mul, abs_of_pos (by norm_num : (0:ℝ) < 2)]
      rw [e, abs_neg] at h
      have h0 := abs_nonneg x
      have : |x| ≤ 1e-5 := by linarith
      rw [← sq_abs]
      nlinarith
    have hu := DQuat.IsUnit.rot ha
    simp only [Quat.dot] at hu
    have k1 := key _ h1
    have k2 := key _ h2
    have k3 := key _ h3
    have k4 := key _ h4
    norm_num at k1 k2 k3 k4
    nlinarith

/-! ## C20 reads -/

/-- The methods that read a dual quaternion and normalise the object on the way. -/
inductive Spec.Read where
  | pose
  | matrix

/-- The object after one read. -/
noncomputable def Spec.afterRead (a : DQuat) : Spec.Read → Py DQuat
  | .pose => do let r ← a.toPose; return r.2
  | .matrix => do let r ← a.toMatrix; return r.2

/-- The object after a sequence of reads. -/
noncomputable def Spec.afterReads (a : DQuat) : List Spec.Read → Py DQuat
  | [] => .ok a
  | r :: rs => do let b ← Spec.afterRead a r; Spec.afterReads b rs

theorem normalized_unit {a : DQuat} (hd : a.rot.dot a.rot ≠ 0) :
    ((1 / a.rot.norm) • a).rot.dot ((1 / a.rot.norm) • a).rot = 1 := by
  have hn := (Quat.norm_pos hd).ne'
  rw [DQuat.smul_rot, Quat.smul_dot, Quat.dot_smul, ← Quat.norm_mul_self]
  field_simp

theorem afterRead_eq {a : DQuat} (hd : a.rot.dot a.rot ≠ 0) (r : Spec.Read) :
    Spec.afterRead a r = .ok ((1 / a.rot.norm) • a) := by
  have hu := normalized_unit hd
  cases r with
  | pose => simp [Spec.afterRead, DQuat.toPose, DQuat.normalize_ok hd]
  | matrix =>
    simp only [Spec.afterRead, DQuat.toMatrix, DQuat.normalize_ok hd, Py.ok_bind,
      DQuat.toPose_unit hu, Py.pure_eq]

theorem motion_smul (a : DQuat) {s : ℝ} (hs : s ≠ 0) (x : Vec3) :
    Spec.motion (s • a) x = Spec.motion a x := by
  rw [DQuat.motion_eq, DQuat.motion_eq]
  congr 1
  simp only [DQuat.smul_rot, DQuat.smul_dual, Quat.conj_smul, Quat.smul_mul, Quat.mul_smul',
    Quat.smul_dot, Quat.dot_smul]
  rw [smul_smul s s, smul_smul (2 : ℝ), smul_smul (2 * s), mul_assoc 2 s s, mul_comm (2 : ℝ) (s * s),
    ← smul_smul (s * s) (2 : ℝ), ← smul_add, smul_smul]
  congr 1
  by_cases h : a.rot.dot a.rot = 0
  · simp [h]
  · field_simp

/-- C20: any sequence of reads leaves the represented motion unchanged, leaves a dual quaternion with a
unit real part unchanged, and does not change what a later read returns. -/
theorem C20_reads (a : DQuat) (h : a.rot ≠ ⟨0, 0, 0, 0⟩) (reads : List Spec.Read) :
    ∃ b, Spec.afterReads a reads = .ok b ∧ (∀ x, Spec.motion b x = Spec.motion a x) ∧
      (a.rot.norm = 1 → b = a) ∧ b.toPose = a.toPose ∧ b.toMatrix = a.toMatrix := by
  induction reads generalizing a with
  | nil => exact ⟨a, rfl, fun _ => rfl, fun _ => rfl, rfl, rfl⟩
  | cons r rs ih =>
    have hd : a.rot.dot a.rot ≠ 0 := fun h0 => h (Quat.dot_self_eq_zero.mp h0)
    have hs : (0 : ℝ) < 1 / a.rot.norm := by have := Quat.norm_pos hd; positivity
    have hu := normalized_unit hd
    have hne : ((1 / a.rot.norm) • a).rot ≠ ⟨0, 0, 0, 0⟩ := by
      intro h0
      have hz : (⟨0, 0, 0, 0⟩ : Quat).dot ⟨0, 0, 0, 0⟩ = 0 := by norm_num [Quat.dot]
      rw [h0, hz] at hu
      exact zero_ne_one hu
    obtain ⟨b, hb, hm, hunit, hp, hM⟩ := ih _ hne
    refine ⟨b, ?_, ?_, ?_, ?_, ?_⟩
    · rw [Spec.afterReads, afterRead_eq hd, Py.ok_bind, hb]
    · intro x; rw [hm, motion_smul a hs.ne']
    · intro hn
      rw [hunit (Quat.norm_eq_one.mpr hu), hn, div_one, DQuat.one_smul']
    · rw [hp, C14_positive_multiples a _ hs h]
    · rw [hM]
      unfold DQuat.toMatrix
      rw [DQuat.normalize_unit hu, DQuat.normalize_ok hd]

/-- Non-triviality: a dual quaternion that is not unit. -/
example : (⟨⟨0, 0, 0, 2⟩, ⟨1, 2, 3, 4⟩⟩ : DQuat).rot ≠ ⟨0, 0, 0, 0⟩ := by
  intro h
  have := congrArg Quat.w h
  norm_num at this

end HandEye
