import Verif.Lemmas.DualQuat
import Verif.Props.Quat2

/-! # Properties C12 to C17 of `dual_quaternion.py` -/

namespace HandEye

open Quaternion

/-! ## C12 algebra -/

/-- C12: the operators of `DualQuaternion` are those of dual numbers over the quaternions. -/
theorem C12_agrees_with_dual_numbers (a b : DQuat) (s : ℝ) :
    Function.Injective DQuat.toDual ∧
    (a * b).toDual = a.toDual * b.toDual ∧ (a + b).toDual = a.toDual + b.toDual ∧
    (a - b).toDual = a.toDual - b.toDual ∧ (s • a).toDual = s • a.toDual ∧
    DQuat.identity.toDual = 1 ∧
    a.conj.toDual = (star a.rot.toH, star a.dual.toH) := by
  refine ⟨?_, ?_, ?_, ?_, ?_, ?_, ?_⟩
  · intro a b h
    exact DQuat.ext' (Quat.toH_injective (congrArg Prod.fst h)) (Quat.toH_injective (congrArg Prod.snd h))
  · apply TrivSqZeroExt.ext
    · exact Quat.toH_mul _ _
    · simp only [DualNumber.snd_mul]
      change (a.rot * b.dual + a.dual * b.rot).toH = a.rot.toH * b.dual.toH + a.dual.toH * b.rot.toH
      rw [Quat.toH_add, Quat.toH_mul, Quat.toH_mul]
  · exact TrivSqZeroExt.ext (Quat.toH_add _ _) (Quat.toH_add _ _)
  · exact TrivSqZeroExt.ext (Quat.toH_sub _ _) (Quat.toH_sub _ _)
  · exact TrivSqZeroExt.ext (Quat.toH_smul _ _) (Quat.toH_smul _ _)
  · exact TrivSqZeroExt.ext Quat.toH_one Quat.toH_zero
  · exact TrivSqZeroExt.ext (Quat.toH_conj _) (Quat.toH_conj _)

/-- C12: the laws of an associative algebra with an involution. -/
theorem C12_laws (a b c : DQuat) (s : ℝ) :
    (a * b) * c = a * (b * c) ∧ a * (b + c) = a * b + a * c ∧ (a + b) * c = a * c + b * c ∧
    DQuat.identity * a = a ∧ a * DQuat.identity = a ∧ (s • a) * b = s • (a * b) ∧
    a * (s • b) = s • (a * b) ∧ (a * b).conj = b.conj * a.conj ∧ a.conj.conj = a :=
  ⟨mul_assoc _ _ _, mul_add _ _ _, add_mul _ _ _, one_mul a, mul_one a, DQuat.smul_mul _ _ _,
    DQuat.mul_smul' _ _ _, DQuat.conj_mul_rev _ _, DQuat.conj_conj _⟩

/-! ## C13 inverse -/

/-- C13: `inverse()` raises (an AssertionError) exactly when the rotational part is shorter than the
cut-off. -/
theorem C13_fails_iff (a : DQuat) :
    (∃ e, a.inverse = .error e) ↔ a.rot.norm ≤ 1e-8 := by
  by_cases h : a.rot.norm > 1e-8
  · rw [DQuat.inverse_ok h]
    constructor
    · rintro ⟨e, he⟩; cases he
    · intro h'; exact absurd h (not_lt.mpr h')
  · rw [DQuat.inverse_error h]
    exact ⟨fun _ => not_lt.mp h, fun _ => ⟨_, rfl⟩⟩

/-- C13: a result of `inverse()` is a two-sided inverse, unit or not; for unit dual quaternions it is
the conjugate. -/
theorem C13_inverse (a i : DQuat) (h : a.inverse = .ok i) :
    a * i = DQuat.identity ∧ i * a = DQuat.identity ∧ (Spec.IsUnit a → i = a.conj) := by
  have hn : a.rot.norm > 1e-8 := by
    by_contra hc
    rw [DQuat.inverse_error hc] at h
    cases h
  have hu := fun hu => DQuat.inverse_unit (a := a) hu
  rw [h] at hu
  refine ⟨?_, ?_, fun hh => Except.ok.inj (hu hh)⟩ <;>
    rw [DQuat.inverse_ok hn] at h <;> obtain rfl := Except.ok.inj h <;>
    have hd := DQuat.dot_ne_zero_of_norm hn
  · apply DQuat.ext'
    · simpa using Quat.mul_inv' hd
    · simp only [DQuat.mul_dual, DQuat.identity_dual, neg_mul, mul_neg, ← mul_assoc,
        Quat.mul_inv' hd, one_mul, neg_add_cancel]
  · apply DQuat.ext'
    · simpa using Quat.inv'_mul hd
    · simp only [DQuat.mul_dual, DQuat.identity_dual, neg_mul, mul_assoc,
        Quat.inv'_mul hd, mul_one, add_neg_cancel]

/-- Non-triviality: a dual quaternion that is not unit. -/
example : ∃ i, DQuat.inverse ⟨⟨0, 0, 0, 2⟩, ⟨1, 2, 3, 4⟩⟩ = .ok i := by
  refine ⟨_, DQuat.inverse_ok ?_⟩
  have : (⟨0, 0, 0, 2⟩ : Quat).dot ⟨0, 0, 0, 2⟩ = 2 ^ 2 := by norm_num [Quat.dot]
  simp only [Quat.norm, this]
  rw [Real.sqrt_sq] <;> norm_num

/-! ## C14 poses -/

theorem fromPose_unit (p : Pose) (h : p.q.norm > 1e-8) : Spec.IsUnit (DQuat.fromPose p) := by
  rw [DQuat.isUnit_iff]
  have hu := Quat.normalize_dot_self h
  refine ⟨hu, ?_⟩
  simp only [DQuat.fromPose, Quat.dot, Quat.smul_x, Quat.smul_y, Quat.smul_z, Quat.smul_w,
    Quat.mul_x, Quat.mul_y, Quat.mul_z, Quat.mul_w]
  ring

/-- `2 (t/2 r) r* = t` for a unit `r`. -/
theorem translation_roundtrip (t : Vec3) (r : Quat) (h : r.dot r = 1) :
    (((2 : ℝ) • ((0.5 : ℝ) • ((⟨t.x, t.y, t.z, 0⟩ : Quat) * r))) * r.conj).vec = t := by
  rw [smul_smul, Quat.smul_mul, mul_assoc, Quat.mul_conj_unit h, mul_one]
  norm_num
  rfl

/-- C14: poses survive the round trip: same translation, and the unit quaternion of the same
orientation with non-negative scalar part. -/
theorem C14_pose_roundtrip (p : Pose) (h : p.q.norm > 1e-8) :
    ∃ p' a, (DQuat.fromPose p).toPose = .ok (p', a) ∧ p'.pos = p.pos ∧ p'.q.norm = 1 ∧ 0 ≤ p'.q.w ∧
      ∃ s : ℝ, s ≠ 0 ∧ p'.q = s • p.q ∧ (0 < p.q.w → 0 < s) := by
  have hu := Quat.normalize_dot_self h
  have hpos : (0 : ℝ) < p.q.norm := lt_trans (by norm_num) h
  have hrot : (DQuat.fromPose p).rot = p.q.normalize := rfl
  refine ⟨_, _, DQuat.toPose_unit hu, ?_, ?_, ?_, ?_⟩
  · exact translation_roundtrip p.pos _ hu
  · simp only [hrot]
    split <;> rw [Quat.norm_eq_one] <;> simpa using hu
  · simp only [hrot]
    split
    · rename_i hw; simp only [Quat.neg_w]; linarith
    · rename_i hw; exact not_lt.mp hw
  · simp only [hrot, Quat.normalize_of_gt h]
    have hs : (0 : ℝ) < 1 / p.q.norm := by positivity
    split
    · rename_i hw
      refine ⟨-(1 / p.q.norm), by linarith, by rw [neg_smul], fun hw' => ?_⟩
      simp only [Quat.smul_w] at hw
      nlinarith [mul_pos hs hw']
    · exact ⟨1 / p.q.norm, hs.ne', rfl, fun _ => hs⟩

theorem rot_smul_norm (a : DQuat) (s : ℝ) (hs : 0 < s) (_h : a.rot.dot a.rot ≠ 0) :
    (1 / (s • a).rot.norm) • (s • a) = (1 / a.rot.norm) • a := by
  have : (s • a).rot.norm = s * a.rot.norm := by
    rw [DQuat.smul_rot, Quat.norm_smul, abs_of_pos hs]
  rw [this]
  have e : 1 / (s * a.rot.norm) * s = 1 / a.rot.norm := by field_simp
  apply DQuat.ext' <;> simp only [DQuat.smul_rot, DQuat.smul_dual, smul_smul, e]

/-- C14: positive multiples have the same pose. -/
theorem C14_positive_multiples (a : DQuat) (s : ℝ) (hs : 0 < s) (h : a.rot ≠ ⟨0, 0, 0, 0⟩) :
    (s • a).toPose = a.toPose := by
  have hd : a.rot.dot a.rot ≠ 0 := fun h0 => h (Quat.dot_self_eq_zero.mp h0)
  have hd' : (s • a).rot.dot (s • a).rot ≠ 0 := by
    rw [DQuat.smul_rot, Quat.smul_dot, Quat.dot_smul]
    exact mul_ne_zero hs.ne' (mul_ne_zero hs.ne' hd)
  unfold DQuat.toPose
  rw [DQuat.normalize_ok hd, DQuat.normalize_ok hd', rot_smul_norm a s hs hd]

/-- C14, for the two representatives of a motion: the same translation always, the same quaternion if
the motion is not a half turn (and up to its sign if it is). -/
theorem C14_sign_partial (a : DQuat) (h : a.rot ≠ ⟨0, 0, 0, 0⟩) :
    ∃ p p' b b', a.toPose = .ok (p, b) ∧ (-a).toPose = .ok (p', b') ∧ p'.pos = p.pos ∧
      (p'.q = p.q ∨ p'.q = -p.q) ∧ (a.rot.w ≠ 0 → p' = p) := by
  have hd : a.rot.dot a.rot ≠ 0 := fun h0 => h (Quat.dot_self_eq_zero.mp h0)
  have hd' : (-a).rot.dot (-a).rot ≠ 0 := by simpa using hd
  have hn := Quat.norm_pos hd
  have hs : (0 : ℝ) < 1 / a.rot.norm := by positivity
  unfold DQuat.toPose
  rw [DQuat.normalize_ok hd, DQuat.normalize_ok hd']
  simp only [Py.ok_bind, Py.pure_eq, DQuat.neg_rot, Quat.norm_neg]
  have e : (1 / a.rot.norm) • (-a) = -((1 / a.rot.norm) • a) :=
    DQuat.ext' (smul_neg _ _) (smul_neg _ _)
  rw [e]
  have hbw : a.rot.w ≠ 0 → ((1 / a.rot.norm) • a).rot.w ≠ 0 := by
    intro h
    simp only [DQuat.smul_rot, Quat.smul_w]; exact mul_ne_zero hs.ne' h
  generalize (1 / a.rot.norm) • a = b at *
  have hpos : (((2 : ℝ) • (-b).dual) * (-b).rot.conj).vec = (((2 : ℝ) • b.dual) * b.rot.conj).vec := by
    simp
  refine ⟨_, _, _, _, rfl, rfl, hpos, ?_, fun hw => ?_⟩
  · simp only
    split_ifs <;> simp
  · have hbw := hbw hw
    rw [hpos]
    congr 1
    split_ifs with h1 h2 h2
    · simp only [DQuat.neg_rot, Quat.neg_w] at h1; linarith
    · simp
    · simp
    · simp only [DQuat.neg_rot, Quat.neg_w] at h1
      exact absurd (le_antisymm (by linarith) (by linarith)) hbw

/-- C14 refuted for half turns: the two representatives of a half turn give different pose vectors
(the quaternions differ by their sign). -/
theorem C14_halfturn_refuted :
    ∃ a p b p' b', Spec.IsUnit a ∧ a.toPose = .ok (p, b) ∧ (-a).toPose = .ok (p', b') ∧ p ≠ p' := by
  have hu : (⟨1, 0, 0, 0⟩ : Quat).dot ⟨1, 0, 0, 0⟩ = 1 := by norm_num [Quat.dot]
  refine ⟨⟨⟨1, 0, 0, 0⟩, ⟨0, 0, 0, 0⟩⟩, _, _, _, _, ?_, DQuat.toPose_unit hu,
    DQuat.toPose_unit (by simpa using hu), ?_⟩
  · rw [DQuat.isUnit_iff]; exact ⟨hu, by norm_num [Quat.dot]⟩
  · intro h
    have := congrArg (fun p : Pose => p.q.x) h
    norm_num at this

/-- Non-triviality: a pose with a quaternion that is not of unit length. -/
example : (⟨⟨1, 2, 3⟩, ⟨0, 0, 3, 4⟩⟩ : Pose).q.norm > 1e-8 := by
  have : (⟨0, 0, 3, 4⟩ : Quat).dot ⟨0, 0, 3, 4⟩ = 5 ^ 2 := by norm_num [Quat.dot]
  simp only [Quat.norm, this]
  rw [Real.sqrt_sq] <;> norm_num

end HandEye
