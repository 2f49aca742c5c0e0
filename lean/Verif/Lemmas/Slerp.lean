import Verif.Lemmas.Quat
import Verif.Lemmas.Py

/-! Helper lemmas about `quaternion_slerp` on unit quaternions. -/

namespace HandEye

namespace Quat

theorem add_dot (p q r : Quat) : (p + q).dot r = p.dot r + q.dot r := by
  simp only [dot, add_x, add_y, add_z, add_w]; ring

theorem dot_add (p q r : Quat) : p.dot (q + r) = p.dot q + p.dot r := by
  simp only [dot, add_x, add_y, add_z, add_w]; ring

theorem sub_dot (p q r : Quat) : (p - q).dot r = p.dot r - q.dot r := by
  simp only [dot, sub_x, sub_y, sub_z, sub_w]; ring

theorem dot_sub (p q r : Quat) : p.dot (q - r) = p.dot q - p.dot r := by
  simp only [dot, sub_x, sub_y, sub_z, sub_w]; ring

/-- Cauchy-Schwarz for unit quaternions. -/
theorem dot_le_one {p q : Quat} (hp : p.dot p = 1) (hq : q.dot q = 1) : p.dot q ≤ 1 := by
  have h := (p - q).dot_self_nonneg
  rw [sub_dot, dot_sub, dot_sub, hp, hq, dot_comm q p] at h
  linarith

theorem neg_one_le_dot {p q : Quat} (hp : p.dot p = 1) (hq : q.dot q = 1) : -1 ≤ p.dot q := by
  have h := dot_le_one (p := -p) (q := q) (by simpa using hp) hq
  rw [neg_dot] at h
  linarith

/-- Equality in Cauchy-Schwarz. -/
theorem eq_of_dot_eq_one {p q : Quat} (hp : p.dot p = 1) (hq : q.dot q = 1) (h : p.dot q = 1) :
    p = q := by
  have : (p - q).dot (p - q) = 0 := by
    rw [sub_dot, dot_sub, dot_sub, hp, hq, dot_comm q p, h]; ring
  exact sub_eq_zero.mp (dot_self_eq_zero.mp this)

end Quat

/-- `q_1` with the sign that `quaternion_slerp` gives it: towards `q_2`. -/
noncomputable def slerpStart (q1 q2 : Quat) : Quat := if q1.dot q2 < 0 then -q1 else q1

theorem slerpStart_dot (q1 q2 : Quat) : (slerpStart q1 q2).dot q2 = |q1.dot q2| := by
  unfold slerpStart
  split
  · rename_i h; rw [Quat.neg_dot, abs_of_neg h]
  · rename_i h; rw [abs_of_nonneg (not_lt.mp h)]

theorem slerpStart_self (q1 q2 : Quat) : (slerpStart q1 q2).dot (slerpStart q1 q2) = q1.dot q1 := by
  unfold slerpStart; split <;> simp

theorem slerpStart_eq (q1 q2 : Quat) : slerpStart q1 q2 = q1 ∨ slerpStart q1 q2 = -q1 := by
  unfold slerpStart; split <;> simp

/-- The interior branch of `quaternion_slerp`. -/
theorem slerp_interior {q1 q2 : Quat} (h1 : q1.dot q1 = 1) (h2 : q2.dot q2 = 1) {f : ℝ}
    (hf0 : 0 < f) (hf1 : f < 1) :
    quaternionSlerp q1 q2 f = .ok
      (Real.cos (Real.arccos |q1.dot q2| * f) • slerpStart q1 q2 +
        Real.sin (Real.arccos |q1.dot q2| * f) •
          (q2 - |q1.dot q2| • slerpStart q1 q2).normalize) := by
  have n1 : q1.norm = 1 := Quat.norm_eq_one.mpr h1
  have n2 : q2.norm = 1 := Quat.norm_eq_one.mpr h2
  have hle : |q1.dot q2| ≤ 1 := abs_le.mpr ⟨Quat.neg_one_le_dot h1 h2, Quat.dot_le_one h1 h2⟩
  have hge : -1 ≤ |q1.dot q2| := by linarith [abs_nonneg (q1.dot q2)]
  unfold quaternionSlerp
  rw [pyAssert_pos ⟨hf0.le, hf1.le⟩, n1, n2, pyAssert_pos (npIsclose_self 1 (by norm_num))]
  simp only [Py.ok_bind, if_neg hf0.ne', if_neg hf1.ne]
  have hp : (if q1.dot q2 < 0 then (-q1.dot q2, -q1) else (q1.dot q2, q1)) =
      (|q1.dot q2|, slerpStart q1 q2) := by
    unfold slerpStart
    by_cases h : q1.dot q2 < 0
    · simp [h, abs_of_neg h]
    · simp [h, abs_of_nonneg (not_lt.mp h)]
  simp only [hp]
  have hclip : npClip |q1.dot q2| (-1) 1 = |q1.dot q2| := by
    unfold npClip; rw [max_eq_left hge, min_eq_right hle]
  rw [hclip, npArccos_ok hge hle]
  rfl

end HandEye
