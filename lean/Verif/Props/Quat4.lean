import Verif.Lemmas.Slerp
import Verif.Props.Quat3

/-! # Properties C08 to C11 of `quaternion.py` -/

namespace HandEye

/-! ## C08 quaternion_slerp -/

/-- C08, end points: exactly the given quaternions. -/
theorem C08_endpoints (q1 q2 : Quat) (h1 : q1.norm = 1) (h2 : q2.norm = 1) :
    quaternionSlerp q1 q2 0 = .ok q1 ∧ quaternionSlerp q1 q2 1 = .ok q2 := by
  constructor <;>
  · unfold quaternionSlerp
    rw [pyAssert_pos (by norm_num), h1, h2, pyAssert_pos (npIsclose_self 1 (by norm_num))]
    simp

/-- C08, outside of [0, 1] the code refuses. -/
theorem C08_out_of_range (q1 q2 : Quat) (f : ℝ) (hf : f < 0 ∨ 1 < f) :
    quaternionSlerp q1 q2 f = .error .assertion := by
  unfold quaternionSlerp
  rw [pyAssert_neg (by rintro ⟨a, b⟩; rcases hf with h | h <;> linarith)]
  rfl

/-- C08: for unit quaternions and a fraction in [0, 1], slerp returns a quaternion whose angle (on the
sphere, up to sign) from `q1` is exactly the fraction of the angle between `q1` and `q2`, and whose
squared length is 1 up to 1e-16.  Here `arccos |p · q|` is half of the rotation angle between the
rotations `p` and `q`. -/
theorem C08_slerp (q1 q2 : Quat) (h1 : q1.norm = 1) (h2 : q2.norm = 1) (f : ℝ)
    (hf0 : 0 ≤ f) (hf1 : f ≤ 1) :
    ∃ r, quaternionSlerp q1 q2 f = .ok r ∧
      |r.dot q1| = Real.cos (f * Real.arccos |q1.dot q2|) ∧
      1 - 1e-16 ≤ r.dot r ∧ r.dot r ≤ 1 ∧
      (1 - q1.dot q2 ^ 2 > 1e-16 →
        r.norm = 1 ∧ |r.dot q2| = Real.cos ((1 - f) * Real.arccos |q1.dot q2|)) := by
  have d1 := Quat.norm_eq_one.mp h1
  have d2 := Quat.norm_eq_one.mp h2
  have hle : |q1.dot q2| ≤ 1 := abs_le.mpr ⟨Quat.neg_one_le_dot d1 d2, Quat.dot_le_one d1 d2⟩
  have hge : -1 ≤ |q1.dot q2| := by linarith [abs_nonneg (q1.dot q2)]
  rcases hf0.eq_or_lt with rfl | hf0'
  · refine ⟨q1, (C08_endpoints q1 q2 h1 h2).1, ?_, ?_, ?_, fun _ => ⟨h1, ?_⟩⟩
    · simp [d1]
    · rw [d1]; norm_num
    · rw [d1]
    · simp [Real.cos_arccos hge hle]
  rcases hf1.eq_or_lt with rfl | hf1'
  · refine ⟨q2, (C08_endpoints q1 q2 h1 h2).2, ?_, ?_, ?_, fun _ => ⟨h2, ?_⟩⟩
    · simp [Real.cos_arccos hge hle, Quat.dot_comm q2 q1]
    · rw [d2]; norm_num
    · rw [d2]
    · simp [d2]
  refine ⟨_, slerp_interior d1 d2 hf0' hf1', ?_⟩
  have hss : (slerpStart q1 q2).dot (slerpStart q1 q2) = 1 := by rw [slerpStart_self, d1]
  have hsq := slerpStart_dot q1 q2
  have hpm := slerpStart_eq q1 q2
  have hd0 := abs_nonneg (q1.dot q2)
  have hdsq : q1.dot q2 ^ 2 = |q1.dot q2| ^ 2 := (sq_abs _).symm
  rw [hdsq]
  have habs : ∀ r : Quat, |r.dot q1| = |r.dot (slerpStart q1 q2)| := by
    intro r
    rcases hpm with h | h <;> rw [h]
    rw [Quat.dot_neg, abs_neg]
  rw [habs]
  generalize slerpStart q1 q2 = s at *
  generalize |q1.dot q2| = e at *
  have hθ0 := Real.arccos_nonneg e
  have hθ1 : Real.arccos e ≤ Real.pi / 2 := Real.arccos_le_pi_div_two.mpr hd0
  have hcos := Real.cos_arccos hge hle
  have hsin := Real.sin_arccos e
  have hpi := Real.pi_pos
  have hm0 : 0 ≤ Real.arccos e * f := mul_nonneg hθ0 hf0
  have hm1 : Real.arccos e * f ≤ Real.arccos e := mul_le_of_le_one_right hθ0 hf1
  have hrest : (1 - f) * Real.arccos e = Real.arccos e - Real.arccos e * f := by ring
  rw [mul_comm f, hrest]
  generalize Real.arccos e = θ at *
  generalize θ * f = φ at *
  have hps : (q2 - e • s).dot s = 0 := by
    rw [Quat.sub_dot, Quat.smul_dot, hss, Quat.dot_comm q2 s, hsq]; ring
  have hpq : (q2 - e • s).dot q2 = 1 - e ^ 2 := by
    rw [Quat.sub_dot, Quat.smul_dot, hsq, d2]; ring
  have hpp : (q2 - e • s).dot (q2 - e • s) = 1 - e ^ 2 := by
    rw [Quat.dot_sub, Quat.dot_smul, hps, hpq]; ring
  have hn := (q2 - e • s).norm_mul_self
  have hn0 := (q2 - e • s).norm_nonneg
  rw [hpp] at hn
  have hnθ : (q2 - e • s).norm = Real.sin θ := by
    rw [hsin, Quat.norm, hpp]
  have hcφ : 0 ≤ Real.cos φ := Real.cos_nonneg_of_neg_pi_div_two_le_of_le (by linarith) (by linarith)
  have hcθφ : 0 ≤ Real.cos (θ - φ) :=
    Real.cos_nonneg_of_neg_pi_div_two_le_of_le (by linarith) (by linarith)
  have hsc := Real.sin_sq_add_cos_sq φ
  have hsφ0 : 0 ≤ Real.sin φ := Real.sin_nonneg_of_nonneg_of_le_pi hm0 (by linarith)
  have hsφθ : Real.sin φ ≤ Real.sin θ :=
    Real.sin_le_sin_of_le_of_le_pi_div_two (by linarith) hθ1 hm1
  by_cases hgt : (q2 - e • s).norm > 1e-8
  · have hne : (q2 - e • s).norm ≠ 0 := by linarith
    rw [Quat.normalize_of_gt hgt]
    generalize (q2 - e • s).norm = n at *
    have hr : (Real.cos φ • s + Real.sin φ • (1 / n) • (q2 - e • s)).dot
        (Real.cos φ • s + Real.sin φ • (1 / n) • (q2 - e • s)) = 1 := by
      simp only [Quat.add_dot, Quat.dot_add, Quat.smul_dot, Quat.dot_smul, hss, hps,
        Quat.dot_comm s (q2 - e • s), hpp]
      field_simp
      linear_combination n ^ 2 * hsc - (Real.sin φ) ^ 2 * hn
    refine ⟨?_, ?_, ?_, fun _ => ⟨Quat.norm_eq_one.mpr hr, ?_⟩⟩
    · simp only [Quat.add_dot, Quat.smul_dot, hss, hps]
      rw [mul_zero, mul_zero, mul_one, add_zero, abs_of_nonneg hcφ]
    · rw [hr]; norm_num
    · rw [hr]
    · simp only [Quat.add_dot, Quat.smul_dot, hsq, hpq]
      have : Real.cos φ * e + Real.sin φ * (1 / n * (1 - e ^ 2)) = Real.cos (θ - φ) := by
        rw [Real.cos_sub, hcos, ← hnθ]
        field_simp
        linear_combination (-Real.sin φ) * hn
      rw [this, abs_of_nonneg hcθφ]
  · have hle' : (q2 - e • s).norm ≤ 1e-8 := not_lt.mp hgt
    rw [Quat.normalize_of_le hle']
    have hsmall : 1 - e ^ 2 ≤ 1e-16 := by rw [← hn]; nlinarith
    have hr : (Real.cos φ • s + Real.sin φ • (q2 - e • s)).dot
        (Real.cos φ • s + Real.sin φ • (q2 - e • s)) =
          Real.cos φ ^ 2 + Real.sin φ ^ 2 * (1 - e ^ 2) := by
      simp only [Quat.add_dot, Quat.dot_add, Quat.smul_dot, Quat.dot_smul, hss, hps,
        Quat.dot_comm s (q2 - e • s), hpp]
      ring
    refine ⟨?_, ?_, ?_, fun hbig => absurd hbig (not_lt.mpr hsmall)⟩
    · simp only [Quat.add_dot, Quat.smul_dot, hss, hps]
      rw [mul_zero, mul_one, add_zero, abs_of_nonneg hcφ]
    · rw [hr]
      have hpos : 0 ≤ 1 - e ^ 2 := by rw [← hn]; positivity
      have : Real.sin φ ^ 2 ≤ 1 - e ^ 2 := by
        rw [← hn, hnθ, ← pow_two]
        exact pow_le_pow_left₀ hsφ0 hsφθ 2
      nlinarith [mul_nonneg (sq_nonneg (Real.sin φ)) hpos]
    · rw [hr]
      nlinarith [mul_nonneg (sq_nonneg (Real.sin φ)) (sq_nonneg e)]

/-- C08, the closed form: for 0 < f < 1 and quaternions that are not numerically parallel, the result
is the textbook slerp `(sin((1-f)θ) p + sin(fθ) q2) / sin θ` from the representative `p` of `q1` that is
closer to `q2` (so along the shorter arc). -/
theorem C08_textbook_formula (q1 q2 : Quat) (h1 : q1.norm = 1) (h2 : q2.norm = 1) (f : ℝ)
    (hf0 : 0 < f) (hf1 : f < 1) (hfar : 1 - q1.dot q2 ^ 2 > 1e-16) :
    ∃ r p, quaternionSlerp q1 q2 f = .ok r ∧ (p = q1 ∨ p = -q1) ∧ 0 ≤ p.dot q2 ∧
      Real.sin (Real.arccos (p.dot q2)) • r =
        Real.sin ((1 - f) * Real.arccos (p.dot q2)) • p +
        Real.sin (f * Real.arccos (p.dot q2)) • q2 := by
  have d1 := Quat.norm_eq_one.mp h1
  have d2 := Quat.norm_eq_one.mp h2
  refine ⟨_, slerpStart q1 q2, slerp_interior d1 d2 hf0 hf1, slerpStart_eq q1 q2, ?_, ?_⟩
  · rw [slerpStart_dot]; exact abs_nonneg _
  have hle : |q1.dot q2| ≤ 1 := abs_le.mpr ⟨Quat.neg_one_le_dot d1 d2, Quat.dot_le_one d1 d2⟩
  have hge : -1 ≤ |q1.dot q2| := by linarith [abs_nonneg (q1.dot q2)]
  have hss : (slerpStart q1 q2).dot (slerpStart q1 q2) = 1 := by rw [slerpStart_self, d1]
  have hsq := slerpStart_dot q1 q2
  have hdsq : q1.dot q2 ^ 2 = |q1.dot q2| ^ 2 := (sq_abs _).symm
  rw [hdsq] at hfar
  rw [hsq]
  generalize slerpStart q1 q2 = s at *
  generalize |q1.dot q2| = e at *
  have hpp : (q2 - e • s).dot (q2 - e • s) = 1 - e ^ 2 := by
    simp only [Quat.dot_sub, Quat.dot_smul, Quat.sub_dot, Quat.smul_dot, hss, d2,
      Quat.dot_comm q2 s, hsq]; ring
  have hnθ : (q2 - e • s).norm = Real.sin (Real.arccos e) := by
    rw [Real.sin_arccos, Quat.norm, hpp]
  have hgt : (q2 - e • s).norm > 1e-8 := by
    rw [Quat.norm, hpp]
    apply Real.lt_sqrt_of_sq_lt
    norm_num at hfar ⊢
    linarith
  rw [Quat.normalize_of_gt hgt, hnθ]
  have hne : Real.sin (Real.arccos e) ≠ 0 := by rw [← hnθ]; linarith
  have hcos := Real.cos_arccos hge hle
  have hrest : (1 - f) * Real.arccos e = Real.arccos e - Real.arccos e * f := by ring
  rw [mul_comm f, hrest, Real.sin_sub, hcos]
  generalize Real.sin (Real.arccos e) = sθ at *
  ext <;> simp <;> field_simp <;> ring

/-- Non-triviality: two unit quaternions at right angles. -/
example : (⟨0, 0, 0, 1⟩ : Quat).norm = 1 ∧ (⟨1, 0, 0, 0⟩ : Quat).norm = 1 ∧
    1 - (⟨0, 0, 0, 1⟩ : Quat).dot ⟨1, 0, 0, 0⟩ ^ 2 > 1e-16 := by
  refine ⟨Quat.norm_eq_one.mpr (by norm_num [Quat.dot]), Quat.norm_eq_one.mpr (by norm_num [Quat.dot]),
    by norm_num [Quat.dot]⟩

end HandEye
