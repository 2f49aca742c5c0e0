import Verif.Spec.SignalNoise
import Verif.Props.ClockFrames
import Verif.Lemmas.Batch
import Mathlib.Analysis.Calculus.MeanValue
import Mathlib.Analysis.SpecialFunctions.Trigonometric.InverseDeriv
import Mathlib.Analysis.SpecialFunctions.Trigonometric.Bounds
import Mathlib.Analysis.SpecialFunctions.Sqrt

/-! # Lemmas: how errors of orientations enter rotation vectors -/

namespace HandEye

open Spec

/-- The factor between the vector part of a unit quaternion and its rotation vector. -/
noncomputable def stretch (w : ℝ) : ℝ := 2 * Real.arccos w / √(1 - w * w)

theorem arccos_facts {w : ℝ} (h0 : 0 ≤ w) (h1 : w < 1) : 0 < Real.arccos w ∧ Real.arccos w ≤ Real.pi / 2 ∧
    Real.sin (Real.arccos w) = √(1 - w * w) ∧ 0 < √(1 - w * w) := by
  refine ⟨Real.arccos_pos.mpr h1, ?_, ?_, Real.sqrt_pos.mpr (by nlinarith)⟩
  · exact Real.arccos_le_pi_div_two.mpr h0
  · rw [Real.sin_arccos, sq]

theorem stretch_le {w : ℝ} (h0 : 0 ≤ w) (h1 : w < 1) : 0 ≤ stretch w ∧ stretch w ≤ Real.pi := by
  obtain ⟨a, b, c, d⟩ := arccos_facts h0 h1
  unfold stretch
  refine ⟨by positivity, ?_⟩
  rw [div_le_iff₀ d, ← c]
  have := Real.mul_le_sin a.le b
  have hp := Real.pi_pos
  have h2 : Real.pi * (2 / Real.pi * Real.arccos w) ≤ Real.pi * Real.sin (Real.arccos w) := mul_le_mul_of_nonneg_left this hp.le
  have h3 : Real.pi * (2 / Real.pi * Real.arccos w) = 2 * Real.arccos w := by field_simp
  linarith

theorem stretch_lipschitz {v w : ℝ} (v0 : 0 ≤ v) (v1 : v < 1) (w0 : 0 ≤ w) (w1 : w < 1) : |stretch v - stretch w| ≤ 2 * |v - w| := by
  have hderiv : ∀ x ∈ Set.Ico (0 : ℝ) 1, HasDerivWithinAt stretch
      ((2 * -(1 / √(1 - x ^ 2)) * √(1 - x * x) - 2 * Real.arccos x * (-(2 * x) / (2 * √(1 - x * x)))) / √(1 - x * x) ^ 2) (Set.Ico 0 1) x := by
    intro x hx
    obtain ⟨a, b, c, d⟩ := arccos_facts hx.1 hx.2
    have h1 : HasDerivAt (fun x => 2 * Real.arccos x) (2 * -(1 / √(1 - x ^ 2))) x :=
      (Real.hasDerivAt_arccos (by linarith [hx.1]) hx.2.ne).const_mul 2
    have h2 : HasDerivAt (fun x : ℝ => 1 - x * x) (-(2 * x)) x := by
      have := ((hasDerivAt_id x).mul (hasDerivAt_id x)).const_sub 1
      simp only [id] at this
      refine this.congr_deriv ?_
      ring
    have h3 : HasDerivAt (fun x : ℝ => √(1 - x * x)) (-(2 * x) / (2 * √(1 - x * x))) x := h2.sqrt (by have := hx.1; have := hx.2; nlinarith)
    exact (h1.div h3 d.ne').hasDerivWithinAt
  have hbound : ∀ x ∈ Set.Ico (0 : ℝ) 1,
      ‖(2 * -(1 / √(1 - x ^ 2)) * √(1 - x * x) - 2 * Real.arccos x * (-(2 * x) / (2 * √(1 - x * x)))) / √(1 - x * x) ^ 2‖ ≤ 2 := by
    intro x hx
    obtain ⟨a, b, c, d⟩ := arccos_facts hx.1 hx.2
    rw [← sq] at c d ⊢
    have hs : √(1 - x ^ 2) ^ 2 = 1 - x ^ 2 := Real.sq_sqrt (by have := hx.1; have := hx.2; nlinarith)
    have hx0 := hx.1
    have hx1 := hx.2
    have k1 : x * Real.arccos x ≤ √(1 - x ^ 2) := by
      rcases eq_or_lt_of_le b with hb | hb
      · have : x = 0 := by
          have := congrArg Real.cos hb
          rwa [Real.cos_arccos (by linarith) hx1.le, Real.cos_pi_div_two] at this
        rw [this]
        simp
      · have := Real.le_tan a.le hb
        rw [Real.tan_eq_sin_div_cos, c, Real.cos_arccos (by linarith) hx1.le] at this
        have hxp : 0 < x := by
          rw [← Real.cos_arccos (by linarith) hx1.le]
          exact Real.cos_pos_of_mem_Ioo ⟨by linarith [Real.pi_pos], hb⟩
        rw [le_div_iff₀ hxp] at this
        linarith
    have k2 : √(1 - x ^ 2) ≤ Real.arccos x := by
      rw [← c]
      exact Real.sin_le a.le
    set s := √(1 - x ^ 2) with hsd
    set θ := Real.arccos x with hθ
    have e : (2 * -(1 / s) * s - 2 * θ * (-(2 * x) / (2 * s))) / s ^ 2 = -(2 * (s - x * θ)) / s ^ 3 := by
      field_simp
      ring
    rw [e, Real.norm_eq_abs, abs_div, abs_neg, abs_of_nonneg (by linarith : 0 ≤ 2 * (s - x * θ)), abs_of_pos (by positivity), div_le_iff₀ (by positivity)]
    have : s ^ 3 = s * (1 - x ^ 2) := by rw [← hs]; ring
    rw [this]
    have k3 : x * s ≤ x * θ := mul_le_mul_of_nonneg_left k2 hx0
    have k4 : x * (x * s) ≤ x * s := by nlinarith [mul_nonneg hx0 d.le]
    nlinarith
  have := Convex.norm_image_sub_le_of_norm_hasDerivWithin_le hderiv hbound (convex_Ico 0 1) ⟨w0, w1⟩ ⟨v0, v1⟩
  rwa [Real.norm_eq_abs, Real.norm_eq_abs] at this

/-- The rotation vector of a quaternion with a scalar part that is not negative. -/
noncomputable def logVector (d : Quat) : Vec3 := (2 * Real.arccos d.w / d.vec.norm) • d.vec

theorem vec_norm {d : Quat} (h : d.dot d = 1) : d.vec.norm = √(1 - d.w * d.w) := by
  unfold Vec3.norm
  congr 1
  simp only [Quat.dot] at h
  simp only [Vec3.dot, Quat.vec]
  linarith

theorem unit_w_le {d : Quat} (h : d.dot d = 1) : d.w ≤ 1 := by
  simp only [Quat.dot] at h
  nlinarith [mul_self_nonneg d.x, mul_self_nonneg d.y, mul_self_nonneg d.z]

theorem vec_zero {d : Quat} (h : d.dot d = 1) (hw : d.w = 1) : d.x = 0 ∧ d.y = 0 ∧ d.z = 0 := by
  simp only [Quat.dot] at h
  rw [hw] at h
  refine ⟨?_, ?_, ?_⟩ <;> apply mul_self_eq_zero.mp <;>
    nlinarith [mul_self_nonneg d.x, mul_self_nonneg d.y, mul_self_nonneg d.z]

theorem unit_le {d : Quat} (h : d.dot d = 1) : |d.x| ≤ 1 ∧ |d.y| ≤ 1 ∧ |d.z| ≤ 1 := by
  simp only [Quat.dot] at h
  refine ⟨?_, ?_, ?_⟩ <;> apply abs_le_of_sq_le_sq _ zero_le_one <;>
    nlinarith [mul_self_nonneg d.x, mul_self_nonneg d.y, mul_self_nonneg d.z, mul_self_nonneg d.w]

theorem stretch_component {v w a b e : ℝ} (v0 : 0 ≤ v) (v1 : v ≤ 1) (w0 : 0 ≤ w) (w1 : w ≤ 1) (hv : v = 1 → a = 0) (hw : w = 1 → b = 0)
    (hb : |b| ≤ 1) (hvw : |v - w| ≤ e) (hab : |a - b| ≤ e) : |stretch v * a - stretch w * b| ≤ (Real.pi + 2) * e := by
  have he : 0 ≤ e := (abs_nonneg _).trans hvw
  have hp := Real.pi_pos
  rcases eq_or_lt_of_le v1 with h | v1
  · rw [hv h, mul_zero, zero_sub, abs_neg, abs_mul]
    rcases eq_or_lt_of_le w1 with h' | w1
    · rw [hw h', abs_zero, mul_zero]
      positivity
    · obtain ⟨s0, s1⟩ := stretch_le w0 w1
      rw [hv h, zero_sub, abs_neg] at hab
      rw [abs_of_nonneg s0]
      nlinarith [abs_nonneg b]
  · obtain ⟨s0, s1⟩ := stretch_le v0 v1
    rcases eq_or_lt_of_le w1 with h' | w1
    · rw [hw h', sub_zero] at hab
      rw [hw h', mul_zero, sub_zero, abs_mul, abs_of_nonneg s0]
      nlinarith [abs_nonneg a]
    · have hl := stretch_lipschitz v0 v1 w0 w1
      have : stretch v * a - stretch w * b = stretch v * (a - b) + (stretch v - stretch w) * b := by ring
      rw [this]
      refine (abs_add_le _ _).trans ?_
      rw [abs_mul, abs_mul, abs_of_nonneg s0]
      have k1 : stretch v * |a - b| ≤ Real.pi * e := mul_le_mul s1 hab (abs_nonneg _) hp.le
      have k2 : |stretch v - stretch w| * |b| ≤ (2 * e) * 1 := mul_le_mul (by linarith) hb (abs_nonneg _) (by positivity)
      linarith

theorem logVector_near {d r : Quat} (hd : d.dot d = 1) (hr : r.dot r = 1) (dw : 0 ≤ d.w) (rw' : 0 ≤ r.w) {e : ℝ} (ex : |d.x - r.x| ≤ e)
    (ey : |d.y - r.y| ≤ e) (ez : |d.z - r.z| ≤ e) (ew : |d.w - r.w| ≤ e) : NearVec ((Real.pi + 2) * e) (logVector d) (logVector r) := by
  have key : ∀ q : Quat, q.dot q = 1 → logVector q = stretch q.w • q.vec := by
    intro q hq
    unfold logVector stretch
    rw [vec_norm hq]
  rw [key d hd, key r hr]
  obtain ⟨b1, b2, b3⟩ := unit_le hr
  exact ⟨stretch_component dw (unit_w_le hd) rw' (unit_w_le hr) (fun h => (vec_zero hd h).1) (fun h => (vec_zero hr h).1) b1 ew ex,
    stretch_component dw (unit_w_le hd) rw' (unit_w_le hr) (fun h => (vec_zero hd h).2.1) (fun h => (vec_zero hr h).2.1) b2 ew ey,
    stretch_component dw (unit_w_le hd) rw' (unit_w_le hr) (fun h => (vec_zero hd h).2.2) (fun h => (vec_zero hr h).2.2) b3 ew ez⟩

theorem component_le (q : Quat) : |q.x| ≤ q.norm ∧ |q.y| ≤ q.norm ∧ |q.z| ≤ q.norm ∧ |q.w| ≤ q.norm := by
  have h := q.norm_sq
  have h0 := q.norm_nonneg
  simp only [Quat.dot] at h
  refine ⟨?_, ?_, ?_, ?_⟩ <;> apply abs_le_of_sq_le_sq _ h0 <;>
    nlinarith [mul_self_nonneg q.x, mul_self_nonneg q.y, mul_self_nonneg q.z, mul_self_nonneg q.w]

theorem relative_near {p q P Q : Quat} (hq : q.norm = 1) (hP : P.norm = 1) {η : ℝ} (h1 : (p - P).norm ≤ η) (h2 : (q - Q).norm ≤ η) :
    (p * q.conj - P * Q.conj).norm ≤ 2 * η := by
  have : p * q.conj - P * Q.conj = (p - P) * q.conj + P * (q - Q).conj := by
    apply Quat.toH_injective
    rw [Quat.toH_sub, Quat.toH_add, Quat.toH_mul, Quat.toH_mul, Quat.toH_mul, Quat.toH_mul, Quat.toH_sub, Quat.toH_conj, Quat.toH_conj, Quat.toH_conj,
      Quat.toH_sub, star_sub]
    noncomm_ring
  rw [this, ← quat_norm_toH, Quat.toH_add]
  refine (norm_add_le _ _).trans ?_
  rw [quat_norm_toH, quat_norm_toH, Quat.norm_mul, Quat.norm_mul, Quat.norm_conj, Quat.norm_conj, hq, hP, mul_one, one_mul]
  linarith

theorem rotationVector_log (a b : Quat) : Spec.rotationVector a b = logVector (if 0 ≤ a.dot b then a * b.conj else -(a * b.conj)) := by
  have hw : (a * b.conj).w = a.dot b := by simp [Quat.dot]; ring
  unfold Spec.rotationVector logVector
  split_ifs with h
  · rw [abs_of_nonneg h, hw]
  · have hv : (-(a * b.conj)).vec = (-1 : ℝ) • (a * b.conj).vec := by ext <;> simp [Quat.vec]
    rw [hv, Vec3.norm_smul, abs_neg, abs_one, one_mul, Quat.neg_w, hw, abs_of_neg (not_le.mp h)]

/-- Rotation vectors of noisy orientations. -/
theorem rotationVector_near {p q P Q : Quat} (hp : p.norm = 1) (hq : q.norm = 1) (hP : P.norm = 1) (hQ : Q.norm = 1) {η : ℝ}
    (h1 : (p - P).norm ≤ η) (h2 : (q - Q).norm ≤ η) (h3 : 2 * η < |P.dot Q|) :
    NearVec ((Real.pi + 2) * (2 * η)) (Spec.rotationVector p q) (Spec.rotationVector P Q) := by
  have hrel := relative_near hq hP h1 h2
  obtain ⟨cx, cy, cz, cw⟩ := component_le (p * q.conj - P * Q.conj)
  have e1 : (p * q.conj).w = p.dot q := by simp [Quat.dot]; ring
  have e2 : (P * Q.conj).w = P.dot Q := by simp [Quat.dot]; ring
  have u1 : (p * q.conj).dot (p * q.conj) = 1 := by rw [Quat.dot_mul_left, Quat.norm_eq_one.mp hp, Quat.dot_conj_conj, Quat.norm_eq_one.mp hq, one_mul]
  have u2 : (P * Q.conj).dot (P * Q.conj) = 1 := by rw [Quat.dot_mul_left, Quat.norm_eq_one.mp hP, Quat.dot_conj_conj, Quat.norm_eq_one.mp hQ, one_mul]
  rw [Quat.sub_x] at cx
  rw [Quat.sub_y] at cy
  rw [Quat.sub_z] at cz
  rw [Quat.sub_w] at cw
  have hw := cw.trans hrel
  rw [e1, e2] at hw
  have hw' := abs_le.mp hw
  rw [rotationVector_log, rotationVector_log]
  by_cases h0 : 0 ≤ P.dot Q
  · rw [abs_of_nonneg h0] at h3
    rw [if_pos h0, if_pos (by linarith)]
    exact logVector_near u1 u2 (by rw [e1]; linarith) (by rw [e2]; exact h0) (cx.trans hrel) (cy.trans hrel) (cz.trans hrel) (cw.trans hrel)
  · rw [abs_of_neg (not_le.mp h0)] at h3
    rw [if_neg h0, if_neg (by linarith)]
    have n1 : ∀ d : Quat, (-d).dot (-d) = d.dot d := fun d => by simp [Quat.dot]
    have n2 : ∀ a b : ℝ, |-a - -b| = |a - b| := fun a b => by rw [show -a - -b = -(a - b) by ring, abs_neg]
    exact logVector_near (by rw [n1]; exact u1) (by rw [n1]; exact u2) (by rw [Quat.neg_w, e1]; linarith) (by rw [Quat.neg_w, e2]; linarith)
      (by rw [Quat.neg_x, Quat.neg_x, n2]; exact cx.trans hrel) (by rw [Quat.neg_y, Quat.neg_y, n2]; exact cy.trans hrel)
      (by rw [Quat.neg_z, Quat.neg_z, n2]; exact cz.trans hrel) (by rw [Quat.neg_w, Quat.neg_w, n2]; exact cw.trans hrel)

theorem vec_component_le (v : Vec3) : |v.x| ≤ v.norm ∧ |v.y| ≤ v.norm ∧ |v.z| ≤ v.norm := by
  have h := v.norm_mul_self
  have h0 := v.norm_nonneg
  simp only [Vec3.dot] at h
  refine ⟨?_, ?_, ?_⟩ <;> apply abs_le_of_sq_le_sq _ h0 <;> nlinarith [mul_self_nonneg v.x, mul_self_nonneg v.y, mul_self_nonneg v.z]

theorem small_arccos {w : ℝ} (h : 1 - 1.1e-5 ≤ w) : Real.arccos w ≤ 0.0047 := by
  have hc : Real.cos 0.0047 ≤ 1 - 1.1e-5 := by
    have := (abs_le.mp (Real.cos_bound (x := 0.0047) (by norm_num [abs_le]))).2
    rw [abs_of_pos (by norm_num)] at this
    norm_num at this ⊢
    linarith
  calc Real.arccos w ≤ Real.arccos (Real.cos 0.0047) := Real.arccos_le_arccos (hc.trans h)
    _ = 0.0047 := Real.arccos_cos (by norm_num) (by linarith [Real.two_le_pi])

theorem rotationVector_norm_le {p q : Quat} : (Spec.rotationVector p q).norm ≤ 2 * Real.arccos |p.dot q| := by
  have hn : (if 0 ≤ p.dot q then (p * q.conj).vec else (-1 : ℝ) • (p * q.conj).vec).norm = (p * q.conj).vec.norm := by
    split_ifs
    · rfl
    · rw [Vec3.norm_smul, abs_neg, abs_one, one_mul]
  have h0 := Real.arccos_nonneg |p.dot q|
  unfold Spec.rotationVector
  rw [Vec3.norm_smul, hn, abs_div, abs_of_nonneg (by positivity), abs_of_nonneg (Vec3.norm_nonneg _)]
  rcases eq_or_lt_of_le (Vec3.norm_nonneg (p * q.conj).vec) with h | h
  · rw [← h, mul_zero]
    positivity
  · rw [div_mul_cancel₀ _ h.ne']

/-- The computed velocity is that of the rotation vector up to the rotations that are taken for none. -/
theorem velocity_near {p q : Quat} (hp : p.norm = 1) (hq : q.norm = 1) {t : ℝ} (ht : 0 < t) :
    ∃ v, angularVelocityBetweenQuaternions p q t = .ok v ∧ NearVec (0.0094 / t) v ((1 / (2 * t)) • Spec.rotationVector p q) := by
  have dp := Quat.norm_eq_one.mp hp
  have dq := Quat.norm_eq_one.mp hq
  by_cases h : |p.dot q| < 1 - 1.1e-5
  · refine ⟨_, velocity_value dp dq ht (Or.inr h), ?_⟩
    have : 0 ≤ 0.0094 / t := by positivity
    simp [NearVec, this]
  · obtain ⟨v, e1, e2, e3⟩ := velocity_norm dp dq ht.ne'
    have ha := small_arccos (not_lt.mp h)
    have ha0 := Real.arccos_nonneg |p.dot q|
    have hv : v.norm ≤ 0.0047 / t := by
      by_cases h' : |(|p.dot q| - 1)| ≤ 1e-12 + 1e-5
      · rw [e2 h']
        positivity
      · rw [e3 (not_le.mp h'), abs_of_pos ht]
        exact div_le_div_of_nonneg_right ha ht.le
    have hr : ((1 / (2 * t)) • Spec.rotationVector p q).norm ≤ 0.0047 / t := by
      rw [Vec3.norm_smul, abs_of_pos (by positivity)]
      have := rotationVector_norm_le (p := p) (q := q)
      calc 1 / (2 * t) * (Spec.rotationVector p q).norm ≤ 1 / (2 * t) * (2 * 0.0047) :=
            mul_le_mul_of_nonneg_left (by linarith) (by positivity)
        _ = 0.0047 / t := by field_simp
    refine ⟨v, e1, ?_⟩
    obtain ⟨a1, a2, a3⟩ := vec_component_le v
    obtain ⟨b1, b2, b3⟩ := vec_component_le ((1 / (2 * t)) • Spec.rotationVector p q)
    have hsum : 0.0047 / t + 0.0047 / t = 0.0094 / t := by rw [← add_div]; norm_num
    exact ⟨(abs_sub _ _).trans (by linarith), (abs_sub _ _).trans (by linarith), (abs_sub _ _).trans (by linarith)⟩

end HandEye
