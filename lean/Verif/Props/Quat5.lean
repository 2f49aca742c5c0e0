import Verif.Props.Quat4

/-! # Properties C09 to C11 of `quaternion.py` -/

namespace HandEye

/-! ## C09 quaternions_interpolate -/

/-- When exactly `quaternion_slerp` succeeds. -/
theorem slerp_isOk_iff (q1 q2 : Quat) (f : ℝ) :
    (∃ r, quaternionSlerp q1 q2 f = .ok r) ↔
      (0 ≤ f ∧ f ≤ 1) ∧ npIsclose q1.norm 1 1e-8 ∧ npIsclose q2.norm 1 1e-8 := by
  unfold quaternionSlerp
  by_cases h1 : f ≥ 0 ∧ f ≤ 1
  swap
  · rw [pyAssert_neg h1]
    constructor
    · rintro ⟨r, hr⟩; simp at hr
    · rintro ⟨h, -⟩; exact absurd h h1
  by_cases h2 : npIsclose q1.norm 1 1e-8
  swap
  · rw [pyAssert_pos h1, pyAssert_neg h2]
    constructor
    · rintro ⟨r, hr⟩; simp at hr
    · rintro ⟨-, h, -⟩; exact absurd h h2
  by_cases h3 : npIsclose q2.norm 1 1e-8
  swap
  · rw [pyAssert_pos h1, pyAssert_pos h2, pyAssert_neg h3]
    constructor
    · rintro ⟨r, hr⟩; simp at hr
    · rintro ⟨-, -, h⟩; exact absurd h h3
  refine ⟨fun _ => ⟨h1, h2, h3⟩, fun _ => ?_⟩
  rw [pyAssert_pos h1, pyAssert_pos h2, pyAssert_pos h3]
  simp only [Py.ok_bind]
  split
  · exact ⟨_, rfl⟩
  split
  · exact ⟨_, rfl⟩
  have : ∀ x : ℝ, -1 ≤ npClip x (-1) 1 ∧ npClip x (-1) 1 ≤ 1 := by
    intro x
    unfold npClip
    exact ⟨le_min (by norm_num) (le_max_right _ _), min_le_left _ _⟩
  rw [npArccos_ok (this _).1 (this _).2]
  exact ⟨_, rfl⟩

/-- The element-wise steps of `quaternions_interpolate` for `t_left ≠ t_right`. -/
theorem interpolate_eq (ql qr : Quat) (tl tr : ℝ) (h : tl < tr) (times : List ℝ) :
    quaternionsInterpolate ql tl qr tr times =
      (times.map fun t => (t - tl) / (tr - tl)).mapM fun f => quaternionSlerp ql qr f := by
  unfold quaternionsInterpolate
  rw [Py.mapM_ok (g := fun t => (t - tl) / (tr - tl))
    (fun t _ => npDiv_ok (sub_pos.mpr h).ne')]
  rfl

theorem scaled_mem {tl tr t : ℝ} (h : tl < tr) :
    (0 ≤ (t - tl) / (tr - tl) ∧ (t - tl) / (tr - tl) ≤ 1) ↔ tl ≤ t ∧ t ≤ tr := by
  have hp := sub_pos.mpr h
  rw [div_le_one hp, le_div_iff₀ hp]
  constructor <;> rintro ⟨a, b⟩ <;> constructor <;> linarith

/-- C09, when it succeeds: exactly if no time was asked for, or both quaternions pass the code's test
for unit length and every time lies in the interval. -/
theorem C09_success_iff (ql qr : Quat) (tl tr : ℝ) (h : tl < tr) (times : List ℝ) :
    (∃ rs, quaternionsInterpolate ql tl qr tr times = .ok rs) ↔
      (times = [] ∨ (|ql.norm - 1| ≤ 1e-8 + 1e-5 ∧ |qr.norm - 1| ≤ 1e-8 + 1e-5 ∧
        ∀ t ∈ times, tl ≤ t ∧ t ≤ tr)) := by
  rw [interpolate_eq ql qr tl tr h]
  have hc : ∀ q : Quat, npIsclose q.norm 1 1e-8 ↔ |q.norm - 1| ≤ 1e-8 + 1e-5 := by
    intro q; simp [npIsclose]
  constructor
  · rintro ⟨rs, hrs⟩
    rw [Py.mapM_eq_ok, List.forall₂_map_left_iff] at hrs
    cases times with
    | nil => exact Or.inl rfl
    | cons t0 ts =>
      right
      have hall : ∀ t ∈ t0 :: ts, ∃ r, quaternionSlerp ql qr ((t - tl) / (tr - tl)) = .ok r := by
        intro t ht
        obtain ⟨i, hi, rfl⟩ := List.getElem_of_mem ht
        have hl := hrs.length_eq
        exact ⟨rs[i]'(hl ▸ hi), hrs.get hi (hl ▸ hi)⟩
      have h0 := (slerp_isOk_iff _ _ _).mp (hall t0 (by simp))
      refine ⟨(hc _).mp h0.2.1, (hc _).mp h0.2.2, fun t ht => ?_⟩
      exact (scaled_mem h).mp ((slerp_isOk_iff _ _ _).mp (hall t ht)).1
  · rintro (rfl | ⟨h1, h2, h3⟩)
    · exact ⟨[], rfl⟩
    · induction times with
      | nil => exact ⟨[], rfl⟩
      | cons t0 ts ih =>
        obtain ⟨rs, hrs⟩ := ih (fun t ht => h3 t (List.mem_cons_of_mem _ ht))
        obtain ⟨r, hr⟩ := (slerp_isOk_iff ql qr ((t0 - tl) / (tr - tl))).mpr
          ⟨(scaled_mem h).mpr (h3 t0 (by simp)), (hc _).mpr h1, (hc _).mpr h2⟩
        exact ⟨r :: rs, by rw [List.map_cons, Py.mapM_cons, hr, hrs]; rfl⟩

/-- C09, what it returns: one quaternion per time; for unit quaternions, the left one at the left
time, the right one at the right time, and in between at the proportional angle. -/
theorem C09_result (ql qr : Quat) (tl tr : ℝ) (h : tl < tr) (times : List ℝ) (rs : List Quat)
    (h1 : ql.norm = 1) (h2 : qr.norm = 1)
    (hrs : quaternionsInterpolate ql tl qr tr times = .ok rs) :
    rs.length = times.length ∧
    ∀ (i : ℕ) (hi : i < times.length) (hr : i < rs.length),
      (times[i] = tl → rs[i] = ql) ∧ (times[i] = tr → rs[i] = qr) ∧
      |rs[i].dot ql| = Real.cos ((times[i] - tl) / (tr - tl) * Real.arccos |ql.dot qr|) := by
  rw [interpolate_eq ql qr tl tr h, Py.mapM_eq_ok, List.forall₂_map_left_iff] at hrs
  refine ⟨hrs.length_eq.symm, fun i hi hr => ?_⟩
  have hs := hrs.get hi hr
  simp only [List.get_eq_getElem] at hs
  have hne : tr - tl ≠ 0 := (sub_pos.mpr h).ne'
  refine ⟨fun he => ?_, fun he => ?_, ?_⟩
  · rw [he, sub_self, zero_div, (C08_endpoints ql qr h1 h2).1] at hs
    exact (Except.ok.inj hs).symm
  · rw [he, div_self hne, (C08_endpoints ql qr h1 h2).2] at hs
    exact (Except.ok.inj hs).symm
  · have hf := ((slerp_isOk_iff _ _ _).mp ⟨_, hs⟩).1
    obtain ⟨r, hr', hd, -⟩ := C08_slerp ql qr h1 h2 _ hf.1 hf.2
    rw [hs] at hr'
    rw [Except.ok.inj hr']
    exact hd

/-- Non-triviality: three times in an interval. -/
example : ∃ rs, quaternionsInterpolate ⟨0, 0, 0, 1⟩ 2 ⟨1, 0, 0, 0⟩ 5 [2, 3, 5] = .ok rs := by
  have e : ∀ q : Quat, q.dot q = 1 → |q.norm - 1| ≤ 1e-8 + 1e-5 := by
    intro q hq; rw [Quat.norm_eq_one.mpr hq]; norm_num
  rw [C09_success_iff _ _ _ _ (by norm_num)]
  exact Or.inr ⟨e _ (by norm_num [Quat.dot]), e _ (by norm_num [Quat.dot]), by
    intro t ht; simp at ht; rcases ht with rfl | rfl | rfl <;> norm_num⟩

/-! ## C10 angular_velocity_between_quaternions -/

/-- The orientation reached from `q` by turning for time `t` with constant angular velocity `rate * n`
(expressed in the fixed frame). -/
noncomputable def Spec.turned (q : Quat) (n : Vec3) (rate t : ℝ) : Quat :=
  (⟨Real.sin (rate * t / 2) * n.x, Real.sin (rate * t / 2) * n.y, Real.sin (rate * t / 2) * n.z,
    Real.cos (rate * t / 2)⟩ : Quat) * q

theorem angleAxis_close {q : Quat} (h : npIsclose q.w 1 1e-12) :
    q.angleAxis = .ok (⟨1, 0, 0⟩, 0) := by
  unfold Quat.angleAxis; rw [if_pos h]

theorem angleAxis_far {q : Quat} (h : ¬ npIsclose q.w 1 1e-12) (h0 : -1 ≤ q.w) (h1 : q.w ≤ 1)
    (hs : Real.sqrt (1 - q.w * q.w) ≠ 0) :
    q.angleAxis = .ok (⟨q.x / Real.sqrt (1 - q.w * q.w), q.y / Real.sqrt (1 - q.w * q.w),
      q.z / Real.sqrt (1 - q.w * q.w)⟩, 2 * Real.arccos q.w) := by
  have hpos : 0 ≤ 1 - q.w * q.w := by nlinarith
  unfold Quat.angleAxis
  rw [if_neg h, npArccos_ok h0 h1, npSqrt_ok hpos]
  simp only [Py.ok_bind, npDiv_ok hs, Py.pure_eq]

/-- C10, what the code returns: minus one half of the angular velocity `rate * n`, and zero if the
rotation is so small that the cosine of half of the angle is within 1.0e-5 of one. -/
theorem C10_value_partial (q : Quat) (n : Vec3) (rate t : ℝ) (hq : q.norm = 1) (hn : n.norm = 1)
    (hr : 0 ≤ rate) (ht : 0 < t) (hpi : rate * t ≤ Real.pi) :
    angularVelocityBetweenQuaternions q (Spec.turned q n rate t) t =
      .ok (if 1 - Real.cos (rate * t / 2) ≤ 1e-12 + 1e-5 then ⟨0, 0, 0⟩
        else (-(rate / 2)) • n) := by
  have dq := Quat.norm_eq_one.mp hq
  have dn := Vec3.norm_eq_one.mp hn
  simp only [Vec3.dot] at dn
  have hrt : 0 ≤ rate * t := mul_nonneg hr ht.le
  have hsc := Real.sin_sq_add_cos_sq (rate * t / 2)
  have hc0 : 0 ≤ Real.cos (rate * t / 2) :=
    Real.cos_nonneg_of_neg_pi_div_two_le_of_le (by linarith [Real.pi_pos]) (by linarith)
  have hs0 : 0 ≤ Real.sin (rate * t / 2) :=
    Real.sin_nonneg_of_nonneg_of_le_pi (by linarith) (by linarith [Real.pi_pos])
  have hac : Real.arccos (Real.cos (rate * t / 2)) = rate * t / 2 :=
    Real.arccos_cos (by linarith) (by linarith [Real.pi_pos])
  unfold angularVelocityBetweenQuaternions Spec.turned
  have hRdot : (⟨Real.sin (rate * t / 2) * n.x, Real.sin (rate * t / 2) * n.y,
      Real.sin (rate * t / 2) * n.z, Real.cos (rate * t / 2)⟩ : Quat).dot
      ⟨Real.sin (rate * t / 2) * n.x, Real.sin (rate * t / 2) * n.y,
      Real.sin (rate * t / 2) * n.z, Real.cos (rate * t / 2)⟩ = 1 := by
    simp only [Quat.dot]
    linear_combination Real.sin (rate * t / 2) ^ 2 * dn + hsc
  generalize hR : (⟨Real.sin (rate * t / 2) * n.x, Real.sin (rate * t / 2) * n.y,
      Real.sin (rate * t / 2) * n.z, Real.cos (rate * t / 2)⟩ : Quat) = R at *
  have hd : (R * q).dot (R * q) = 1 := by rw [Quat.dot_mul_mul, hRdot, dq, one_mul]
  rw [Quat.inverse_unit hd]
  have hmul : q * (R * q).conj = R.conj := by
    rw [Quat.conj_mul_rev, ← mul_assoc, Quat.mul_conj_unit dq, one_mul]
  simp only [Py.ok_bind, hmul]
  subst hR
  rw [if_neg (by rw [Quat.conj_w]; exact not_lt.mpr hc0)]
  have hcl : npIsclose (Real.cos (rate * t / 2)) 1 1e-12 ↔
      1 - Real.cos (rate * t / 2) ≤ 1e-12 + 1e-5 := by
    simp only [npIsclose, abs_one, mul_one]
    rw [abs_of_nonpos (by linarith [Real.cos_le_one (rate * t / 2)])]
    ring_nf
  by_cases hb : 1 - Real.cos (rate * t / 2) ≤ 1e-12 + 1e-5
  · rw [angleAxis_close (hcl.mpr hb), if_pos hb]
    simp only [Py.ok_bind, npDiv_ok ht.ne', Py.pure_eq]
    congr 1
    ext <;> simp
  · rw [if_neg hb]
    have hsp : 0 < Real.sin (rate * t / 2) := by
      rcases hs0.eq_or_lt with h | h
      · exfalso; apply hb
        rw [← h] at hsc
        have : Real.cos (rate * t / 2) = 1 := by nlinarith
        rw [this]; norm_num
      · exact h
    have hsq : Real.sqrt (1 - Real.cos (rate * t / 2) * Real.cos (rate * t / 2)) =
        Real.sin (rate * t / 2) := by
      rw [show 1 - Real.cos (rate * t / 2) * Real.cos (rate * t / 2) =
        Real.sin (rate * t / 2) ^ 2 by linear_combination -hsc, Real.sqrt_sq hs0]
    rw [angleAxis_far (fun h => hb (hcl.mp h)) (by rw [Quat.conj_w]; linarith)
      (by rw [Quat.conj_w]; exact Real.cos_le_one _) (by simp only [Quat.conj_w, hsq]; exact hsp.ne')]
    simp only [Py.ok_bind, Quat.conj_w, Quat.conj_x, Quat.conj_y, Quat.conj_z, hsq, hac,
      npDiv_ok ht.ne', Py.pure_eq]
    congr 1
    generalize Real.sin (rate * t / 2) = σ at *
    ext <;> simp <;> field_simp <;> norm_num

/-- C10 refuted: for no rotating motion (with rotation angle up to pi) does the code return the
angular velocity. -/
theorem C10_refuted (q : Quat) (n : Vec3) (rate t : ℝ) (hq : q.norm = 1) (hn : n.norm = 1)
    (hr : 0 < rate) (ht : 0 < t) (hpi : rate * t ≤ Real.pi) :
    angularVelocityBetweenQuaternions q (Spec.turned q n rate t) t ≠ .ok (rate • n) := by
  rw [C10_value_partial q n rate t hq hn hr.le ht hpi]
  intro h
  have h := congrArg Vec3.norm (Except.ok.inj h)
  split at h
  · rw [Vec3.norm_eq_zero.mpr rfl, Vec3.norm_smul, hn, abs_of_pos hr] at h
    linarith
  · rw [Vec3.norm_smul, Vec3.norm_smul, hn, abs_of_pos hr, abs_neg, abs_of_pos (by linarith)] at h
    linarith

/-- Non-triviality: half a radian per second for a second about the x axis. -/
example : (⟨0, 0, 0, 1⟩ : Quat).norm = 1 ∧ (⟨1, 0, 0⟩ : Vec3).norm = 1 ∧ (0 : ℝ) < 1 / 2 ∧
    (1 / 2 : ℝ) * 1 ≤ Real.pi :=
  ⟨Quat.norm_eq_one.mpr (by norm_num [Quat.dot]), Vec3.norm_eq_one.mpr (by norm_num [Vec3.dot]),
    by norm_num, by have := Real.one_le_pi_div_two; linarith⟩

/-! ## C11 angle_between_quaternions -/

/-- C11, value: twice the angle on the sphere, unless the arrays are close element by element, in
which case it is 0 and the quaternions are within 6e-11 of having dot product 1. -/
theorem C11_value (p q : Quat) (hp : p.norm = 1) (hq : q.norm = 1) :
    ∃ v, angleBetweenQuaternions p q = .ok v ∧ 0 ≤ v ∧ v ≤ 2 * Real.pi ∧
      (v = 2 * Real.arccos (p.dot q) ∨ (v = 0 ∧ p.allclose q 1e-12 ∧ 1 - 6e-11 ≤ p.dot q)) := by
  have dp := Quat.norm_eq_one.mp hp
  have dq := Quat.norm_eq_one.mp hq
  have hb := Quat.dot_le_one dp dq
  have ha := Quat.neg_one_le_dot dp dq
  have hw : (p * q.conj).w = p.dot q := by simp [Quat.dot]; ring
  unfold angleBetweenQuaternions
  by_cases h : p.allclose q 1e-12
  · refine ⟨0, by rw [if_pos h], le_rfl, by positivity, Or.inr ⟨rfl, h, ?_⟩⟩
    obtain ⟨h1, h2, h3, h4⟩ := h
    have key : ∀ a b : ℝ, npIsclose a b 1e-12 → b ^ 2 ≤ 1 → (a - b) ^ 2 ≤ 1.01e-10 * b ^ 2 + 1e-12 := by
      intro a b hab hb
      have hb' : |b| ≤ 1 := abs_le_one_iff_mul_self_le_one.mpr (by nlinarith)
      have h0 := abs_nonneg (a - b)
      have hb0 := abs_nonneg b
      rw [← sq_abs (a - b), ← sq_abs b]
      have : |a - b| ^ 2 ≤ (1e-12 + 1e-5 * |b|) ^ 2 := pow_le_pow_left₀ h0 hab 2
      nlinarith
    simp only [Quat.dot] at dp dq ⊢
    have k1 := key _ _ h1 (by nlinarith [sq_nonneg q.y, sq_nonneg q.z, sq_nonneg q.w])
    have k2 := key _ _ h2 (by nlinarith [sq_nonneg q.x, sq_nonneg q.z, sq_nonneg q.w])
    have k3 := key _ _ h3 (by nlinarith [sq_nonneg q.y, sq_nonneg q.x, sq_nonneg q.w])
    have k4 := key _ _ h4 (by nlinarith [sq_nonneg q.y, sq_nonneg q.z, sq_nonneg q.x])
    nlinarith
  · rw [if_neg h, Quat.inverse_unit dq]
    simp only [Py.ok_bind, hw, npArccos_ok ha hb, Py.pure_eq]
    exact ⟨_, rfl, by have := Real.arccos_nonneg (p.dot q); linarith,
      by have := Real.arccos_le_pi (p.dot q); linarith, Or.inl rfl⟩

/-- C11, equal arguments. -/
theorem C11_self (q : Quat) : angleBetweenQuaternions q q = .ok 0 := by
  unfold angleBetweenQuaternions
  have h : ∀ a : ℝ, npIsclose a a 1e-12 := fun a => npIsclose_self a (by norm_num)
  rw [if_pos ⟨h _, h _, h _, h _⟩]

/-- C11, bi-invariance: multiplying both arguments on the left and on the right by unit quaternions
does not change the value, outside of the tolerance branch. -/
theorem C11_bi_invariant (p q a b : Quat) (hp : p.norm = 1) (hq : q.norm = 1) (ha : a.norm = 1)
    (hb : b.norm = 1) (h1 : ¬ p.allclose q 1e-12) (h2 : ¬ (a * p * b).allclose (a * q * b) 1e-12) :
    angleBetweenQuaternions (a * p * b) (a * q * b) = angleBetweenQuaternions p q := by
  have da := Quat.norm_eq_one.mp ha
  have db := Quat.norm_eq_one.mp hb
  have n1 : (a * p * b).norm = 1 := by simp [Quat.norm_mul, ha, hp, hb]
  have n2 : (a * q * b).norm = 1 := by simp [Quat.norm_mul, ha, hq, hb]
  obtain ⟨v, hv, -, -, hv'⟩ := C11_value p q hp hq
  obtain ⟨u, hu, -, -, hu'⟩ := C11_value _ _ n1 n2
  have ev := hv'.resolve_right (fun h => h1 h.2.1)
  have eu := hu'.resolve_right (fun h => h2 h.2.1)
  rw [hv, hu, ev, eu, Quat.dot_mul_right, Quat.dot_mul_left, da, db, one_mul, one_mul]

/-- C11, symmetry outside of the tolerance branch. -/
theorem C11_symmetric (p q : Quat) (hp : p.norm = 1) (hq : q.norm = 1)
    (h1 : ¬ p.allclose q 1e-12) (h2 : ¬ q.allclose p 1e-12) :
    angleBetweenQuaternions p q = angleBetweenQuaternions q p := by
  obtain ⟨v, hv, -, -, hv'⟩ := C11_value p q hp hq
  obtain ⟨u, hu, -, -, hu'⟩ := C11_value q p hq hp
  rw [hv, hu, hv'.resolve_right (fun h => h1 h.2.1), hu'.resolve_right (fun h => h2 h.2.1),
    Quat.dot_comm]

/-- C11, what symmetry means: the two representatives of one rotation are a full turn apart for this
function, not zero. -/
theorem C11_antipode (q : Quat) (hq : q.norm = 1) :
    angleBetweenQuaternions q (-q) = .ok (2 * Real.pi) := by
  have dq := Quat.norm_eq_one.mp hq
  obtain ⟨v, hv, -, -, hv'⟩ := C11_value q (-q) hq (by simpa using hq)
  rw [Quat.dot_neg, dq] at hv'
  rcases hv' with h | h
  · rw [hv, h, Real.arccos_neg_one]
  · norm_num at h

/-- Non-triviality: two orientations outside of the tolerance branch. -/
example : ¬ (⟨0, 0, 0, 1⟩ : Quat).allclose ⟨1, 0, 0, 0⟩ 1e-12 := by
  intro h
  have := h.2.2.2
  norm_num [npIsclose] at this

end HandEye
