import Verif.Model.Spoil
import Verif.Props.Quat5
import Verif.Props.Extrinsic

/-! # C60: spoiled initial guesses -/

namespace HandEye

theorem randomUnit_ok {v : Vec3} (h : v ≠ ⟨0, 0, 0⟩) : ∃ u : Vec3, u.norm = 1 ∧ randomUnit v = .ok u := by
  have hn : v.norm ≠ 0 := fun h0 => h (Vec3.norm_eq_zero.mp h0)
  have hu : (⟨v.x / v.norm, v.y / v.norm, v.z / v.norm⟩ : Vec3).norm = 1 := by
    rw [Vec3.norm_eq_one]
    exact direction_dot_self hn
  refine ⟨_, hu, ?_⟩
  unfold randomUnit
  rw [if_neg hn]
  simp only []
  rw [pyAssert_pos (by rw [hu]; norm_num)]
  rfl

theorem sandwich_rotate {r : Quat} (hr : r.dot r = 1) (y : Vec3) :
    (r * Quat.ofVec y * r.conj).vec = r.rotateVector y := by
  simp only [Quat.dot] at hr
  ext <;> simp [Quat.vec, Quat.rotateVector, Quat.ofVec] 
  · linear_combination y.x * hr
  · linear_combination y.y * hr
  · linear_combination y.z * hr

theorem uniform_mem {a b u : ℝ} (hab : a ≤ b) (h0 : 0 ≤ u) (h1 : u ≤ 1) : a ≤ uniform a b u ∧ uniform a b u ≤ b := by
  unfold uniform
  constructor <;> nlinarith

/-- A turn that `np.allclose` does not see is small. -/
theorem angle_small {a : ℝ} (h0 : 0 ≤ a) (h2 : a ≤ 2 * Real.pi) (h : 1 - 6e-11 ≤ Real.cos (a / 2)) : a < 1e-4 := by
  have hs := Real.mul_le_sin (x := a / 4) (by linarith) (by linarith)
  have hc : Real.cos (a / 2) = 1 - 2 * Real.sin (a / 4) ^ 2 := by
    have : a / 2 = 2 * (a / 4) := by ring
    rw [this, Real.cos_two_mul]
    have := Real.sin_sq_add_cos_sq (a / 4)
    linarith
  rw [hc] at h
  have hpi := Real.pi_le_four
  have hpos := Real.pi_pos
  by_contra hlt
  push Not at hlt
  have h3 : (1e-5 : ℝ) ≤ 2 / Real.pi * (a / 4) := by
    rw [div_mul_eq_mul_div, le_div_iff₀ hpos]
    linarith
  nlinarith

/-- What a call does, up to the assertions, for a unit initial guess and draws without a zero vector. -/
theorem spoil_eq (t : ℝ) {dq : DQuat} (hdq : Spec.IsUnit dq) (ar tr ti : ℝ × ℝ) (d : SpoilDraws)
    (hdir : d.direction ≠ ⟨0, 0, 0⟩) (hax : d.axis ≠ ⟨0, 0, 0⟩) :
    ∃ (u n : Vec3) (v : ℝ), u.norm = 1 ∧ n.norm = 1 ∧
      (Quat.fromAngleAxis (uniform ar.1 ar.2 d.angle) n).norm = 1 ∧
      angleBetweenQuaternions dq.rot (Quat.fromAngleAxis (uniform ar.1 ar.2 d.angle) n * dq.rot) = .ok v ∧
      0 ≤ v ∧ v ≤ 2 * Real.pi ∧
      (v = 2 * Real.arccos (Real.cos (uniform ar.1 ar.2 d.angle / 2)) ∨
        (v = 0 ∧ dq.rot.allclose (Quat.fromAngleAxis (uniform ar.1 ar.2 d.angle) n * dq.rot) 1e-12 ∧
          1 - 6e-11 ≤ Real.cos (uniform ar.1 ar.2 d.angle / 2))) ∧
      spoilInitialGuess t dq ar tr ti d = (do
        pyAssert (v ≤ ar.2)
        pyAssert (v ≥ ar.1)
        pyAssert (|uniform tr.1 tr.2 d.length| ≤ tr.2)
        pyAssert (|uniform tr.1 tr.2 d.length| ≥ tr.1)
        return ⟨t + uniform ti.1 ti.2 d.time * (if d.negative then -1 else 1),
          DQuat.fromPose ⟨uniform tr.1 tr.2 d.length • u + (((2 : ℝ) • dq.dual) * dq.rot.conj).vec,
            Quat.fromAngleAxis (uniform ar.1 ar.2 d.angle) n * dq.rot⟩,
          uniform tr.1 tr.2 d.length • u, v, uniform ti.1 ti.2 d.time * (if d.negative then -1 else 1)⟩) := by
  obtain ⟨u, hu, hu'⟩ := randomUnit_ok hdir
  obtain ⟨n, hn, hn'⟩ := randomUnit_ok hax
  have hr := DQuat.IsUnit.rot hdq
  have hq := C06_from_angle_axis_partial (uniform ar.1 ar.2 d.angle) n (by rw [hn]; norm_num)
  obtain ⟨v, hv, hv0, hv2, hv'⟩ := C11_value dq.rot (Quat.fromAngleAxis (uniform ar.1 ar.2 d.angle) n * dq.rot)
    (Quat.norm_eq_one.mpr hr) (by rw [Quat.norm_mul, hq.1, Quat.norm_eq_one.mpr hr, one_mul])
  have hdot : dq.rot.dot (Quat.fromAngleAxis (uniform ar.1 ar.2 d.angle) n * dq.rot) =
      Real.cos (uniform ar.1 ar.2 d.angle / 2) := by
    rw [← hq.2.1]
    generalize Quat.fromAngleAxis (uniform ar.1 ar.2 d.angle) n = r
    simp only [Quat.dot] at hr ⊢
    simp
    linear_combination r.w * hr
  rw [hdot] at hv'
  have hnorm : ∀ w : Vec3, (uniform tr.1 tr.2 d.length • u + w - w).norm = |uniform tr.1 tr.2 d.length| := by
    intro w
    have h1 : uniform tr.1 tr.2 d.length • u + w - w = uniform tr.1 tr.2 d.length • u := by
      ext <;> simp
    rw [h1, Vec3.norm, ← Real.sqrt_sq_eq_abs]
    congr 1
    have := Vec3.norm_eq_one.mp hu
    simp only [Vec3.dot] at this ⊢
    simp
    linear_combination uniform tr.1 tr.2 d.length ^ 2 * this
  refine ⟨u, n, v, hu, hn, hq.1, hv, hv0, hv2, hv', ?_⟩
  unfold spoilInitialGuess getRandom
  rw [hu', hn', DQuat.toPose_unit hr]
  simp only [Py.ok_bind, Py.pure_eq, hv, hnorm]

/-- The guess is turned by an angle and shifted by a vector and an offset inside the ranges, and what is reported is
what was applied, except that a turn by less than 1e-4 rad may be reported as 0.  The ranges must consist of
non-negative numbers, the angles must not exceed a full turn, and the range of the angles must begin at 0 or at
1e-4 at least (see `C60_small_refuted`); no vector drawn may be zero (see `C60_zero_refuted`). -/
theorem C60_spoil_partial (t : ℝ) (dq : DQuat) (hdq : Spec.IsUnit dq) (ar tr ti : ℝ × ℝ) (d : SpoilDraws)
    (hdir : d.direction ≠ ⟨0, 0, 0⟩) (hax : d.axis ≠ ⟨0, 0, 0⟩)
    (har : ar.1 = 0 ∨ 1e-4 ≤ ar.1) (har' : ar.1 ≤ ar.2) (har2 : ar.2 ≤ 2 * Real.pi)
    (htr : 0 ≤ tr.1) (htr' : tr.1 ≤ tr.2) (hti : 0 ≤ ti.1) (hti' : ti.1 ≤ ti.2)
    (h1 : 0 ≤ d.time ∧ d.time ≤ 1) (h2 : 0 ≤ d.length ∧ d.length ≤ 1) (h3 : 0 ≤ d.angle ∧ d.angle ≤ 1) :
    ∃ s, spoilInitialGuess t dq ar tr ti d = .ok s ∧
      s.time_offset = t + s.time_offset_offset ∧
      ti.1 ≤ |s.time_offset_offset| ∧ |s.time_offset_offset| ≤ ti.2 ∧
      tr.1 ≤ s.translation_offset.norm ∧ s.translation_offset.norm ≤ tr.2 ∧
      Spec.IsUnit s.dq_H_E ∧
      ∃ (a : ℝ) (n : Vec3), ar.1 ≤ a ∧ a ≤ ar.2 ∧ n.norm = 1 ∧
        (∀ x, Spec.motion s.dq_H_E x = Spec.rodrigues a n (Spec.motion dq x - Spec.motion dq ⟨0, 0, 0⟩) +
          (s.translation_offset + Spec.motion dq ⟨0, 0, 0⟩)) ∧
        (s.angle_offset = a ∨ s.angle_offset = 0 ∧ a < 1e-4) := by
  obtain ⟨u, n, v, hu, hn, hq, hv, hv0, hv2, hv', hs⟩ := spoil_eq t hdq ar tr ti d hdir hax
  have ha := uniform_mem har' h3.1 h3.2
  have hl := uniform_mem htr' h2.1 h2.2
  have ht := uniform_mem hti' h1.1 h1.2
  have har0 : 0 ≤ ar.1 := by rcases har with h | h <;> linarith
  have hr := DQuat.IsUnit.rot hdq
  have harc : 2 * Real.arccos (Real.cos (uniform ar.1 ar.2 d.angle / 2)) = uniform ar.1 ar.2 d.angle := by
    rw [Real.arccos_cos (by linarith [ha.1]) (by linarith [ha.2])]
    ring
  rw [harc] at hv'
  have hvv : v = uniform ar.1 ar.2 d.angle ∨ v = 0 ∧ uniform ar.1 ar.2 d.angle < 1e-4 := by
    rcases hv' with h | ⟨h, -, h'⟩
    · exact Or.inl h
    · exact Or.inr ⟨h, angle_small (by linarith [ha.1]) (by linarith [ha.2]) h'⟩
  have labs : |uniform tr.1 tr.2 d.length| = uniform tr.1 tr.2 d.length := abs_of_nonneg (by linarith [hl.1])
  have tabs : |uniform ti.1 ti.2 d.time * (if d.negative then -1 else 1)| = uniform ti.1 ti.2 d.time := by
    rw [abs_mul, abs_of_nonneg (by linarith [ht.1] : 0 ≤ uniform ti.1 ti.2 d.time)]
    cases d.negative <;> simp
  have hlen : (uniform tr.1 tr.2 d.length • u).norm = uniform tr.1 tr.2 d.length := by
    refine Eq.trans ?_ labs
    rw [Vec3.norm, ← Real.sqrt_sq_eq_abs]
    congr 1
    have := Vec3.norm_eq_one.mp hu
    simp only [Vec3.dot] at this ⊢
    simp
    linear_combination uniform tr.1 tr.2 d.length ^ 2 * this
  rw [labs, pyAssert_pos (by rcases hvv with h | h <;> [linarith [ha.2]; linarith [ha.2, h.1]]),
    pyAssert_pos (by
      rcases hvv with h | ⟨h, h'⟩
      · linarith [ha.1]
      · rcases har with h0 | h0
        · linarith
        · linarith [ha.1]),
    pyAssert_pos hl.2, pyAssert_pos hl.1] at hs
  have hrq : (Quat.fromAngleAxis (uniform ar.1 ar.2 d.angle) n * dq.rot).dot
      (Quat.fromAngleAxis (uniform ar.1 ar.2 d.angle) n * dq.rot) = 1 := by
    rw [← Quat.norm_eq_one, Quat.norm_mul, hq, Quat.norm_eq_one.mpr hr, one_mul]
  refine ⟨_, hs, rfl, by simp only [tabs]; exact ht.1, by simp only [tabs]; exact ht.2, by simp only [hlen]; exact hl.1,
    by simp only [hlen]; exact hl.2, fromPose_unit _ (by rw [Quat.norm_eq_one.mpr hrq]; norm_num),
    uniform ar.1 ar.2 d.angle, n, ha.1, ha.2, hn, ?_, hvv⟩
  intro x
  have hrod := (C06_from_angle_axis_partial (uniform ar.1 ar.2 d.angle) n (by rw [hn]; norm_num)).2.2.2
  have hdirn : Spec.direction n = n := by
    unfold Spec.direction
    rw [hn]
    ext <;> simp
  rw [hdirn] at hrod
  rw [motion_fromPose hrq, ← hrod, motion_rot_unit hr, motion_rot_unit hr]
  generalize Quat.fromAngleAxis (uniform ar.1 ar.2 d.angle) n = r at hq
  have hz : (dq.rot * Quat.ofVec ⟨0, 0, 0⟩ * dq.rot.conj).vec = ⟨0, 0, 0⟩ := by
    ext <;> simp [Quat.vec, Quat.ofVec]
  have e1 : (r * dq.rot * Quat.ofVec x * (r * dq.rot).conj).vec =
      r.rotateVector (dq.rot * Quat.ofVec x * dq.rot.conj).vec := by
    rw [← sandwich_rotate (Quat.norm_eq_one.mp hq), Quat.ofVec_vec (DQuat.sandwich_w dq.rot x), Quat.conj_mul_rev]
    simp only [mul_assoc]
  rw [hz, e1]
  have e2 : ∀ a b : Vec3, a + b - (⟨0, 0, 0⟩ + b) = a := by
    intro a b
    ext <;> simp
  have e3 : ∀ b : Vec3, (⟨0, 0, 0⟩ : Vec3) + b = b := by
    intro b
    ext <;> simp
  rw [e2, e3]

/-- Ranges of angles above a full turn: the internal assertion fires, whatever is drawn. -/
theorem C60_full_turn_refuted (t : ℝ) (dq : DQuat) (hdq : Spec.IsUnit dq) (ar tr ti : ℝ × ℝ) (d : SpoilDraws)
    (hdir : d.direction ≠ ⟨0, 0, 0⟩) (hax : d.axis ≠ ⟨0, 0, 0⟩) (har : 2 * Real.pi < ar.1) :
    spoilInitialGuess t dq ar tr ti d = .error .assertion := by
  obtain ⟨u, n, v, hu, hn, hq, hv, hv0, hv2, hv', hs⟩ := spoil_eq t hdq ar tr ti d hdir hax
  rw [hs, pyAssert_neg (p := v ≥ ar.1) (by push Not; linarith)]
  by_cases h : v ≤ ar.2
  · rw [pyAssert_pos h]; rfl
  · rw [pyAssert_neg h]; rfl

/-- A zero vector, which both generators can give, makes the first or second assertion fire. -/
theorem C60_zero_refuted (t : ℝ) (dq : DQuat) (ar tr ti : ℝ × ℝ) (d : SpoilDraws)
    (h : d.direction = ⟨0, 0, 0⟩ ∨ d.axis = ⟨0, 0, 0⟩) :
    spoilInitialGuess t dq ar tr ti d = .error .assertion := by
  have hz : randomUnit ⟨0, 0, 0⟩ = .error .assertion := by
    unfold randomUnit
    rw [if_pos (Vec3.norm_eq_zero.mpr rfl)]
  unfold spoilInitialGuess getRandom
  by_cases hdir : d.direction = ⟨0, 0, 0⟩
  · rw [hdir, hz]; rfl
  · obtain ⟨u, _, hu⟩ := randomUnit_ok hdir
    rw [hu, h.resolve_left hdir, hz]
    rfl

/-- Small angles: the initial guess with the rotation (1, 1, 1, 1)/2, and a range of angles inside (0, 1e-6].  The
spoiled rotation is close to the original one element by element, its angle is taken for 0, and the assertion
that it is at least the lower end of the range fires, whatever is drawn. -/
theorem C60_small_refuted (t : ℝ) (ar tr ti : ℝ × ℝ) (d : SpoilDraws)
    (hdir : d.direction ≠ ⟨0, 0, 0⟩) (hax : d.axis ≠ ⟨0, 0, 0⟩) (har : 0 < ar.1) (har' : ar.1 ≤ ar.2)
    (har2 : ar.2 ≤ 1e-6) (h3 : 0 ≤ d.angle ∧ d.angle ≤ 1) :
    Spec.IsUnit (⟨⟨1 / 2, 1 / 2, 1 / 2, 1 / 2⟩, ⟨0, 0, 0, 0⟩⟩ : DQuat) ∧
    spoilInitialGuess t ⟨⟨1 / 2, 1 / 2, 1 / 2, 1 / 2⟩, ⟨0, 0, 0, 0⟩⟩ ar tr ti d = .error .assertion := by
  have hdq : Spec.IsUnit (⟨⟨1 / 2, 1 / 2, 1 / 2, 1 / 2⟩, ⟨0, 0, 0, 0⟩⟩ : DQuat) := by
    rw [DQuat.isUnit_iff]
    simp only [Quat.dot]
    norm_num
  refine ⟨hdq, ?_⟩
  obtain ⟨u, n, v, hu, hn, hq, hv, hv0, hv2, hv', hs⟩ := spoil_eq t hdq ar tr ti d hdir hax
  have ha := uniform_mem har' h3.1 h3.2
  have hclose : (⟨1 / 2, 1 / 2, 1 / 2, 1 / 2⟩ : Quat).allclose
      (Quat.fromAngleAxis (uniform ar.1 ar.2 d.angle) n * ⟨1 / 2, 1 / 2, 1 / 2, 1 / 2⟩) 1e-12 := by
    rw [fromAngleAxis_eq (by rw [hn]; norm_num), hn]
    simp only [div_one]
    have hs1 : |Real.sin (uniform ar.1 ar.2 d.angle / 2)| ≤ 5e-7 := by
      refine (Real.abs_sin_le_abs).trans ?_
      rw [abs_of_nonneg (by linarith [ha.1])]
      linarith [ha.2]
    have hc0 := Real.cos_le_one (uniform ar.1 ar.2 d.angle / 2)
    have hc1 := Real.one_sub_sq_div_two_le_cos (x := uniform ar.1 ar.2 d.angle / 2)
    have hc2 : 1 - 1e-12 ≤ Real.cos (uniform ar.1 ar.2 d.angle / 2) := by nlinarith [ha.1, ha.2]
    have hn' := Vec3.norm_eq_one.mp hn
    simp only [Vec3.dot] at hn'
    have comp : ∀ x : ℝ, x * x ≤ 1 → |Real.sin (uniform ar.1 ar.2 d.angle / 2) * x| ≤ 5e-7 := by
      intro x hx
      rw [abs_mul]
      have : |x| ≤ 1 := abs_le_one_iff_mul_self_le_one.mpr hx
      nlinarith [abs_nonneg x, abs_nonneg (Real.sin (uniform ar.1 ar.2 d.angle / 2))]
    have cx := comp n.x (by nlinarith [mul_self_nonneg n.y, mul_self_nonneg n.z])
    have cy := comp n.y (by nlinarith [mul_self_nonneg n.x, mul_self_nonneg n.z])
    have cz := comp n.z (by nlinarith [mul_self_nonneg n.y, mul_self_nonneg n.x])
    generalize Real.sin (uniform ar.1 ar.2 d.angle / 2) * n.x = sx at *
    generalize Real.sin (uniform ar.1 ar.2 d.angle / 2) * n.y = sy at *
    generalize Real.sin (uniform ar.1 ar.2 d.angle / 2) * n.z = sz at *
    generalize Real.cos (uniform ar.1 ar.2 d.angle / 2) = c at *
    rw [abs_le] at cx cy cz
    have close : ∀ x : ℝ, 1 / 2 - 1e-6 ≤ x → x ≤ 1 / 2 + 1e-6 → npIsclose (1 / 2) x 1e-12 := by
      intro x h1 h2
      unfold npIsclose
      rw [abs_of_nonneg (by linarith : 0 ≤ x), abs_le]
      constructor <;> linarith
    refine ⟨?_, ?_, ?_, ?_⟩ <;> apply close <;> simp <;> linarith [cx.1, cx.2, cy.1, cy.2, cz.1, cz.2]
  have hv0 : v = 0 := by
    unfold angleBetweenQuaternions at hv
    rw [if_pos hclose] at hv
    cases hv
    rfl
  rw [hs, pyAssert_neg (p := v ≥ ar.1) (by rw [hv0]; push Not; exact har)]
  by_cases h : v ≤ ar.2
  · rw [pyAssert_pos h]; rfl
  · rw [pyAssert_neg h]; rfl

/-- The ranges of the script satisfy what `C60_spoil_partial` asks for: 12 ranges of 15 degrees. -/
theorem C60_script_ranges (k : ℕ) (hk : k < 12) :
    ((15 * k : ℝ) / 180 * Real.pi = 0 ∨ 1e-4 ≤ (15 * k : ℝ) / 180 * Real.pi) ∧
    (15 * k : ℝ) / 180 * Real.pi ≤ (15 * (k + 1) : ℝ) / 180 * Real.pi ∧
    (15 * (k + 1) : ℝ) / 180 * Real.pi ≤ 2 * Real.pi := by
  have hpi := Real.one_le_pi_div_two
  refine ⟨?_, by gcongr; linarith, ?_⟩
  · rcases Nat.eq_zero_or_pos k with rfl | h
    · simp
    · have : (1 : ℝ) ≤ k := by exact_mod_cast h
      right
      nlinarith
  · have : (k : ℝ) + 1 ≤ 12 := by exact_mod_cast hk
    nlinarith

example : ∃ s, spoilInitialGuess 1 DQuat.identity (0, 1) (0, 1) (0, 2)
    ⟨1 / 2, true, ⟨1, 0, 0⟩, 1, ⟨0, 0, 1⟩, 1⟩ = .ok s ∧ s.time_offset = 0 := by
  obtain ⟨s, hs, -⟩ := C60_spoil_partial 1 DQuat.identity DQuat.isUnit_one (0, 1) (0, 1) (0, 2)
    ⟨1 / 2, true, ⟨1, 0, 0⟩, 1, ⟨0, 0, 1⟩, 1⟩ (by simp) (by simp) (Or.inl rfl) (by norm_num)
    (by linarith [Real.one_le_pi_div_two]) (by norm_num) (by norm_num) (by norm_num) (by norm_num) (by norm_num)
    (by norm_num) (by norm_num)
  refine ⟨s, hs, ?_⟩
  obtain ⟨u, n, v, -, -, -, -, -, -, -, he⟩ := spoil_eq 1 (dq := DQuat.identity) DQuat.isUnit_one (0, 1) (0, 1) (0, 2)
    ⟨1 / 2, true, ⟨1, 0, 0⟩, 1, ⟨0, 0, 1⟩, 1⟩ (by simp) (by simp)
  rw [he] at hs
  obtain ⟨_, _, hs⟩ := Py.bind_eq_ok.mp hs
  obtain ⟨_, _, hs⟩ := Py.bind_eq_ok.mp hs
  obtain ⟨_, _, hs⟩ := Py.bind_eq_ok.mp hs
  obtain ⟨_, _, hs⟩ := Py.bind_eq_ok.mp hs
  cases hs
  norm_num [uniform]

end HandEye
