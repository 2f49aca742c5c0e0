import Verif.Lemmas.RoundedInterp
import Verif.Lemmas.RoundOrder
import Verif.Props.Resample

/-! # Property C110: the interpolation of orientations in floating-point arithmetic -/

namespace HandEye

open Quaternion

/-- Rounding to `float64` keeps the order of numbers. -/
theorem C110_ordered (acos : ℝ → ℝ) : Spec.Ordered (doubleArith acos) := ordered_double acos

/-- **C110**, the fraction: for times between the neighbouring time stamps, the fraction that is computed is always between 0 and 1, so that the
assertion of `quaternion_slerp` cannot fail because of rounding, its error is at most `4 u`, and it is exactly 0 and 1 at the time stamps. -/
theorem C110_fraction {u : ℝ} {A : Arith} (h : Spec.Machine u A) (ho : Spec.Ordered A) (tl t tr : ℝ) (hlr : tl < tr) (hl : tl ≤ t) (hr : t ≤ tr) :
    ∃ f, A.scaledTime tl tr t = .ok f ∧ 0 ≤ f ∧ f ≤ 1 ∧ |f - (t - tl) / (tr - tl)| ≤ 4 * u ∧ (f = 0 ↔ t = tl) ∧ (t = tr → f = 1) := by
  have h0 := h.nonneg
  have hs := h.small
  have zero_iff : ∀ x : ℝ, A.fl x = 0 ↔ x = 0 := by
    intro x
    have := h.rounds x
    constructor
    · intro hx
      rw [hx, zero_sub, abs_neg] at this
      by_contra hne
      have := abs_pos.mpr hne
      nlinarith
    · rintro rfl
      simpa using this
  have hz : A.fl 0 = 0 := (zero_iff 0).mpr rfl
  have hd : 0 < tr - tl := by linarith
  have hdf : 0 < A.fl (tr - tl) :=
    lt_of_le_of_ne (hz ▸ ho.mono 0 _ hd.le) (fun e => hd.ne' ((zero_iff _).mp e.symm))
  have hn : 0 ≤ A.fl (t - tl) := hz ▸ ho.mono 0 _ (by linarith)
  have hle : A.fl (t - tl) ≤ A.fl (tr - tl) := ho.mono _ _ (by linarith)
  have hq1 : A.fl (t - tl) / A.fl (tr - tl) ≤ 1 := (div_le_one hdf).mpr hle
  have hq0 : 0 ≤ A.fl (t - tl) / A.fl (tr - tl) := div_nonneg hn hdf.le
  refine ⟨A.fl (A.fl (t - tl) / A.fl (tr - tl)), ?_, ?_, ?_, ?_, ?_, ?_⟩
  · unfold Arith.scaledTime
    rw [if_neg hdf.ne']
  · exact hz ▸ ho.mono 0 _ hq0
  · exact ho.one ▸ ho.mono _ 1 hq1
  · have r1 := h.rounds (A.fl (t - tl) / A.fl (tr - tl))
    have r2 := h.rounds (t - tl)
    have r3 := h.rounds (tr - tl)
    rw [abs_of_pos hd] at r3
    rw [abs_of_nonneg (show 0 ≤ t - tl by linarith)] at r2
    rw [abs_of_nonneg hq0] at r1
    have key : |A.fl (t - tl) / A.fl (tr - tl) - (t - tl) / (tr - tl)| ≤ 3 * u := by
      rw [div_sub_div _ _ hdf.ne' hd.ne', abs_div, abs_of_pos (mul_pos hdf hd), div_le_iff₀ (mul_pos hdf hd)]
      have e : A.fl (t - tl) * (tr - tl) - A.fl (tr - tl) * (t - tl) =
          (A.fl (t - tl) - (t - tl)) * (tr - tl) - (A.fl (tr - tl) - (tr - tl)) * (t - tl) := by ring
      rw [e]
      have b1 : |(A.fl (t - tl) - (t - tl)) * (tr - tl)| ≤ u * (tr - tl) * (tr - tl) := by
        rw [abs_mul, abs_of_pos hd]
        apply mul_le_mul_of_nonneg_right _ hd.le
        nlinarith
      have b2 : |(A.fl (tr - tl) - (tr - tl)) * (t - tl)| ≤ u * (tr - tl) * (tr - tl) := by
        rw [abs_mul, abs_of_nonneg (show 0 ≤ t - tl by linarith)]
        exact mul_le_mul r3 (by linarith) (by linarith) (by positivity)
      have b3 := abs_sub ((A.fl (t - tl) - (t - tl)) * (tr - tl)) ((A.fl (tr - tl) - (tr - tl)) * (t - tl))
      have b4 : (1 - u) * (tr - tl) ≤ A.fl (tr - tl) := by linarith [(abs_le.mp r3).1]
      have b5 : 3 * u * ((1 - u) * (tr - tl) * (tr - tl)) ≤ 3 * u * (A.fl (tr - tl) * (tr - tl)) := by gcongr
      have b6 : 0 ≤ u * (tr - tl) * (tr - tl) := by positivity
      nlinarith
    have r4 : u * (A.fl (t - tl) / A.fl (tr - tl)) ≤ u * 1 := mul_le_mul_of_nonneg_left hq1 h0
    have := abs_sub_le (A.fl (A.fl (t - tl) / A.fl (tr - tl))) (A.fl (t - tl) / A.fl (tr - tl)) ((t - tl) / (tr - tl))
    linarith
  · rw [zero_iff, div_eq_zero_iff, zero_iff]
    constructor
    · rintro (e | e)
      · linarith
      · exact absurd e hdf.ne'
    · intro e
      left
      linarith
  · rintro rfl
    rw [div_self hdf.ne', ho.one]

example : ∃ f, (doubleArith Real.arccos).scaledTime 1.1 1.3 1.2 = .ok f ∧ 0 ≤ f ∧ f ≤ 1 ∧ |f - 1 / 2| ≤ 1e-15 := by
  obtain ⟨f, h1, h2, h3, h4, _⟩ := C110_fraction (machine_double Real.arccos) (C110_ordered _) 1.1 1.2 1.3 (by norm_num) (by norm_num) (by norm_num)
  refine ⟨f, h1, h2, h3, ?_⟩
  norm_num at h4 ⊢
  linarith

theorem slerp_checks {u : ℝ} {A : Arith} (h : Spec.Machine u A) {δ : ℝ} (hδ : 10 * u ≤ δ) (hδ1 : δ ≤ 4e-6) {q : Quat}
    (hq : |‖q.toH‖ - 1| ≤ δ) : npIsclose (A.norm q) 1 1e-8 := by
  have h0 := h.nonneg
  have h3 := Arith.norm_near h q
  have h4 := abs_sub_le (A.norm q) ‖q.toH‖ 1
  norm_num at hδ1
  have h5 : 7 * u * ‖q.toH‖ ≤ 7 * u * 2 := mul_le_mul_of_nonneg_left (by linarith [(abs_le.mp hq).2]) (by linarith)
  unfold npIsclose
  rw [abs_one]
  norm_num
  linarith

theorem slerp_run {A : Arith} {cos sin : ℝ → ℝ} {q1 q2 : Quat} {f : ℝ} (hf0 : 0 ≤ f) (hf1 : f ≤ 1) (h1 : npIsclose (A.norm q1) 1 1e-8)
    (h2 : npIsclose (A.norm q2) 1 1e-8) : A.slerp cos sin q1 q2 f = .ok (if f = 0 then q1 else if f = 1 then q2 else
      A.slerpBetween cos sin (A.slerpFrom q1 q2).1 (A.slerpFrom q1 q2).2 q2 f) := by
  unfold Arith.slerp
  rw [pyAssert_pos ⟨hf0, hf1⟩, Py.ok_bind, pyAssert_pos h1, Py.ok_bind, pyAssert_pos h2, Py.ok_bind]
  split_ifs <;> rfl

/-- What the interpolation returns for a fraction that is near the exact one. -/
theorem slerp_near {u : ℝ} {A : Arith} (h : Spec.Machine u A) {e : ℝ} {cos sin : ℝ → ℝ} (hfun : Spec.Functions e A.acos cos sin) {δ : ℝ}
    (hδ : 10 * u ≤ δ) (hδ1 : δ ≤ 4e-6) {q1 q2 : Quat} (h1 : |Spec.len q1 - 1| ≤ δ) (h2 : |Spec.len q2 - 1| ≤ δ) {f g : ℝ} (hf0 : 0 ≤ f)
    (hf1 : f ≤ 1) (hg : |f - g| ≤ 4 * u) :
    ∃ r, A.slerp cos sin q1 q2 f = .ok r ∧ Spec.NearArc (3 * δ) (21 * Real.sqrt δ + 3e-7 + 10 * e) q1 q2 g r ∧
      |Spec.len r - 1| ≤ 21 * Real.sqrt δ + 3e-7 + 10 * e := by
  have h0 := h.nonneg
  have hδ0 : 0 ≤ δ := by linarith
  have he0 : 0 ≤ e := le_trans (abs_nonneg _) (hfun.cos_near 0)
  rw [len_eq] at h1 h2
  have k1 := slerp_checks h hδ hδ1 h1
  have k2 := slerp_checks h hδ hδ1 h2
  have hδ1' := hδ1
  norm_num at hδ1'
  have p1 : 0 < ‖q1.toH‖ := by linarith [(abs_le.mp h1).1]
  have p2 : 0 < ‖q2.toH‖ := by linarith [(abs_le.mp h2).1]
  obtain ⟨u1, v1⟩ := Arith.near_unit p1
  obtain ⟨u2, v2⟩ := Arith.near_unit p2
  rw [slerp_run hf0 hf1 k1 k2]
  obtain ⟨s1, s2, s3, s4, s5⟩ := Arith.slerpFrom_near h hδ hδ1 h1 h2
  set a := (A.slerpFrom q1 q2).2 with ha
  set d := (A.slerpFrom q1 q2).1 with hd
  set p := ‖q1.toH‖⁻¹ • a.toH with hp
  set q := ‖q2.toH‖⁻¹ • q2.toH with hq
  have hpp : p = ‖q1.toH‖⁻¹ • q1.toH ∨ p = -(‖q1.toH‖⁻¹ • q1.toH) := by
    rcases s1 with e | e
    · left; rw [hp, e]
    · right; rw [hp, e, Quat.toH_neg, smul_neg]
  have hpn : ‖p‖ = 1 := by
    rcases hpp with e | e
    · rw [e, u1]
    · rw [e, norm_neg, u1]
  have hap : ‖a.toH - p‖ ≤ δ := by
    rcases s1 with e | e
    · rw [hp, e, v1]; exact h1
    · rw [hp, e, Quat.toH_neg, smul_neg, ← neg_add', norm_neg, ← sub_eq_add_neg, v1]
      exact h1
  have hqp : ‖q2.toH - q‖ ≤ δ := by rw [v2]; exact h2
  have hv : δ ≤ Real.sqrt δ := by
    apply Real.le_sqrt_of_sq_le
    nlinarith
  have hv2 : 13 * u ≤ Real.sqrt δ := by
    have : 2 * δ ≤ Real.sqrt δ := by
      apply Real.le_sqrt_of_sq_le
      nlinarith
    linarith
  have hC1 : -1 < (inner ℝ p q : ℝ) := by linarith
  obtain ⟨e0, e1⟩ := arcPoint_ends hpn u2 hC1
  have hmove : ‖arcPoint p q f - arcPoint p q g‖ ≤ Real.sqrt δ := by
    have := arcPoint_close hpn u2 f g
    have hpi := Real.pi_lt_d2
    have hpi0 := Real.pi_pos
    have : |f - g| * Real.pi ≤ 4 * u * 3.15 := mul_le_mul hg (by linarith) hpi0.le (by linarith)
    linarith
  have hat := arcPoint_fraction hpn u2 hC1 g
  -- the distance to the point on the arc at the fraction of the code
  set r := (if f = 0 then q1 else if f = 1 then q2 else A.slerpBetween cos sin d a q2 f) with hr
  have hnear : ‖r.toH - arcPoint p q f‖ ≤ 20 * Real.sqrt δ + 3e-7 + 10 * e ∨ ‖r.toH + arcPoint p q f‖ ≤ 20 * Real.sqrt δ + 3e-7 + 10 * e := by
    have hv0 := Real.sqrt_nonneg δ
    by_cases c0 : f = 0
    · rw [hr, if_pos c0, c0, e0]
      rcases hpp with e' | e'
      · left
        rw [e', v1]
        linarith
      · right
        rw [e', ← sub_eq_add_neg, v1]
        linarith
    · by_cases c1 : f = 1
      · left
        rw [hr, if_neg c0, if_pos c1, c1, e1]
        linarith
      · left
        rw [hr, if_neg c0, if_neg c1]
        exact Arith.slerpBetween_near h hfun hδ hδ1 hpn u2 hap hqp s2 s3 s4 s5 hf0 hf1
  have hnear' : ‖r.toH - arcPoint p q g‖ ≤ 21 * Real.sqrt δ + 3e-7 + 10 * e ∨ ‖r.toH + arcPoint p q g‖ ≤ 21 * Real.sqrt δ + 3e-7 + 10 * e := by
    rcases hnear with hn | hn
    · left
      have := norm_sub_le_norm_sub_add_norm_sub r.toH (arcPoint p q f) (arcPoint p q g)
      linarith
    · right
      have e' : r.toH + arcPoint p q g = (r.toH + arcPoint p q f) - (arcPoint p q f - arcPoint p q g) := by abel
      have := norm_sub_le (r.toH + arcPoint p q f) (arcPoint p q f - arcPoint p q g)
      rw [← e'] at this
      linarith
  refine ⟨r, rfl, ⟨p, q, arcPoint p q g, ?_, ?_, ?_, hat, hnear'⟩, ?_⟩
  · rw [len_eq]; exact hpp
  · rw [len_eq]
  · linarith
  · rw [len_eq]
    rcases hnear' with hn | hn
    · have := abs_norm_sub_norm_le r.toH (arcPoint p q g)
      rw [hat.1] at this
      linarith
    · have := abs_norm_sub_norm_le r.toH (-arcPoint p q g)
      rw [norm_neg, hat.1, sub_neg_eq_add] at this
      linarith

/-- **C110**, `quaternion_slerp`: for quaternions whose lengths are one up to `δ` (which is `10 u` if they were normalised, and more if they were read from
a file with few digits) and a fraction between 0 and 1 there is always a result, no assertion fails and it is always a number.  It is the orientation at this
fraction of the shortest way up to `21 √δ + 3e-7 + 10 e`, and its length is one up to this. -/
theorem C110_slerp {u : ℝ} {A : Arith} (h : Spec.Machine u A) (e : ℝ) (cos sin : ℝ → ℝ) (hfun : Spec.Functions e A.acos cos sin) (δ : ℝ)
    (hδ : 10 * u ≤ δ) (hδ1 : δ ≤ 4e-6) (q1 q2 : Quat) (h1 : |Spec.len q1 - 1| ≤ δ) (h2 : |Spec.len q2 - 1| ≤ δ) (f : ℝ) (hf0 : 0 ≤ f)
    (hf1 : f ≤ 1) :
    ∃ r, A.slerp cos sin q1 q2 f = .ok r ∧ Spec.NearArc (3 * δ) (21 * Real.sqrt δ + 3e-7 + 10 * e) q1 q2 f r ∧
      |Spec.len r - 1| ≤ 21 * Real.sqrt δ + 3e-7 + 10 * e :=
  slerp_near h hfun hδ hδ1 h1 h2 hf0 hf1 (by rw [sub_self, abs_zero]; linarith [h.nonneg])

theorem functions_exact : Spec.Functions 0 Real.arccos Real.cos Real.sin :=
  { small := by norm_num
    acos_near := fun x _ _ => by simp
    cos_near := fun x => by simp
    sin_near := fun x => by simp }

/-- `C110_slerp` in `float64` for quaternions that were normalised: the error is at most one millionth (plus that of the library functions). -/
theorem C110_slerp_double (e : ℝ) (acos cos sin : ℝ → ℝ) (hfun : Spec.Functions e acos cos sin) (q1 q2 : Quat)
    (h1 : 2e-8 ≤ Spec.len q1) (h2 : 2e-8 ≤ Spec.len q2) (f : ℝ) (hf0 : 0 ≤ f) (hf1 : f ≤ 1) :
    ∃ r, (doubleArith acos).slerp cos sin ((doubleArith acos).normalize q1) ((doubleArith acos).normalize q2) f = .ok r ∧
      Spec.NearArc 1e-14 (1e-6 + 10 * e) ((doubleArith acos).normalize q1) ((doubleArith acos).normalize q2) f r ∧
      |Spec.len r - 1| ≤ 1e-6 + 10 * e := by
  have hm := machine_double acos
  have n1 := (C89_normalize hm q1 h1).2.1
  have n2 := (C89_normalize hm q2 h2).2.1
  have hu : (0 : ℝ) ≤ 2⁻¹ ^ 53 := by positivity
  obtain ⟨r, e1, ⟨p, q, x, b1, b2, b3, b4, b5⟩, e3⟩ := C110_slerp hm e cos sin hfun (10 * 2⁻¹ ^ 53) le_rfl (by norm_num) _ _ (n1.trans (by linarith))
    (n2.trans (by linarith)) f hf0 hf1
  have hsq : Real.sqrt (10 * 2⁻¹ ^ 53) ≤ 3.333e-8 := by
    apply Real.sqrt_le_iff.mpr
    norm_num
  have hb : 21 * Real.sqrt (10 * 2⁻¹ ^ 53) + 3e-7 + 10 * e ≤ 1e-6 + 10 * e := by
    norm_num at hsq ⊢
    linarith
  refine ⟨r, e1, ⟨p, q, x, b1, b2, ?_, b4, ?_⟩, e3.trans hb⟩
  · refine le_trans ?_ b3
    norm_num
  · rcases b5 with b | b
    · exact Or.inl (b.trans hb)
    · exact Or.inr (b.trans hb)

example : ∃ r, (doubleArith Real.arccos).slerp Real.cos Real.sin ((doubleArith Real.arccos).normalize ⟨1, 2, 3, 4⟩)
    ((doubleArith Real.arccos).normalize ⟨1, 2, 3, 4.0000001⟩) 0.3 = .ok r ∧ |Spec.len r - 1| ≤ 1e-6 := by
  have l : ∀ c : ℝ, 2e-8 ≤ Spec.len ⟨1, 2, 3, c⟩ := fun c => by
    unfold Spec.len
    apply Real.le_sqrt_of_sq_le
    norm_num
    nlinarith [sq_nonneg c]
  obtain ⟨r, e1, _, e3⟩ := C110_slerp_double 0 _ _ _ functions_exact ⟨1, 2, 3, 4⟩ ⟨1, 2, 3, 4.0000001⟩ (l _) (l _) 0.3 (by norm_num) (by norm_num)
  exact ⟨r, e1, by simpa using e3⟩

end HandEye
