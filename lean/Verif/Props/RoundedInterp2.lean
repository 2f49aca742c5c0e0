import Verif.Props.RoundedInterp

/-! # Property C110: resampling and angular velocities in floating-point arithmetic -/

namespace HandEye

open Quaternion

/-- The outcome for one sample: a recorded quaternion at the next time stamp if this is within `1e-5` of its absolute value, otherwise near the arc between
its neighbours at the exact fraction. -/
def Spec.Resampled (k b : ℝ) (times : List ℝ) (qs : List Quat) (s : ℝ) (r : Quat) : Prop :=
  (∃ (i : ℕ) (t : ℝ), times[i]? = some t ∧ s ≤ t ∧ t - s ≤ 1e-16 + 1e-5 * |t| ∧ qs[i]? = some r) ∨
    ∃ (i : ℕ) (tl tr : ℝ) (ql qr : Quat), times[i]? = some tl ∧ times[i + 1]? = some tr ∧ qs[i]? = some ql ∧ qs[i + 1]? = some qr ∧
      tl < s ∧ s < tr ∧ Spec.NearArc k b ql qr ((s - tl) / (tr - tl)) r

theorem resampleOne_rounded {u : ℝ} {A : Arith} (h : Spec.Machine u A) (ho : Spec.Ordered A) {e : ℝ} {cos sin : ℝ → ℝ}
    (hfun : Spec.Functions e A.acos cos sin) {δ : ℝ} (hδ : 10 * u ≤ δ) (hδ1 : δ ≤ 4e-6) {times : List ℝ} {qs : List Quat} {first last : ℝ}
    (hs : times.Pairwise (· < ·)) (hlen : qs.length = times.length) (hu : ∀ q ∈ qs, |Spec.len q - 1| ≤ δ)
    (hf : times.head? = some first) (hl : times.getLast? = some last) {s : ℝ} (h1 : first ≤ s) (h2 : s ≤ last) :
    ∃ r, A.resampleOne cos sin times qs s = .ok [r] ∧ Spec.Resampled (3 * δ) (21 * Real.sqrt δ + 3e-7 + 10 * e) times qs s r := by
  unfold Arith.resampleOne
  rw [pyGet_last hl, Py.ok_bind, pyAssert_pos h2, Py.ok_bind, pyGet_first hf, Py.ok_bind, pyAssert_pos h1, Py.ok_bind]
  dsimp only
  rcases locate hs hf hl h1 h2 with ⟨k, hk, rfl⟩ | ⟨k, hk, hk1, hk2⟩
  · rw [bisect_recorded hs hk, pyAt_ok hk, Py.ok_bind, if_pos (npIsclose_self _ (by norm_num)), pyAt_ok (by omega), Py.ok_bind]
    refine ⟨_, rfl, Or.inl ⟨k, times[k], List.getElem?_eq_getElem hk, le_rfl, ?_, List.getElem?_eq_getElem (by omega)⟩⟩
    rw [sub_self]
    positivity
  · rw [bisect_between hs hk hk1 hk2.le, pyAt_ok hk, Py.ok_bind]
    split
    · next hc =>
      rw [pyAt_ok (by omega), Py.ok_bind]
      refine ⟨_, rfl, Or.inl ⟨k + 1, times[k + 1], List.getElem?_eq_getElem hk, hk2.le, ?_, List.getElem?_eq_getElem (by omega)⟩⟩
      unfold npIsclose at hc
      rw [abs_sub_comm, abs_of_pos (by linarith)] at hc
      exact hc
    · have hc : ((k + 1 : ℕ) : ℤ) - 1 = (k : ℤ) := by omega
      obtain ⟨f, e1, e2, e3, e4, _⟩ := C110_fraction h ho times[k] s times[k + 1] (hk1.trans hk2) hk1.le hk2.le
      obtain ⟨r, r1, r2, _⟩ := slerp_near h hfun hδ hδ1 (hu qs[k] (List.getElem_mem _)) (hu qs[k + 1] (List.getElem_mem _)) e2 e3 e4
      rw [pyRequire_pos hk, Py.ok_bind, hc, pyAssert_pos (by omega), Py.ok_bind, pyGet_natCast (by omega), Py.ok_bind,
        pyGet_natCast (by omega), Py.ok_bind, pyAt_ok (by omega), Py.ok_bind]
      unfold Arith.interpolate
      rw [Py.mapM_cons, e1]
      refine ⟨r, ?_, Or.inr ⟨k, _, _, _, _, List.getElem?_eq_getElem _, List.getElem?_eq_getElem _, List.getElem?_eq_getElem _,
        List.getElem?_eq_getElem _, hk1, hk2, r2⟩⟩
      show [f].mapM (fun f => A.slerp cos sin qs[k] qs[k + 1] f) = _
      rw [Py.mapM_cons, r1]
      rfl

/-- **C110**, resampling: for increasing time stamps, quaternions whose lengths are one up to `δ`, and samples between the first and the last time stamp,
`resample_quaternions_from_samples` never fails because of rounding, and every result is a recorded quaternion or the orientation at the exact
fraction between its neighbours up to `21 √δ + 3e-7 + 10 e`. -/
theorem C110_resample {u : ℝ} {A : Arith} (h : Spec.Machine u A) (ho : Spec.Ordered A) (e : ℝ) (cos sin : ℝ → ℝ)
    (hfun : Spec.Functions e A.acos cos sin) (δ : ℝ) (hδ : 10 * u ≤ δ) (hδ1 : δ ≤ 4e-6) (times : List ℝ) (qs : List Quat) (first last : ℝ)
    (samples : List ℝ) (hs : times.Pairwise (· < ·)) (hlen : qs.length = times.length) (hu : ∀ q ∈ qs, |Spec.len q - 1| ≤ δ)
    (hf : times.head? = some first) (hl : times.getLast? = some last) (hin : ∀ s ∈ samples, first ≤ s ∧ s ≤ last) :
    ∃ rs, A.resample cos sin times qs samples = .ok rs ∧
      List.Forall₂ (Spec.Resampled (3 * δ) (21 * Real.sqrt δ + 3e-7 + 10 * e) times qs) samples rs := by
  have hex : ∀ s : ℝ, ∃ q, s ∈ samples → A.resampleOne cos sin times qs s = .ok [q] ∧
      Spec.Resampled (3 * δ) (21 * Real.sqrt δ + 3e-7 + 10 * e) times qs s q := by
    intro s
    by_cases hm : s ∈ samples
    · obtain ⟨q, e1, e2⟩ := resampleOne_rounded h ho hfun hδ hδ1 hs hlen hu hf hl (hin s hm).1 (hin s hm).2
      exact ⟨q, fun _ => ⟨e1, e2⟩⟩
    · exact ⟨⟨0, 0, 0, 1⟩, fun h => absurd h hm⟩
  choose g hg using hex
  refine ⟨samples.map g, ?_, ?_⟩
  · unfold Arith.resample
    have : samples.mapM (A.resampleOne cos sin times qs) = .ok ((samples.map g).map fun a => [a]) := by
      rw [List.map_map]
      exact Py.mapM_ok fun s hm => (hg s hm).1
    rw [this, Py.ok_bind, flatten_singletons, pyAssert_pos (List.length_map _), Py.ok_bind]
    rfl
  · rw [List.forall₂_map_right_iff, List.forall₂_same]
    exact fun s hm => (hg s hm).2

example : ∃ rs, (doubleArith Real.arccos).resample Real.cos Real.sin [0, 1, 2] [⟨0, 0, 0, 1⟩, ⟨0, 0, 0.6, 0.8⟩, ⟨0, 0, 1, 0⟩] [0.25, 1.75] = .ok rs ∧
    rs.length = 2 := by
  have l : ∀ q ∈ [(⟨0, 0, 0, 1⟩ : Quat), ⟨0, 0, 0.6, 0.8⟩, ⟨0, 0, 1, 0⟩], |Spec.len q - 1| ≤ 10 * (2⁻¹ : ℝ) ^ 53 := by
    intro q hq
    have : Spec.len q = 1 := by
      simp only [List.mem_cons, List.not_mem_nil, or_false] at hq
      rcases hq with rfl | rfl | rfl <;> unfold Spec.len <;> norm_num
    rw [this, sub_self, abs_zero]
    positivity
  obtain ⟨rs, e1, e2⟩ := C110_resample (machine_double Real.arccos) (C110_ordered _) 0 _ _ functions_exact (10 * 2⁻¹ ^ 53) le_rfl (by norm_num)
    [0, 1, 2] _ 0 2 [0.25, 1.75] (by norm_num) rfl l rfl rfl (by
      intro s hs
      simp only [List.mem_cons, List.not_mem_nil, or_false] at hs
      rcases hs with rfl | rfl <;> norm_num)
  exact ⟨rs, e1, by simpa using e2.length_eq.symm⟩

/-- The components of a quaternion with a large scalar part. -/
theorem component_bound {d : Quat} {N : ℝ} (hN : ‖d.toH‖ ≤ N) : d.x ^ 2 ≤ N ^ 2 - d.w ^ 2 ∧ d.y ^ 2 ≤ N ^ 2 - d.w ^ 2 ∧ d.z ^ 2 ≤ N ^ 2 - d.w ^ 2 := by
  have h := norm_sq_quat d
  have h2 : ‖d.toH‖ ^ 2 ≤ N ^ 2 := by
    have := norm_nonneg d.toH
    nlinarith
  refine ⟨?_, ?_, ?_⟩ <;> nlinarith [sq_nonneg d.x, sq_nonneg d.y, sq_nonneg d.z]

theorem angleAxis_rounded {u : ℝ} {A : Arith} (h : Spec.Machine u A) (hu : u ≤ 2e-7) {e : ℝ} (he : e ≤ 1 / 100)
    (hacos : ∀ x : ℝ, -1 ≤ x → x ≤ 1 → |A.acos x - Real.arccos x| ≤ e) {d : Quat} (hd : ‖d.toH‖ ≤ 1 + 8e-6) (hw : 0 ≤ d.w) :
    ∃ axis angle, A.angleAxis d = .ok (axis, angle) ∧ |angle| ≤ 3.2 ∧ |axis.x| ≤ 1.6 ∧ |axis.y| ≤ 1.6 ∧ |axis.z| ≤ 1.6 := by
  have h0 := h.nonneg
  unfold Arith.angleAxis
  by_cases hc : npIsclose d.w 1 1e-12
  · rw [if_pos hc]
    exact ⟨_, _, rfl, by norm_num, by norm_num, by norm_num, by norm_num⟩
  · rw [if_neg hc]
    have hwd : d.w ≤ ‖d.toH‖ := (le_abs_self _).trans (Arith.abs_component d).2.2.2
    have hw1 : d.w ≤ 1 - 1e-5 := by
      by_contra hcon
      push Not at hcon
      apply hc
      unfold npIsclose
      rw [abs_one, abs_le]
      norm_num at hcon hd ⊢
      constructor <;> linarith
    norm_num at hw1 hd hu
    rw [if_neg (by push Not; exact ⟨by linarith, by linarith⟩)]
    dsimp only
    obtain ⟨cx, cy, cz⟩ := component_bound hd
    have r1 := h.rounds (d.w * d.w)
    rw [abs_of_nonneg (mul_nonneg hw hw)] at r1
    have hww : d.w * d.w ≤ 1 := by nlinarith
    have hS : 1.99e-5 ≤ 1 - d.w ^ 2 := by norm_num; nlinarith
    norm_num at hS
    obtain ⟨r1a, r1b⟩ := abs_le.mp r1
    have t1 : 0.98 * (1 - d.w ^ 2) ≤ 1 - A.fl (d.w * d.w) := by
      norm_num
      nlinarith
    have r2 := h.rounds (1 - A.fl (d.w * d.w))
    rw [abs_of_nonneg (a := 1 - A.fl (d.w * d.w)) (by linarith)] at r2
    obtain ⟨r2a, r2b⟩ := abs_le.mp r2
    have t2 : 0.97 * (1 - d.w ^ 2) ≤ A.fl (1 - A.fl (d.w * d.w)) := by
      norm_num at t1 ⊢
      nlinarith
    set S := A.fl (1 - A.fl (d.w * d.w)) with hSdef
    have hS0 : 0 < S := by linarith
    have r3 := h.rounds (Real.sqrt S)
    rw [abs_of_nonneg (Real.sqrt_nonneg _)] at r3
    obtain ⟨r3a, r3b⟩ := abs_le.mp r3
    have hsq : 0 < Real.sqrt S := Real.sqrt_pos.mpr hS0
    have hs2 : Real.sqrt S ^ 2 = S := Real.sq_sqrt hS0.le
    set s := A.fl (Real.sqrt S) with hs
    have t3 : 0.99 * Real.sqrt S ≤ s := by
      norm_num
      nlinarith
    have hs0 : 0 < s := by linarith
    rw [if_neg (by push Not; exact ⟨hS0.le, hs0.ne'⟩)]
    have ratio : ∀ c : ℝ, c ^ 2 ≤ (125001 / 125000) ^ 2 - d.w ^ 2 → |A.fl (c / s)| ≤ 1.6 := by
      intro c hcc
      have k1 : c ^ 2 ≤ 1.9 * (1 - d.w ^ 2) := by
        norm_num at hcc ⊢
        linarith
      have k2 : c ^ 2 ≤ (1.5 * s) ^ 2 := by
        have : (0.99 * Real.sqrt S) ^ 2 ≤ s ^ 2 := by
          apply pow_le_pow_left₀ (by positivity) t3
        rw [mul_pow, hs2] at this
        norm_num at this k1 t2 ⊢
        nlinarith
      have k3 : |c| ≤ 1.5 * s := abs_le_of_sq_le_sq k2 (by positivity)
      have k4 : |c / s| ≤ 1.5 := by
        rw [abs_div, abs_of_pos hs0, div_le_iff₀ hs0]
        exact k3
      have k5 := h.abs_le (c / s)
      have : (1 + u) * |c / s| ≤ (1 + u) * 1.5 := mul_le_mul_of_nonneg_left k4 (by linarith)
      norm_num at this ⊢
      linarith
    refine ⟨_, _, rfl, ?_, ratio _ cx, ratio _ cy, ratio _ cz⟩
    have a1 := hacos d.w (by linarith) (by linarith)
    have a2 := Real.arccos_nonneg d.w
    have a3 : Real.arccos d.w ≤ Real.pi / 2 := Real.arccos_le_pi_div_two.mpr hw
    have hpi := Real.pi_lt_d2
    have a4 : |2 * A.acos d.w| ≤ 3.17 := by
      obtain ⟨b1, b2⟩ := abs_le.mp a1
      rw [abs_le]
      norm_num at hpi ⊢
      constructor <;> linarith
    have a5 := h.abs_le (2 * A.acos d.w)
    have a6 : (1 + u) * |2 * A.acos d.w| ≤ (1 + u) * 3.17 := mul_le_mul_of_nonneg_left a4 (by linarith)
    have a7 : (1 + u) * 3.17 ≤ 3.2 := by
      norm_num
      linarith
    exact a5.trans (a6.trans a7)

/-- **C110**, angular velocities: for quaternions whose lengths are one up to `δ` and times that are different, `angular_velocity_between_quaternions` always is a
number (other than `angle_between_quaternions`, see `C89_angle_refuted`), and no component is more than `2.6 / |t|`. -/
theorem C110_velocity {u : ℝ} {A : Arith} (h : Spec.Machine u A) (e : ℝ) (he : e ≤ 1 / 100)
    (hacos : ∀ x : ℝ, -1 ≤ x → x ≤ 1 → |A.acos x - Real.arccos x| ≤ e) (δ : ℝ) (hδ : 10 * u ≤ δ) (hδ1 : δ ≤ 2e-6) (q1 q2 : Quat)
    (h1 : |Spec.len q1 - 1| ≤ δ) (h2 : |Spec.len q2 - 1| ≤ δ) (t : ℝ) (ht : t ≠ 0) :
    ∃ v, A.angularVelocity q1 q2 t = .ok v ∧ |v.x| ≤ 2.6 / |t| ∧ |v.y| ≤ 2.6 / |t| ∧ |v.z| ≤ 2.6 / |t| := by
  have h0 := h.nonneg
  rw [len_eq] at h1 h2
  norm_num at hδ1
  obtain ⟨a1, b1⟩ := abs_le.mp h1
  obtain ⟨a2, b2⟩ := abs_le.mp h2
  have p1 : 0 < ‖q1.toH‖ := by linarith
  have p2 : 0 < ‖q2.toH‖ := by linarith
  obtain ⟨i, hi, hi1⟩ := Arith.inverse_near h (norm_pos_iff.mp p2)
  have hinv : ‖q2.toH‖⁻¹ ≤ 1 + 1.001 * δ := by
    rw [inv_eq_one_div, div_le_iff₀ p2]
    nlinarith
  have hin : ‖i.toH‖ ≤ 1 + 1.71 * δ := by
    have := norm_le_norm_add_norm_sub' i.toH (q2.toH)⁻¹
    rw [norm_inv] at this
    have : 7 * u * ‖q2.toH‖⁻¹ ≤ 7 * u * 1.001 := by
      apply mul_le_mul_of_nonneg_left _ (by linarith)
      norm_num at hinv ⊢
      linarith
    norm_num at this hinv ⊢
    linarith
  have hmul := Arith.mul_near h q1 i
  have hprod : ‖q1.toH‖ * ‖i.toH‖ ≤ 1 + 2.72 * δ := by
    have := norm_nonneg i.toH
    calc ‖q1.toH‖ * ‖i.toH‖ ≤ (1 + δ) * (1 + 1.71 * δ) := mul_le_mul (by linarith) hin this (by linarith)
      _ ≤ _ := by nlinarith
  have hd : ‖(A.mul q1 i).toH‖ ≤ 1 + 8e-6 := by
    have := norm_le_norm_add_norm_sub' (A.mul q1 i).toH (q1.toH * i.toH)
    rw [norm_mul] at this
    have h10 : 10 * u * (‖q1.toH‖ * ‖i.toH‖) ≤ 10 * u * 1.1 := by
      apply mul_le_mul_of_nonneg_left _ (by linarith)
      norm_num at hprod ⊢
      linarith
    norm_num at hprod h10 ⊢
    linarith
  have hd' : ∃ d : Quat, (if (A.mul q1 i).w < 0 then -A.mul q1 i else A.mul q1 i) = d ∧ ‖d.toH‖ ≤ 1 + 8e-6 ∧ 0 ≤ d.w := by
    split
    · rename_i hneg
      refine ⟨_, rfl, by rw [Quat.toH_neg, norm_neg]; exact hd, ?_⟩
      show 0 ≤ -(A.mul q1 i).w
      linarith
    · rename_i hpos
      exact ⟨_, rfl, hd, not_lt.mp hpos⟩
  obtain ⟨d, hd1, hd2, hd3⟩ := hd'
  obtain ⟨axis, angle, e1, e2, e3, e4, e5⟩ := angleAxis_rounded h (by norm_num; linarith) he hacos hd2 hd3
  unfold Arith.angularVelocity
  rw [hi, Py.ok_bind]
  dsimp only
  rw [hd1, e1, Py.ok_bind, if_neg ht]
  have htp : 0 < |t| := abs_pos.mpr ht
  have f1 : |A.fl (0.5 / t)| ≤ 0.501 / |t| := by
    have := h.abs_le (0.5 / t)
    rw [abs_div] at this
    refine this.trans ?_
    rw [← mul_div_assoc]
    apply div_le_div_of_nonneg_right _ htp.le
    rw [abs_of_pos (by norm_num)]
    norm_num
    linarith
  have f2 : |A.fl (A.fl (0.5 / t) * angle)| ≤ 1.605 / |t| := by
    have := h.abs_le (A.fl (0.5 / t) * angle)
    rw [abs_mul] at this
    have k1 : |A.fl (0.5 / t)| * |angle| ≤ 0.501 / |t| * 3.2 := mul_le_mul f1 e2 (abs_nonneg _) (by positivity)
    have k2 : (1 + u) * (|A.fl (0.5 / t)| * |angle|) ≤ (1 + u) * (0.501 / |t| * 3.2) := mul_le_mul_of_nonneg_left k1 (by linarith)
    refine this.trans (k2.trans ?_)
    rw [div_mul_eq_mul_div, ← mul_div_assoc]
    apply div_le_div_of_nonneg_right _ htp.le
    norm_num
    linarith
  have f3 : ∀ c : ℝ, |c| ≤ 1.6 → |A.fl (A.fl (A.fl (0.5 / t) * angle) * c)| ≤ 2.6 / |t| := by
    intro c hc
    have := h.abs_le (A.fl (A.fl (0.5 / t) * angle) * c)
    rw [abs_mul] at this
    have k1 : |A.fl (A.fl (0.5 / t) * angle)| * |c| ≤ 1.605 / |t| * 1.6 := mul_le_mul f2 hc (abs_nonneg _) (by positivity)
    have k2 : (1 + u) * (|A.fl (A.fl (0.5 / t) * angle)| * |c|) ≤ (1 + u) * (1.605 / |t| * 1.6) := mul_le_mul_of_nonneg_left k1 (by linarith)
    refine this.trans (k2.trans ?_)
    rw [div_mul_eq_mul_div, ← mul_div_assoc]
    apply div_le_div_of_nonneg_right _ htp.le
    norm_num
    linarith
  exact ⟨_, rfl, f3 _ e3, f3 _ e4, f3 _ e5⟩

example : ∃ v, (doubleArith Real.arccos).angularVelocity ⟨0, 0, 0, 1⟩ ⟨0, 0, 0.6, 0.8⟩ 0.1 = .ok v ∧ |v.z| ≤ 26 := by
  have l : ∀ a b : ℝ, a ^ 2 + b ^ 2 = 1 → |Spec.len ⟨0, 0, a, b⟩ - 1| ≤ 10 * (2⁻¹ : ℝ) ^ 53 := by
    intro a b hab
    have : Spec.len ⟨0, 0, a, b⟩ = 1 := by
      unfold Spec.len
      simp [hab]
    rw [this, sub_self, abs_zero]
    positivity
  obtain ⟨v, e1, _, _, e2⟩ := C110_velocity (machine_double Real.arccos) 0 (by norm_num) (fun x _ _ => by simp [doubleArith]) (10 * 2⁻¹ ^ 53) le_rfl
    (by norm_num) ⟨0, 0, 0, 1⟩ ⟨0, 0, 0.6, 0.8⟩ (l _ _ (by norm_num)) (l _ _ (by norm_num)) 0.1 (by norm_num)
  refine ⟨v, e1, e2.trans ?_⟩
  rw [abs_of_pos (by norm_num)]
  norm_num

end HandEye
