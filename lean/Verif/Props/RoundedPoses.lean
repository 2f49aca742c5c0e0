import Verif.Lemmas.Interp
import Verif.Props.RoundedVelocity

/-! # Property C110: the interpolation of poses in floating-point arithmetic -/

namespace HandEye

/-- `x` is, up to the error `b`, the coordinate at the time `s` on the straight line between its neighbours. -/
def Spec.Positioned (b : ℝ) (times xs : List ℝ) (s x : ℝ) : Prop :=
  ∃ (i : ℕ) (tl xl : ℝ), times[i]? = some tl ∧ xs[i]? = some xl ∧ (tl = s ∧ |x - xl| ≤ b ∨
    ∃ tr xr, times[i + 1]? = some tr ∧ xs[i + 1]? = some xr ∧ tl < s ∧ s < tr ∧ |x - (xl + (s - tl) / (tr - tl) * (xr - xl))| ≤ b)

theorem between_bound {f y0 y1 M : ℝ} (hf0 : 0 ≤ f) (hf1 : f ≤ 1) (hy0 : |y0| ≤ M) (hy1 : |y1| ≤ M) : |y0 + f * (y1 - y0)| ≤ M := by
  obtain ⟨l0, r0⟩ := abs_le.mp hy0
  obtain ⟨l1, r1⟩ := abs_le.mp hy1
  have a1 : (1 - f) * -M ≤ (1 - f) * y0 := mul_le_mul_of_nonneg_left l0 (by linarith)
  have a2 : (1 - f) * y0 ≤ (1 - f) * M := mul_le_mul_of_nonneg_left r0 (by linarith)
  have a3 : f * -M ≤ f * y1 := mul_le_mul_of_nonneg_left l1 hf0
  have a4 : f * y1 ≤ f * M := mul_le_mul_of_nonneg_left r1 hf0
  rw [abs_le]
  constructor <;> linarith

/-- A rounded coordinate between two others. -/
theorem lerp_rounded {u : ℝ} {A : Arith} (h : Spec.Machine u A) {x0 x1 x y0 y1 M : ℝ} (h1 : x0 ≤ x) (h2 : x < x1) (hy0 : |y0| ≤ M) (hy1 : |y1| ≤ M) :
    |A.fl (A.fl (A.fl (A.fl (y1 - y0) / A.fl (x1 - x0)) * A.fl (x - x0)) + y0) - (y0 + (x - x0) / (x1 - x0) * (y1 - y0))| ≤ 13 * u * M := by
  have h0 := h.nonneg
  have hs := h.small
  have hM : 0 ≤ M := (abs_nonneg _).trans hy0
  obtain ⟨ε1, b1, e1⟩ := fl_factor h (y1 - y0)
  obtain ⟨ε2, b2, e2⟩ := fl_factor h (x1 - x0)
  obtain ⟨ε3, b3, e3⟩ := fl_factor h (x - x0)
  obtain ⟨ε4, b4, e4⟩ := fl_factor h (A.fl (y1 - y0) / A.fl (x1 - x0))
  obtain ⟨ε5, b5, e5⟩ := fl_factor h (A.fl (A.fl (y1 - y0) / A.fl (x1 - x0)) * A.fl (x - x0))
  have hx : 0 < x1 - x0 := by linarith
  have hε2 : 0 < 1 + ε2 := by
    have := (abs_le.mp b2).1
    linarith
  have d2 : ∃ ε, |ε| ≤ 1.01 * u ∧ (1 + ε2)⁻¹ = 1 + ε := by
    refine ⟨-ε2 / (1 + ε2), ?_, ?_⟩
    · rw [abs_div, abs_neg, abs_of_pos hε2, div_le_iff₀ hε2]
      obtain ⟨l, r⟩ := abs_le.mp b2
      norm_num
      nlinarith
    · field_simp
      ring
  obtain ⟨ε, hε, d2⟩ := d2
  set f := (x - x0) / (x1 - x0) with hf
  have hf0 : 0 ≤ f := div_nonneg (by linarith) hx.le
  have hf1 : f ≤ 1 := by
    rw [hf, div_le_one hx]
    linarith
  have key : A.fl (A.fl (A.fl (y1 - y0) / A.fl (x1 - x0)) * A.fl (x - x0)) = (1 + ε1) * (1 + ε3) * (1 + ε4) * (1 + ε5) * (1 + ε) * (f * (y1 - y0)) := by
    rw [e5, e4, e1, e2, e3, ← d2, hf]
    field_simp
  set Z := A.fl (A.fl (A.fl (y1 - y0) / A.fl (x1 - x0)) * A.fl (x - x0))
  have f1 : |1 + ε1 - 1| ≤ u := by
    rw [add_sub_cancel_left]
    exact b1
  have f2 := factor_step f1 (by linarith) b3
  have f3 := factor_step f2 (by norm_num; linarith) b4
  have f4 := factor_step f3 (by norm_num; linarith) b5
  have f5 := factor_step f4 (by norm_num; linarith) hε
  obtain ⟨l0, r0⟩ := abs_le.mp hy0
  obtain ⟨l1, r1⟩ := abs_le.mp hy1
  have hΔ : |f * (y1 - y0)| ≤ 2 * M := by
    rw [abs_mul, abs_of_nonneg hf0]
    have k : |y1 - y0| ≤ 2 * M := by
      rw [abs_le]
      constructor <;> linarith
    have := mul_le_mul hf1 k (abs_nonneg _) (by norm_num)
    linarith
  have g1 : |Z - f * (y1 - y0)| ≤ 5.2 * u * (2 * M) := by
    have k : Z - f * (y1 - y0) = ((1 + ε1) * (1 + ε3) * (1 + ε4) * (1 + ε5) * (1 + ε) - 1) * (f * (y1 - y0)) := by
      rw [key]
      ring
    rw [k, abs_mul]
    refine mul_le_mul (f5.trans ?_) hΔ (abs_nonneg _) (by positivity)
    norm_num
    linarith
  have hT : |y0 + f * (y1 - y0)| ≤ M := between_bound hf0 hf1 hy0 hy1
  have huM : 0 ≤ u * M := mul_nonneg h0 hM
  have huM1 : u * M ≤ 1 / 1000 * M := mul_le_mul_of_nonneg_right hs hM
  have g2 : |Z + y0| ≤ 1.02 * M := by
    have k := abs_sub_abs_le_abs_sub (Z + y0) (y0 + f * (y1 - y0))
    have k2 : Z + y0 - (y0 + f * (y1 - y0)) = Z - f * (y1 - y0) := by ring
    rw [k2] at k
    norm_num at g1 ⊢
    linarith
  have r := h.rounds (Z + y0)
  have g3 : u * |Z + y0| ≤ u * (1.02 * M) := mul_le_mul_of_nonneg_left g2 h0
  have k : A.fl (Z + y0) - (y0 + f * (y1 - y0)) = (A.fl (Z + y0) - (Z + y0)) + (Z - f * (y1 - y0)) := by ring
  rw [k]
  refine (abs_add_le _ _).trans ?_
  norm_num at g1 g3
  linarith

theorem interp_rounded {u : ℝ} {A : Arith} (h : Spec.Machine u A) {xp fp : List ℝ} {first last M x : ℝ} (hs : xp.Pairwise (· < ·))
    (hlen : fp.length = xp.length) (hM : ∀ y ∈ fp, |y| ≤ M) (hf : xp.head? = some first) (hl : xp.getLast? = some last) (h1 : first ≤ x) (h2 : x ≤ last) :
    Spec.Positioned (13 * u * M) xp fp x (A.interp xp fp x) := by
  have h0 := h.nonneg
  rcases locate hs hf hl h1 h2 with ⟨k, hk, rfl⟩ | ⟨k, hk, hk1, hk2⟩
  · have hc := countP_sorted hs hk le_rfl fun hk' => (sorted_lt_iff hs hk hk').mpr (by omega)
    have hy := hM fp[k] (List.getElem_mem _)
    have hM0 : 0 ≤ M := (abs_nonneg _).trans hy
    refine ⟨k, xp[k], fp[k], List.getElem?_eq_getElem hk, List.getElem?_eq_getElem (by omega), Or.inl ⟨rfl, ?_⟩⟩
    unfold Arith.interp
    rw [hc]
    dsimp only
    rw [if_neg (by omega), Nat.add_sub_cancel, getD_eq (hlen ▸ hk), getD_eq hk]
    split
    · rw [sub_self, abs_zero]
      positivity
    · next hne =>
      have hk' : k + 1 < xp.length := by omega
      rw [getD_eq (by omega : k + 1 < fp.length), getD_eq hk']
      have := lerp_rounded h (x0 := xp[k]) (x1 := xp[k + 1]) (x := xp[k]) (y0 := fp[k]) (y1 := fp[k + 1]) le_rfl
        ((sorted_lt_iff hs hk hk').mpr (by omega)) hy (hM _ (List.getElem_mem _))
      rw [sub_self, zero_div, zero_mul, add_zero] at this
      rw [sub_self]
      exact this
  · have hc := countP_sorted hs (by omega) hk1.le fun _ => hk2
    refine ⟨k, xp[k], fp[k], List.getElem?_eq_getElem (by omega), List.getElem?_eq_getElem (by omega),
      Or.inr ⟨xp[k + 1], fp[k + 1], List.getElem?_eq_getElem hk, List.getElem?_eq_getElem (by omega), hk1, hk2, ?_⟩⟩
    unfold Arith.interp
    rw [hc]
    dsimp only
    rw [if_neg (by omega), if_neg (by omega), Nat.add_sub_cancel, getD_eq (by omega), getD_eq (by omega), getD_eq (by omega), getD_eq (by omega)]
    exact lerp_rounded h hk1.le hk2 (hM _ (List.getElem_mem _)) (hM _ (List.getElem_mem _))

/-- **C110**, poses: between the first and the last time stamp `interpolate_poses_from_samples` never fails because of rounding; every row has the time of its sample, its position is within
`13 u M` of the straight line between the neighbours at the exact fraction, and its orientation is a recorded one or near the arc between the neighbours. -/
theorem C110_poses {u : ℝ} {A : Arith} (h : Spec.Machine u A) (ho : Spec.Ordered A) (e : ℝ) (cos sin : ℝ → ℝ)
    (hfun : Spec.Functions e A.acos cos sin) (δ : ℝ) (hδ : 10 * u ≤ δ) (hδ1 : δ ≤ 4e-6) (poses : List StampedPose) (M first last : ℝ)
    (samples : List ℝ) (hs : (poses.map StampedPose.t).Pairwise (· < ·)) (hu : ∀ p ∈ poses, |Spec.len p.pose.q - 1| ≤ δ)
    (hM : ∀ p ∈ poses, |p.pose.pos.x| ≤ M ∧ |p.pose.pos.y| ≤ M ∧ |p.pose.pos.z| ≤ M)
    (hf : (poses.map StampedPose.t).head? = some first) (hl : (poses.map StampedPose.t).getLast? = some last)
    (hin : ∀ s ∈ samples, first ≤ s ∧ s ≤ last) :
    ∃ rows, A.interpolatePoses cos sin poses samples = .ok rows ∧
      List.Forall₂ (fun s r => r.t = s ∧
        Spec.Resampled (3 * δ) (21 * Real.sqrt δ + 3e-7 + 10 * e) (poses.map StampedPose.t) (poses.map fun p => p.pose.q) s r.pose.q ∧
        Spec.Positioned (13 * u * M) (poses.map StampedPose.t) (poses.map fun p => p.pose.pos.x) s r.pose.pos.x ∧
        Spec.Positioned (13 * u * M) (poses.map StampedPose.t) (poses.map fun p => p.pose.pos.y) s r.pose.pos.y ∧
        Spec.Positioned (13 * u * M) (poses.map StampedPose.t) (poses.map fun p => p.pose.pos.z) s r.pose.pos.z) samples rows := by
  obtain ⟨qs, e1, e2⟩ := C110_resample h ho e cos sin hfun δ hδ hδ1 (poses.map StampedPose.t) (poses.map fun p => p.pose.q) first last samples hs
    (by simp) (by
      intro q hq
      obtain ⟨p, hp, rfl⟩ := List.mem_map.mp hq
      exact hu p hp) hf hl hin
  have hne : poses.length ≠ 0 := by
    intro hc
    rw [List.length_eq_zero_iff] at hc
    rw [hc] at hf
    simp at hf
  refine ⟨List.zipWith (fun s q => ⟨s, ⟨⟨A.interp (poses.map StampedPose.t) (poses.map fun p => p.pose.pos.x) s,
    A.interp (poses.map StampedPose.t) (poses.map fun p => p.pose.pos.y) s,
    A.interp (poses.map StampedPose.t) (poses.map fun p => p.pose.pos.z) s⟩, q⟩⟩) samples qs, ?_, ?_⟩
  · unfold Arith.interpolatePoses
    dsimp only
    rw [e1, Py.ok_bind, pyRequire_pos hne, Py.ok_bind]
    rfl
  · have hx : ∀ g : StampedPose → ℝ, (∀ p ∈ poses, |g p| ≤ M) → ∀ s ∈ samples,
        Spec.Positioned (13 * u * M) (poses.map StampedPose.t) (poses.map g) s (A.interp (poses.map StampedPose.t) (poses.map g) s) := by
      intro g hg s hm
      refine interp_rounded h hs (by simp) ?_ hf hl (hin s hm).1 (hin s hm).2
      intro y hy
      obtain ⟨p, hp, rfl⟩ := List.mem_map.mp hy
      exact hg p hp
    have px := hx (fun p => p.pose.pos.x) fun p hp => (hM p hp).1
    have py := hx (fun p => p.pose.pos.y) fun p hp => (hM p hp).2.1
    have pz := hx (fun p => p.pose.pos.z) fun p hp => (hM p hp).2.2
    clear hx hin e1
    induction e2 with
    | nil => exact List.Forall₂.nil
    | cons hr _ ih =>
      refine List.Forall₂.cons ⟨rfl, hr, px _ (List.mem_cons_self ..), py _ (List.mem_cons_self ..), pz _ (List.mem_cons_self ..)⟩ ?_
      exact ih (fun s hm => px s (List.mem_cons_of_mem _ hm)) (fun s hm => py s (List.mem_cons_of_mem _ hm))
        fun s hm => pz s (List.mem_cons_of_mem _ hm)

example : ∃ rows, (doubleArith Real.arccos).interpolatePoses Real.cos Real.sin
    [⟨0, ⟨⟨1, 2, 3⟩, ⟨0, 0, 0, 1⟩⟩⟩, ⟨1, ⟨⟨2, 2, 3⟩, ⟨0, 0, 0.6, 0.8⟩⟩⟩] [0.25] = .ok rows ∧ rows.length = 1 := by
  obtain ⟨rows, e1, e2⟩ := C110_poses (machine_double Real.arccos) (C110_ordered _) 0 _ _ functions_exact (10 * 2⁻¹ ^ 53) le_rfl (by norm_num)
    [⟨0, ⟨⟨1, 2, 3⟩, ⟨0, 0, 0, 1⟩⟩⟩, ⟨1, ⟨⟨2, 2, 3⟩, ⟨0, 0, 0.6, 0.8⟩⟩⟩] 3 0 1 [0.25] (by simp) (by
      intro p hp
      have : Spec.len p.pose.q = 1 := by
        simp only [List.mem_cons, List.not_mem_nil, or_false] at hp
        rcases hp with rfl | rfl <;> unfold Spec.len <;> norm_num
      rw [this, sub_self, abs_zero]
      positivity) (by
      intro p hp
      simp only [List.mem_cons, List.not_mem_nil, or_false] at hp
      rcases hp with rfl | rfl <;> norm_num) rfl rfl (by norm_num)
  exact ⟨rows, e1, by simpa using e2.length_eq.symm⟩

end HandEye
