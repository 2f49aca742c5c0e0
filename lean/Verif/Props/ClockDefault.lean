import Verif.Props.Clock
import Mathlib.Analysis.Complex.Trigonometric
import Mathlib.Analysis.Real.Pi.Bounds

/-! # C73: the default filter settings -/

namespace HandEye

/-- How fast the body turns in the step `i`: a fast start, then a constant speed. -/
def paceOf (i : ℤ) : ℕ := if i < 25 then 0 else if i < 29 then 30 else if i < 142 then 1 else 0

/-- How far the body has turned. -/
def courseOf (i : ℤ) : ℤ := if i < 25 then 0 else if i < 29 then 30 * (i - 25) else if i < 142 then 120 + (i - 29) else 233

theorem courseOf_succ (i : ℤ) : courseOf (i + 1) = courseOf i + paceOf i := by
  unfold courseOf paceOf
  split_ifs <;> push_cast <;> omega

theorem pace_le (i : ℤ) : paceOf i ≤ 30 := by
  unfold paceOf
  split_ifs <;> omega

/-- The orientation of the body. -/
noncomputable def bodyAt (i : ℤ) : Quat := ⟨-Real.sin (courseOf i * 0.05), 0, 0, Real.cos (courseOf i * 0.05)⟩

theorem bodyAt_unit (i : ℤ) : (bodyAt i).dot (bodyAt i) = 1 := by
  simp only [bodyAt, Quat.dot]
  linear_combination Real.sin_sq_add_cos_sq (courseOf i * 0.05)

theorem bodyAt_step (i : ℤ) : bodyAt i * (bodyAt (i + 1)).conj =
    ⟨1 * Real.sin (paceOf i * 0.05), 0, 0, Real.cos (paceOf i * 0.05)⟩ := by
  have e : ((courseOf (i + 1) : ℝ) * 0.05) = courseOf i * 0.05 + paceOf i * 0.05 := by
    rw [courseOf_succ]; push_cast; ring
  have hsc := Real.sin_sq_add_cos_sq (courseOf i * 0.05)
  unfold bodyAt
  rw [e, Real.sin_add, Real.cos_add]
  ext
  · simp; linear_combination Real.sin (paceOf i * 0.05) * hsc
  · simp
  · simp
  · simp; linear_combination Real.cos (paceOf i * 0.05) * hsc

theorem bodyAt_dot (i : ℤ) : (bodyAt i).dot (bodyAt (i + 1)) = Real.cos (paceOf i * 0.05) := by
  have := congrArg Quat.w (bodyAt_step i)
  simp only [Quat.mul_w, Quat.conj_x, Quat.conj_y, Quat.conj_z, Quat.conj_w] at this
  simp only [Quat.dot]
  linarith

theorem bodyAt_rest (i : ℤ) (h : i < 25 ∨ 142 ≤ i) : bodyAt (i + 1) = bodyAt i := by
  have : paceOf i = 0 := by
    unfold paceOf
    split_ifs <;> first | rfl | omega
  unfold bodyAt
  rw [courseOf_succ, this, Nat.cast_zero, add_zero]

/-- The cosine of an angle that is neither small nor large. -/
theorem pace_cos {c : ℕ} (h1 : 1 ≤ c) (h30 : c ≤ 30) :
    0 < (c : ℝ) * 0.05 ∧ (c : ℝ) * 0.05 ≤ Real.pi / 2 ∧ Real.cos (c * 0.05) ≤ 0.999 := by
  have a1 : (1 : ℝ) ≤ c := by exact_mod_cast h1
  have a2 : (c : ℝ) ≤ 30 := by exact_mod_cast h30
  have hpi := Real.pi_gt_d2
  refine ⟨by linarith, by linarith, ?_⟩
  calc Real.cos (c * 0.05) ≤ Real.cos 0.05 := Real.cos_le_cos_of_nonneg_of_le_pi (by norm_num) (by linarith) (by linarith)
    _ ≤ 1 - 0.05 ^ 2 / 2 + |(0.05 : ℝ)| ^ 4 * (5 / 96) := by
        have := abs_le.mp (Real.cos_bound (x := 0.05) (by norm_num [abs_le]))
        linarith [this.2]
    _ ≤ 0.999 := by norm_num [abs_of_pos]

theorem body_velocity (i : ℤ) : angularVelocityBetweenQuaternions (bodyAt i) (bodyAt (i + 1)) 1 =
    .ok ⟨paceOf i * 0.05, 0, 0⟩ := by
  rcases Nat.eq_zero_or_pos (paceOf i) with h | h
  · obtain ⟨v, e1, e2, -⟩ := velocity_norm (bodyAt_unit i) (bodyAt_unit (i + 1)) (t := 1) one_ne_zero
    rw [e1, Vec3.norm_eq_zero.mp (e2 (by rw [bodyAt_dot, h]; norm_num)), h]
    norm_num
  · obtain ⟨a1, a2, a3⟩ := pace_cos h (pace_le i)
    have := velocity_x (bodyAt_unit (i + 1)) (bodyAt_step i) a1 a2 (by norm_num at a3 ⊢; linarith)
    rw [this, one_mul]

/-- The components of the velocities, in order. -/
def paces : List ℕ := List.replicate 384 0 ++ (List.replicate 113 1 ++ List.replicate 4 30)

theorem paces_perm : ((List.range 167).flatMap fun (i : ℕ) => [paceOf i, 0, 0]).Perm paces := by
  decide +kernel

theorem body_percentile {p : ℝ} {k c : ℕ} (hk : p / 100 * 500 = k ∨ p / 100 * 500 = k + 1 / 2) (h0 : 0 ≤ p)
    (h1 : p ≤ 100) (hc : paces[k]? = some c) (hc' : paces[min (k + 1) 500]? = some c) :
    npPercentile (flat3 ((List.range 167).map fun (i : ℕ) => (⟨paceOf i * 0.05, 0, 0⟩ : Vec3))) p = .ok (c * 0.05) := by
  have e : flat3 ((List.range 167).map fun (i : ℕ) => (⟨paceOf i * 0.05, 0, 0⟩ : Vec3)) =
      ((List.range 167).flatMap fun (i : ℕ) => [paceOf i, 0, 0]).map fun (c : ℕ) => (c : ℝ) * 0.05 := by
    unfold flat3
    rw [List.flatMap_map, List.map_flatMap]
    congr 1
    funext i
    simp
  have hsort : npSort (paces.map fun (c : ℕ) => (c : ℝ) * 0.05) = paces.map fun (c : ℕ) => (c : ℝ) * 0.05 := by
    refine List.Pairwise.insertionSort_eq ?_
    rw [List.pairwise_map]
    have : paces.Pairwise (· ≤ ·) := by
      unfold paces
      simp only [List.pairwise_append, List.pairwise_replicate, List.mem_append, List.mem_replicate]
      refine ⟨by omega, ⟨by omega, by omega, ?_⟩, ?_⟩
      · rintro a ⟨-, rfl⟩ b ⟨-, rfl⟩; omega
      · rintro a ⟨-, rfl⟩ b -; omega
    exact this.imp fun {a b} h => by
      have : (a : ℝ) ≤ b := by exact_mod_cast h
      linarith
  have hlen : (paces.map fun (c : ℕ) => (c : ℝ) * 0.05).length = 501 := by
    rw [List.length_map]
    decide +kernel
  have hfl : ⌊p / 100 * 500⌋₊ = k := by
    rw [Nat.floor_eq_iff (by positivity)]
    rcases hk with h | h <;> rw [h] <;> constructor <;> linarith
  rw [e, percentile_perm (paces_perm.map _)]
  unfold npPercentile
  rw [if_neg (by intro h; rw [h] at hlen; simp at hlen), if_neg (by rintro (h | h) <;> linarith), hsort, hlen]
  norm_num only [Nat.cast_ofNat, Nat.add_one_sub_one]
  rw [hfl, List.getD_eq_getElem?_getD, List.getD_eq_getElem?_getD, List.getElem?_map, List.getElem?_map, hc, hc']
  simp

theorem body_limits :
    npPercentile (flat3 ((List.range 167).map fun (i : ℕ) => (⟨paceOf i * 0.05, 0, 0⟩ : Vec3))) 99.5 =
      .ok ((30 : ℕ) * 0.05) ∧
    npPercentile (flat3 ((List.range 167).map fun (i : ℕ) => (⟨paceOf i * 0.05, 0, 0⟩ : Vec3))) 99.0 =
      .ok ((1 : ℕ) * 0.05) := by
  constructor
  · refine body_percentile (k := 497) (Or.inr (by norm_num)) (by norm_num) (by norm_num) ?_ ?_ <;> decide +kernel
  · refine body_percentile (k := 495) (Or.inl (by norm_num)) (by norm_num) (by norm_num) ?_ ?_ <;> decide +kernel

/-- The sum over a smoothing window of the speeds, limited to `c`. -/
def windowSum (c : ℕ) (i : ℤ) : ℕ := ∑ j ∈ Finset.range 25, min c (paceOf (i - 12 + j))

theorem norm_of_x {x : ℝ} (h : 0 ≤ x) : (⟨x, 0, 0⟩ : Vec3).norm = x := by
  simp [Vec3.norm, Vec3.dot, Real.sqrt_mul_self h]

theorem body_filtered (c : ℕ) (i : ℤ) :
    (filtered (fun i => ⟨paceOf i * 0.05, 0, 0⟩) (c * 0.05) 25 i).norm = 0.002 * windowSum c i := by
  have h0 : (0 : ℝ) ≤ c * 0.05 := by positivity
  have e : filtered (fun i => ⟨paceOf i * 0.05, 0, 0⟩) (c * 0.05) 25 i = ⟨0.002 * windowSum c i, 0, 0⟩ := by
    unfold filtered
    have hz : Spec.windowMean (fun _ => npClip 0 (-((c : ℝ) * 0.05)) (c * 0.05)) 25 i = 0 := by
      rw [npClip_zero h0]; simp [Spec.windowMean]
    rw [hz]
    congr 1
    unfold Spec.windowMean windowSum
    have : ∀ j, npClip ((paceOf j : ℝ) * 0.05) (-((c : ℝ) * 0.05)) (c * 0.05) = (min c (paceOf j) : ℕ) * 0.05 := by
      intro j
      unfold npClip
      have : (0 : ℝ) ≤ paceOf j * 0.05 := by positivity
      rw [max_eq_left (by linarith), ← min_mul_of_nonneg _ _ (by norm_num : (0:ℝ) ≤ 0.05)]
      push_cast
      rfl
    simp only [this]
    rw [← Finset.sum_mul, ← Nat.cast_sum]
    have e12 : ((25 / 2 : ℕ) : ℤ) = 12 := by norm_num
    rw [e12]
    generalize ∑ j ∈ Finset.range 25, min c (paceOf (i - 12 + j)) = S
    push_cast
    ring
  rw [e, norm_of_x (mul_nonneg (by norm_num) (Nat.cast_nonneg _))]

theorem windowSum_support (c : ℕ) (i : ℤ) (h : i < 0 ∨ 167 ≤ i) : windowSum c i = 0 := by
  unfold windowSum
  refine Finset.sum_eq_zero fun j hj => ?_
  have hj := Finset.mem_range.mp hj
  have : paceOf (i - 12 + j) = 0 := by
    unfold paceOf
    split_ifs <;> first | rfl | omega
  rw [this, Nat.min_zero]

theorem body_correlation : ∑ l ∈ Finset.range 167, windowSum 1 l * windowSum 30 l <
    ∑ l ∈ Finset.range 167, windowSum 1 l * windowSum 30 (l - 18) := by
  decide +kernel

/-- The two signals that are compared. -/
noncomputable def bodySignal (n c : ℕ) : List ℝ := (List.range n).map fun (i : ℕ) => (0.002 : ℝ) * windowSum c (i : ℤ)

theorem bodySignal_length (n c : ℕ) : (bodySignal n c).length = n := by
  rw [bodySignal, List.length_map, List.length_range]

theorem body_corr_get {n k : ℕ} (hn : n = 167) (hk : k < n + n - 1) {s : ℤ} (hs : (k : ℤ) = s + n - 1) :
    (correlateFull (bodySignal n 1) (bodySignal n 30))[k]? =
      some (0.000004 * ((∑ l ∈ Finset.range n, windowSum 1 l * windowSum 30 (l - s) : ℕ) : ℝ)) := by
  have hz : ∀ j : ℤ, zeroExt (bodySignal n 30) j = 0.002 * windowSum 30 j := by
    intro j
    rw [← sample_eq]
    refine sample_map (n := n) (f := fun j => (0.002 : ℝ) * windowSum 30 j) ?_ j
    intro i hi
    rw [windowSum_support 30 i (by omega), Nat.cast_zero, mul_zero]
  unfold correlateFull
  rw [bodySignal_length, bodySignal_length, List.getElem?_map, List.getElem?_range hk, Option.map_some]
  congr 1
  rw [sum_range_map, Nat.cast_sum, Finset.mul_sum]
  refine Finset.sum_congr rfl fun l hl' => ?_
  have hl' := Finset.mem_range.mp hl'
  have hg : (bodySignal n 1).getD l 0 = 0.002 * windowSum 1 (l : ℤ) := by
    rw [getD_eq (by rw [bodySignal_length]; exact hl')]
    simp only [bodySignal, List.getElem_map, List.getElem_range]
  have he : (l : ℤ) - k + n - 1 = l - s := by omega
  rw [hg, hz, he, Nat.cast_mul]
  generalize (windowSum 1 (l : ℤ) : ℝ) = x
  generalize (windowSum 30 ((l : ℤ) - s) : ℝ) = y
  norm_num
  ring

theorem argmax_ne {l : List ℝ} {i j : ℕ} {a b : ℝ} (ha : l[i]? = some a) (hb : l[j]? = some b) (h : a < b) :
    ∃ k, npArgmax l = .ok k ∧ k ≠ i := by
  have hne : l ≠ [] := by rintro rfl; simp at ha
  obtain ⟨m, hm⟩ := Option.isSome_iff_exists.mp (List.isSome_max?_of_mem (List.mem_of_getElem? ha))
  have hmax := List.max?_eq_some_iff.mp hm
  refine ⟨_, by unfold npArgmax; rw [hm], fun hk => ?_⟩
  have hlt : l.findIdx (fun x => decide (x = m)) < l.length :=
    List.findIdx_lt_length_of_exists ⟨m, hmax.1, by simp⟩
  have hget := List.findIdx_getElem (w := hlt)
  rw [decide_eq_true_eq] at hget
  have hi : l[i]? = some m := by
    rw [← hk, List.getElem?_eq_getElem hlt, hget]
  rw [ha] at hi
  have := hmax.2 b (List.mem_of_getElem? hb)
  have := Option.some.inj hi
  linarith

/-- C73 is false for the default filter settings, even if one recording is compared with itself: the velocities are
limited to different values, and the smoothed signals then fit best if they are shifted.  The body rests for the
length of the smoothing window at the beginning and at the end, and turns in the positive sense about one axis in
between; by `C73_clock_offset_partial`, the offset would be zero if the two percentiles were equal (and at least
99). -/
theorem C73_default_refuted : ∃ (Q : ℤ → Quat) (n : ℕ) (lo hi : ℤ), (∀ i, (Q i).norm = 1) ∧ 25 ≤ lo ∧ hi + 25 ≤ n ∧
    (∀ i : ℤ, i < lo ∨ hi ≤ i → Q (i + 1) = Q i) ∧
    (∀ p : ℝ, 99 ≤ p → 3 * n ≤ ⌊p / 100 * (3 * n - 1 : ℝ)⌋₊ + (Spec.turns Q n).countP fun x => decide (0 < x)) ∧
    ∃ m : ℤ, m ≠ 0 ∧ calculateTimeOffset (Spec.regular 0 1 n) ((List.range (n + 1)).map fun (i : ℕ) => Q i)
      (Spec.regular 0 1 n) ((List.range (n + 1)).map fun (i : ℕ) => Q i) {} = .ok (m : ℝ) := by
  obtain ⟨n, hn⟩ : ∃ n, n = 167 := ⟨_, rfl⟩
  refine ⟨bodyAt, n, 25, 142, fun i => Quat.norm_eq_one.mpr (bodyAt_unit i), le_rfl, by omega, bodyAt_rest, ?_, ?_⟩
  · intro p hp
    have h1 : 495 ≤ ⌊p / 100 * (3 * n - 1 : ℝ)⌋₊ := by
      refine Nat.le_floor ?_
      rw [hn]
      push_cast
      linarith
    have h2 : 117 ≤ (Spec.turns bodyAt n).countP fun x => decide (0 < x) := by
      have hs : (117 : ℕ) = ((List.range n).map fun (i : ℕ) => min 1 (paceOf i)).sum := by rw [hn]; decide +kernel
      unfold Spec.turns
      rw [hs, List.countP_flatMap]
      refine List.sum_le_sum fun i _ => ?_
      rcases Nat.eq_zero_or_pos (paceOf i) with h | h
      · rw [h]; exact Nat.zero_le _
      · refine le_trans (min_le_left _ _) ?_
        obtain ⟨a1, a2, a3⟩ := pace_cos h (pace_le i)
        have hcos : 0 ≤ Real.cos (paceOf i * 0.05) := Real.cos_nonneg_of_mem_Icc ⟨by linarith, a2⟩
        rw [Function.comp_apply, Nat.succ_le_iff, List.countP_pos_iff]
        refine ⟨_, List.mem_cons_self, ?_⟩
        rw [decide_eq_true_eq]
        unfold Spec.turnAxis
        rw [bodyAt_dot, bodyAt_step, if_pos (by rw [abs_of_nonneg hcos]; norm_num at a3 ⊢; linarith)]
        have hsin : 0 < Real.sin (paceOf i * 0.05) := Real.sin_pos_of_pos_of_lt_pi a1 (by linarith [Real.pi_pos])
        have hcos' : 0 < Real.cos (paceOf i * 0.05) := by
          refine Real.cos_pos_of_mem_Ioo ⟨by linarith [Real.pi_pos], ?_⟩
          have : (paceOf i : ℝ) ≤ 30 := by exact_mod_cast pace_le i
          linarith [Real.pi_gt_d2]
        simp only [Quat.vec, Vec3.smul_x, one_mul]
        exact mul_pos hcos' hsin
    omega
  obtain ⟨k, hk, hk'⟩ := argmax_ne (body_corr_get hn (k := 166) (by omega) (s := 0) (by omega))
    (body_corr_get hn (k := 184) (by omega) (s := 18) (by omega)) (by
      have := body_correlation
      rw [← hn] at this
      simp only [sub_zero]
      refine mul_lt_mul_of_pos_left ?_ (by norm_num)
      exact_mod_cast this)
  refine ⟨(k : ℤ) - n + 1, by omega, ?_⟩
  have hnorms : ∀ {p : ℝ} {c : ℕ},
      npPercentile (flat3 ((List.range n).map fun (i : ℕ) => (⟨paceOf i * 0.05, 0, 0⟩ : Vec3))) p = .ok (c * 0.05) →
      computeAngularVelocityNorms ((List.range (n + 1)).map fun (i : ℕ) => bodyAt i) (Spec.regular 0 1 n) 25 p =
        .ok (bodySignal n c) := by
    intro p c h
    have hf := filter_signal (k := 25) (V := fun i => (⟨paceOf i * 0.05, 0, 0⟩ : Vec3)) (n := n) (fun i hi => by
      have : paceOf i = 0 := by
        unfold paceOf
        split_ifs <;> first | rfl | omega
      rw [this, Nat.cast_zero, zero_mul]; rfl) h (by positivity) (by norm_num)
    rw [norms_regular (q := fun i => bodyAt i) (V := fun i => (⟨paceOf i * 0.05, 0, 0⟩ : Vec3)) one_pos
      (fun i _ => by have := body_velocity i; exact_mod_cast this) hf, bodySignal, List.map_map]
    congr 1
    refine List.map_congr_left fun i _ => ?_
    rw [Function.comp_apply, body_filtered]
  have hres := resample_regular 0 one_pos (r := 1) (n := n) le_rfl (by omega) (fun i => bodyAt i)
  simp only [one_mul, Nat.cast_one, div_one] at hres
  have hlim := body_limits
  rw [← hn] at hlim
  unfold calculateTimeOffset
  rw [regular_mean _ _ (by omega), Py.ok_bind, Py.ok_bind]
  dsimp only
  rw [ite_self, hres, Py.ok_bind]
  dsimp only
  rw [Py.ok_bind]
  dsimp only
  rw [hnorms hlim.1, Py.ok_bind, hnorms hlim.2, Py.ok_bind, bodySignal_length, bodySignal_length,
    regular_take _ _ (by omega), pyAssert_pos (by rw [regular_length, regular_length]; omega), Py.ok_bind]
  unfold calculateTimeOffsetFromSignals
  rw [bodySignal_length, bodySignal_length, pyRequire_pos (by omega), Py.ok_bind, regular_mean _ _ (by omega),
    Py.ok_bind, hk, Py.ok_bind]
  dsimp only
  rw [pyAt_ok (by rw [regular_length]; omega), Py.ok_bind, Py.ok_bind, Py.pure_eq]
  congr 1
  push_cast
  ring

end HandEye
