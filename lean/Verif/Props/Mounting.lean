import Verif.Props.Filter
import Verif.Props.Quat5

/-! # Property C64: two sensors on one body -/

namespace HandEye

/-- The length of the angular velocity that the code computes: the angle between the two orientations, halved,
per time, or zero for very small angles. -/
theorem velocity_norm {p q : Quat} (hp : p.dot p = 1) (hq : q.dot q = 1) {t : ℝ} (ht : t ≠ 0) :
    ∃ v, angularVelocityBetweenQuaternions p q t = .ok v ∧
      (|(|p.dot q| - 1)| ≤ 1e-12 + 1e-5 → v.norm = 0) ∧
      (1e-12 + 1e-5 < |(|p.dot q| - 1)| → v.norm = Real.arccos |p.dot q| / |t|) := by
  have hw : (p * q.conj).w = p.dot q := by simp [Quat.dot]; ring
  have hd : (p * q.conj).dot (p * q.conj) = 1 := by rw [Quat.dot_mul_left, hp, Quat.dot_conj_conj, hq, one_mul]
  have hd' : ∃ d : Quat, (if (p * q.conj).w < 0 then -(p * q.conj) else p * q.conj) = d ∧ d.w = |p.dot q| ∧
      d.dot d = 1 := by
    refine ⟨_, rfl, ?_, ?_⟩
    · split
      · rename_i h
        rw [Quat.neg_w, hw, abs_of_neg (hw ▸ h)]
      · rename_i h
        rw [hw, abs_of_nonneg (hw ▸ not_lt.mp h)]
    · split
      · rw [Quat.dot_neg, Quat.neg_dot, neg_neg, hd]
      · exact hd
  obtain ⟨d, hde, hdw, hdd⟩ := hd'
  unfold angularVelocityBetweenQuaternions
  rw [Quat.inverse_unit hq, Py.ok_bind]
  dsimp only
  rw [hde]
  by_cases hc : npIsclose d.w 1 1e-12
  · refine ⟨(0.5 / t * 0) • ⟨1, 0, 0⟩, ?_, ?_, ?_⟩
    · rw [angleAxis_close hc, Py.ok_bind]
      dsimp only
      rw [npDiv_ok ht, Py.ok_bind, Py.pure_eq]
    · intro _
      rw [Vec3.norm_smul]
      simp
    · intro h
      rw [npIsclose, hdw, abs_one, mul_one] at hc
      linarith
  · have hb : 0 ≤ d.w ∧ d.w ≤ 1 := by
      refine ⟨hdw ▸ abs_nonneg _, ?_⟩
      rw [hdw, abs_le]
      exact ⟨Quat.neg_one_le_dot hp hq, Quat.dot_le_one hp hq⟩
    have hlt : d.w < 1 := by
      refine lt_of_le_of_ne hb.2 fun h => hc ?_
      rw [npIsclose, h]; norm_num
    have hpos : 0 < 1 - d.w * d.w := by nlinarith
    have hs : Real.sqrt (1 - d.w * d.w) ≠ 0 := (Real.sqrt_pos.mpr hpos).ne'
    refine ⟨(0.5 / t * (2 * Real.arccos d.w)) • ⟨d.x / Real.sqrt (1 - d.w * d.w), d.y / Real.sqrt (1 - d.w * d.w),
      d.z / Real.sqrt (1 - d.w * d.w)⟩, ?_, ?_, ?_⟩
    · rw [angleAxis_far hc (by linarith) hb.2 hs, Py.ok_bind]
      dsimp only
      rw [npDiv_ok ht, Py.ok_bind, Py.pure_eq]
    · intro h
      rw [npIsclose, hdw, abs_one, mul_one] at hc
      exact absurd h hc
    · intro _
      have hn : Vec3.norm ⟨d.x / Real.sqrt (1 - d.w * d.w), d.y / Real.sqrt (1 - d.w * d.w),
          d.z / Real.sqrt (1 - d.w * d.w)⟩ = 1 := by
        rw [Vec3.norm_eq_one]
        have hsq := Real.mul_self_sqrt hpos.le
        simp only [Quat.dot] at hdd
        simp only [Vec3.dot]
        generalize Real.sqrt (1 - d.w * d.w) = σ at *
        field_simp
        nlinarith
      rw [Vec3.norm_smul, hn, hdw, abs_mul, abs_div, abs_of_nonneg (mul_nonneg two_pos.le (Real.arccos_nonneg _))]
      rw [abs_of_pos (by norm_num : (0:ℝ) < 0.5)]
      ring

/-- C64 where it holds: before filtering, two rigidly connected sensors (in whatever world frames) have angular
velocities of the same length.  `_partial`: filtering destroys this, see `C64_refuted`. -/
theorem C64_velocity_partial (g X p q : Quat) (t : ℝ) (hg : g.norm = 1) (hX : X.norm = 1) (hp : p.norm = 1)
    (hq : q.norm = 1) (ht : t ≠ 0) : ∃ v v', angularVelocityBetweenQuaternions p q t = .ok v ∧
      angularVelocityBetweenQuaternions (g * p * X) (g * q * X) t = .ok v' ∧ v'.norm = v.norm := by
  have dg := Quat.norm_eq_one.mp hg
  have dX := Quat.norm_eq_one.mp hX
  have dp := Quat.norm_eq_one.mp hp
  have dq := Quat.norm_eq_one.mp hq
  have hdot : ∀ a b : Quat, (g * a * X).dot (g * b * X) = a.dot b := by
    intro a b
    rw [Quat.dot_mul_right, Quat.dot_mul_left, dg, dX, one_mul, one_mul]
  obtain ⟨v, h1, h2, h3⟩ := velocity_norm dp dq ht
  obtain ⟨v', h1', h2', h3'⟩ := velocity_norm (p := g * p * X) (q := g * q * X) (by rw [hdot, dp]) (by rw [hdot, dq]) ht
  refine ⟨v, v', h1, h1', ?_⟩
  rw [hdot] at h2' h3'
  rcases le_or_gt |(|p.dot q| - 1)| (1e-12 + 1e-5) with h | h
  · rw [h2 h, h2' h]
  · rw [h3 h, h3' h]

/-- An orientation pair that differs by the half angle `h` about the x axis. -/
theorem velocity_x {p q : Quat} {h s : ℝ} (hq : q.dot q = 1) (hd : p * q.conj = ⟨s * Real.sin h, 0, 0, Real.cos h⟩)
    (h0 : 0 < h) (h1 : h ≤ Real.pi / 2) (hc : 1e-12 + 1e-5 < 1 - Real.cos h) :
    angularVelocityBetweenQuaternions p q 1 = .ok ⟨s * h, 0, 0⟩ := by
  have hcos : 0 ≤ Real.cos h := Real.cos_nonneg_of_mem_Icc ⟨by linarith, h1⟩
  have hsin : 0 < Real.sin h := Real.sin_pos_of_pos_of_lt_pi h0 (by linarith [Real.pi_pos])
  have hsq : Real.sqrt (1 - Real.cos h * Real.cos h) = Real.sin h := by
    rw [← Real.sqrt_sq hsin.le]
    congr 1
    nlinarith [Real.sin_sq_add_cos_sq h]
  unfold angularVelocityBetweenQuaternions
  rw [Quat.inverse_unit hq, Py.ok_bind]
  dsimp only
  rw [hd]
  rw [if_neg (not_lt.mpr hcos)]
  rw [angleAxis_far]
  · rw [Py.ok_bind]
    dsimp only
    rw [npDiv_ok one_ne_zero, Py.ok_bind, Py.pure_eq, hsq, Real.arccos_cos h0.le (by linarith [Real.pi_pos])]
    congr 1
    ext
    · simp; field_simp; norm_num
    · simp
    · simp
  · rw [npIsclose, abs_one, mul_one, abs_sub_comm, not_le, abs_of_pos (by norm_num at hc ⊢; linarith)]
    exact hc
  · exact le_trans (by norm_num) hcos
  · exact Real.cos_le_one _
  · change Real.sqrt (1 - Real.cos h * Real.cos h) ≠ 0
    rw [hsq]; exact hsin.ne'

/-- A body turning about the x axis, in the negative sense, by `2 * h` per step. -/
noncomputable def turning (h : ℝ) (i : ℕ) : Quat := ⟨-Real.sin (i * h), 0, 0, Real.cos (i * h)⟩

/-- Regular times 0, 1, ..., N. -/
def seconds (N : ℕ) : List ℝ := (List.range (N + 1)).map fun (i : ℕ) => (i : ℝ)

theorem seconds_get {N i : ℕ} (h : i < N + 1) : pyAt (seconds N) i = .ok (i : ℝ) := by
  rw [pyAt_ok (by simpa [seconds] using h)]
  simp [seconds]

theorem turning_get {N i : ℕ} (f : ℕ → Quat) (h : i < N + 1) : pyAt ((List.range (N + 1)).map f) i = .ok (f i) := by
  rw [pyAt_ok (by simpa using h)]
  simp

theorem velocities {N : ℕ} {f : ℕ → Quat} {u : Vec3}
    (hf : ∀ i, angularVelocityBetweenQuaternions (f i) (f (i + 1)) 1 = .ok u) (k : ℕ) (p : ℝ) {out : List Vec3}
    (ho : filterAndSmooth (List.replicate N u) k p = .ok out) :
    computeAngularVelocityNorms ((List.range (N + 1)).map f) (seconds N) k p = .ok (out.map Vec3.norm) := by
  unfold computeAngularVelocityNorms
  rw [pyRequire_pos (by simp), Py.ok_bind]
  have hm : (List.range (((List.range (N + 1)).map f).length - 1)).mapM
      (angularVelocityAt ((List.range (N + 1)).map f) (seconds N)) = .ok (List.replicate N u) := by
    rw [Py.mapM_ok (g := fun _ => u)]
    · simp
    · intro i hi
      have hi : i < N := by simpa using hi
      unfold angularVelocityAt
      rw [seconds_get (by omega), Py.ok_bind, seconds_get (by omega), Py.ok_bind, pyAssert_pos (by push_cast; linarith),
        Py.ok_bind, turning_get f (by omega), Py.ok_bind, turning_get f (by omega), Py.ok_bind]
      have : ((i + 1 : ℕ) : ℝ) - (i : ℝ) = 1 := by push_cast; ring
      rw [this, hf]
  rw [hm, Py.ok_bind, ho, Py.ok_bind]
  rfl

theorem seconds_sorted (N : ℕ) : (seconds N).Pairwise (· < ·) := by
  unfold seconds
  rw [List.pairwise_map]
  exact List.pairwise_lt_range.imp fun h => by exact_mod_cast h

theorem seconds_head (N : ℕ) : (seconds N).head? = some 0 := by
  unfold seconds
  rw [List.range_succ_eq_map]
  simp

theorem seconds_last (N : ℕ) : (seconds N).getLast? = some (N : ℝ) := by
  unfold seconds
  rw [List.range_succ]
  simp

theorem seconds_mean {N : ℕ} (hN : 1 ≤ N) : npMean (npDiff (seconds N)) = .ok 1 := by
  have hl : (seconds N).length = N + 1 := by simp [seconds]
  rw [npMean_npDiff (by omega) (seconds_head N) (seconds_last N), hl]
  congr 1
  have : (N : ℝ) ≠ 0 := by exact_mod_cast (by omega : N ≠ 0)
  push_cast
  rw [sub_zero, add_sub_cancel_right, div_self this]

/-- Resampling data at regular times with their own period changes nothing. -/
theorem resample_seconds {N : ℕ} (hN : 1 ≤ N) (f : ℕ → Quat) :
    resampleQuaternions (seconds N) ((List.range (N + 1)).map f) 1 =
      .ok ((List.range (N + 1)).map f, seconds N) := by
  have hNr : (N : ℝ) ≠ 0 := by exact_mod_cast (by omega : N ≠ 0)
  have hs : npLinspace 0 (N : ℝ) (((N : ℝ) - 0) / 1 + 1) = .ok (seconds N) := by
    have hi : pyInt (((N : ℝ) - 0) / 1 + 1) = ((N + 1 : ℕ) : ℤ) := by
      unfold pyInt
      rw [if_pos (by rw [sub_zero]; positivity)]
      have : ((N : ℝ) - 0) / 1 + 1 = ((N + 1 : ℕ) : ℝ) := by push_cast; ring
      rw [this, Int.floor_natCast]
    unfold npLinspace
    rw [hi, if_neg (by omega), if_neg (by omega)]
    congr 1
    unfold seconds
    rw [Int.toNat_natCast]
    refine List.map_congr_left fun i _ => ?_
    have : ((N + 1 - 1 : ℕ) : ℝ) = N := by simp
    rw [this]
    field_simp
    ring
  unfold resampleQuaternions
  rw [pyGet_last (seconds_last N), Py.ok_bind, pyGet_first (seconds_head N), Py.ok_bind, npDiv_ok one_ne_zero,
    Py.ok_bind, hs, Py.ok_bind, C46_recorded _ _ (seconds_sorted N) (by simp [seconds]), Py.ok_bind]
  rfl

theorem argmax_zero {n : ℕ} (hn : 0 < n) : npArgmax (List.replicate n 0) = .ok 0 := by
  obtain ⟨n, rfl⟩ : ∃ m, n = m + 1 := ⟨n - 1, by omega⟩
  unfold npArgmax
  have : (List.replicate (n + 1) (0 : ℝ)).max? = some 0 := by
    rw [List.max?_replicate_of_pos (by omega)]
  rw [this]
  simp [List.replicate_succ, List.findIdx_cons]

/-- The offset of any signal to a vanishing one: minus its duration. -/
theorem offset_zero {N : ℕ} (hN : 2 ≤ N) {A : List ℝ} (hA : A.length = N) :
    calculateTimeOffsetFromSignals ((seconds N).take N) A ((seconds N).take N) (List.replicate N 0) =
      .ok (1 - N : ℝ) := by
  have ht : (seconds N).take N = seconds (N - 1) := by
    unfold seconds
    rw [← List.map_take, List.take_range]
    congr 2
    omega
  have hz : correlateFull (List.replicate N 0) A = List.replicate (N + N - 1) 0 := by
    unfold correlateFull
    rw [List.length_replicate, hA]
    refine List.eq_replicate_iff.mpr ⟨by simp, fun x hx => ?_⟩
    obtain ⟨k, -, rfl⟩ := List.mem_map.mp hx
    rw [sum_range_map]
    refine Finset.sum_eq_zero fun i hi => ?_
    rw [getD_eq (by simpa using hi), List.getElem_replicate, zero_mul]
  unfold calculateTimeOffsetFromSignals
  rw [pyRequire_pos (by rw [hA, List.length_replicate]; omega), Py.ok_bind, ht, seconds_mean (by omega), Py.ok_bind, hz,
    argmax_zero (by omega), Py.ok_bind]
  dsimp only
  rw [seconds_get (by omega), Py.ok_bind, Py.ok_bind, hA, Py.pure_eq]
  congr 1
  push_cast
  ring

/-- C64 is false: a body turns at constant speed; one sensor reports its orientation, the other the same in a
world frame that is turned by half a turn.  Their clocks agree, but the computed offset is the whole duration of
the data, for all lengths of the data, rates of turning and filter settings with percentiles of at least 99
(for B). -/
theorem C64_refuted (N : ℕ) (h : ℝ) (cfg : FilteringConfig) (hN : 2 ≤ N) (h0 : 0 < h) (h1 : h ≤ Real.pi / 2)
    (hc : 1e-12 + 1e-5 < 1 - Real.cos h) (hkA : 0 < cfg.smoothing_kernel_size_A)
    (hkB : 0 < cfg.smoothing_kernel_size_B) (hpA : 0 ≤ cfg.clipping_percentile_A)
    (hpA' : cfg.clipping_percentile_A ≤ 100) (hpB : 99 ≤ cfg.clipping_percentile_B)
    (hpB' : cfg.clipping_percentile_B ≤ 100) :
    calculateTimeOffset (seconds N) ((List.range (N + 1)).map (turning h))
      (seconds N) ((List.range (N + 1)).map fun (i : ℕ) => (⟨0, 0, 1, 0⟩ : Quat) * turning h i) cfg =
        .ok (1 - N : ℝ) := by
  have hd : ∀ i : ℕ, turning h i * (turning h (i + 1)).conj = ⟨1 * Real.sin h, 0, 0, Real.cos h⟩ := by
    intro i
    have e : (((i + 1 : ℕ) : ℝ) * h) = i * h + h := by push_cast; ring
    have hsc := Real.sin_sq_add_cos_sq (i * h)
    unfold turning
    rw [e, Real.sin_add, Real.cos_add]
    ext
    · simp; linear_combination Real.sin h * hsc
    · simp
    · simp
    · simp; linear_combination Real.cos h * hsc
  have hu : ∀ i : ℕ, (turning h i).dot (turning h i) = 1 := by
    intro i
    simp only [turning, Quat.dot]
    linear_combination Real.sin_sq_add_cos_sq (i * h)
  have hvA : ∀ i, angularVelocityBetweenQuaternions (turning h i) (turning h (i + 1)) 1 = .ok ⟨1 * h, 0, 0⟩ :=
    fun i => velocity_x (hu _) (hd i) h0 h1 hc
  have hvB : ∀ i, angularVelocityBetweenQuaternions ((⟨0, 0, 1, 0⟩ : Quat) * turning h i)
      ((⟨0, 0, 1, 0⟩ : Quat) * turning h (i + 1)) 1 = .ok ⟨-1 * h, 0, 0⟩ := by
    intro i
    refine velocity_x ?_ ?_ h0 h1 hc
    · rw [Quat.dot_mul_left, hu]; norm_num [Quat.dot]
    · have := hd i
      have hx := congrArg Quat.x this
      have hy := congrArg Quat.y this
      have hz := congrArg Quat.z this
      have hw := congrArg Quat.w this
      simp only [Quat.mul_x, Quat.mul_y, Quat.mul_z, Quat.mul_w, Quat.conj_x, Quat.conj_y, Quat.conj_z,
        Quat.conj_w] at hx hy hz hw
      ext <;> simp only [Quat.mul_x, Quat.mul_y, Quat.mul_z, Quat.mul_w, Quat.conj_x, Quat.conj_y, Quat.conj_z,
        Quat.conj_w]
      · linear_combination -hx
      · linear_combination -hy
      · linear_combination hz
      · linear_combination hw
  have hne : List.replicate N (⟨1 * h, 0, 0⟩ : Vec3) ≠ [] := by
    intro e
    have := congrArg List.length e
    simp at this
    omega
  obtain ⟨-, outA, -, -, -, a1, a2, -⟩ := C48_filter (List.replicate N ⟨1 * h, 0, 0⟩) cfg.smoothing_kernel_size_A
    cfg.clipping_percentile_A hne hkA hpA hpA'
  obtain ⟨-, -, -, -, b1⟩ := C63_refuted N cfg.smoothing_kernel_size_B h cfg.clipping_percentile_B hN hkB h0 hpB hpB'
  rw [neg_one_mul] at hvB
  have nA := velocities hvA _ _ a1
  have nB := velocities hvB _ _ b1
  rw [List.map_replicate, Vec3.norm_eq_zero.mpr rfl] at nB
  have hlA : (outA.map Vec3.norm).length = N := by rw [List.length_map, a2, List.length_replicate]
  unfold calculateTimeOffset
  rw [seconds_mean (by omega), Py.ok_bind, Py.ok_bind]
  dsimp only
  rw [ite_self, resample_seconds (by omega), Py.ok_bind]
  dsimp only
  rw [resample_seconds (by omega), Py.ok_bind]
  dsimp only
  rw [nA, Py.ok_bind, nB, Py.ok_bind, hlA, List.length_replicate, pyAssert_pos, Py.ok_bind, offset_zero hN hlA]
  simp [seconds]

/-- The hypotheses are satisfiable: the default filter settings, a quarter turn per second. -/
example : calculateTimeOffset (seconds 100) ((List.range 101).map (turning (Real.pi / 4))) (seconds 100)
    ((List.range 101).map fun (i : ℕ) => (⟨0, 0, 1, 0⟩ : Quat) * turning (Real.pi / 4) i) {} = .ok (1 - 100) := by
  have := C64_refuted 100 (Real.pi / 4) {} (by norm_num) (by positivity) (by linarith [Real.pi_pos]) ?_ (by norm_num)
    (by norm_num) (by norm_num) (by norm_num) (by norm_num) (by norm_num)
  · rw [this]; norm_num
  · rw [Real.cos_pi_div_four]
    have : Real.sqrt 2 < 1.5 := by
      rw [Real.sqrt_lt' (by norm_num)]; norm_num
    norm_num at this ⊢
    linarith

end HandEye
