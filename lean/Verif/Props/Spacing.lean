import Verif.Props.Resample

/-! # Property C65: the sampling period of resampled orientations -/

namespace HandEye

/-- The sample times: the first to the last time, in `n` equal steps, where `n` is the whole part of the number of
periods that fit. -/
theorem linspace_eq {first last dt : ℝ} (hdt : 0 < dt) (h : dt ≤ last - first) :
    npLinspace first last ((last - first) / dt + 1) = .ok ((List.range (⌊(last - first) / dt⌋₊ + 1)).map
      fun (i : ℕ) => i * ((last - first) / (⌊(last - first) / dt⌋₊ : ℝ)) + first) := by
  have hpos : 0 ≤ (last - first) / dt := by apply div_nonneg <;> linarith
  have h1 : 1 ≤ ⌊(last - first) / dt⌋₊ := by
    rw [Nat.one_le_floor_iff, one_le_div hdt]
    exact h
  have hi : pyInt ((last - first) / dt + 1) = ((⌊(last - first) / dt⌋₊ + 1 : ℕ) : ℤ) := by
    unfold pyInt
    rw [if_pos (by linarith), Int.floor_add_one]
    push_cast
    rw [Int.natCast_floor_eq_floor hpos]
  unfold npLinspace
  rw [hi, if_neg (by omega), if_neg (by omega), Int.toNat_natCast]
  simp

/-- C65 where it holds: the samples span the whole time range in equal steps; the step is at least `dt`, less
than one `n`-th longer where `n` is their number, and equal to `dt` iff the range is a whole number of periods.
`_partial`: see `C65_refuted` for the other ranges. -/
theorem C65_spacing_partial (times : List ℝ) (qs : List Quat) (first last dt : ℝ)
    (h : times.Pairwise (· < ·)) (hlen : qs.length = times.length) (hu : ∀ q ∈ qs, q.norm = 1)
    (hf : times.head? = some first) (hl : times.getLast? = some last) (hdt : 0 < dt) (hd : dt ≤ last - first) :
    ∃ (rs : List Quat) (n : ℕ) (step : ℝ), 1 ≤ n ∧
      resampleQuaternions times qs dt = .ok (rs, (List.range (n + 1)).map fun (i : ℕ) => i * step + first) ∧
      rs.length = n + 1 ∧ n * step = last - first ∧ dt ≤ step ∧ n * (step - dt) < dt ∧
      (step = dt ↔ ∃ k : ℕ, last - first = k * dt) := by
  have hpos : 0 ≤ (last - first) / dt := by apply div_nonneg <;> linarith
  have h1 : 1 ≤ ⌊(last - first) / dt⌋₊ := by
    rw [Nat.one_le_floor_iff, one_le_div hdt]
    exact hd
  have hlin := linspace_eq hdt hd
  have f1 := Nat.floor_le hpos
  have f2 := Nat.lt_floor_add_one ((last - first) / dt)
  have hfl : ∀ k : ℕ, last - first = k * dt → ⌊(last - first) / dt⌋₊ = k := by
    intro k hk
    rw [hk, mul_div_cancel_right₀ _ hdt.ne', Nat.floor_natCast]
  generalize hn : ⌊(last - first) / dt⌋₊ = n at *
  have hn0 : (0 : ℝ) < n := by exact_mod_cast h1
  rw [le_div_iff₀ hdt] at f1
  rw [div_lt_iff₀ hdt] at f2
  have hstep : n * ((last - first) / n) = last - first := by field_simp
  have hge : dt ≤ (last - first) / n := by rw [le_div_iff₀ hn0]; linarith
  obtain ⟨rs, e1, e2⟩ := resample_outcome (samples := (List.range (n + 1)).map
    fun (i : ℕ) => i * ((last - first) / (n : ℝ)) + first) h hlen hu hf hl (by
      intro s hs
      obtain ⟨i, hi, rfl⟩ := List.mem_map.mp hs
      have hi : i < n + 1 := by simpa using hi
      have hi : (i : ℝ) ≤ n := by exact_mod_cast (by omega : i ≤ n)
      have hs : 0 ≤ (last - first) / n := by linarith
      constructor
      · have : 0 ≤ (i : ℝ) * ((last - first) / n) := by positivity
        linarith
      · have : (i : ℝ) * ((last - first) / n) ≤ n * ((last - first) / n) := by gcongr
        linarith)
  refine ⟨rs, n, (last - first) / n, h1, ?_, ?_, hstep, hge, by linarith, ?_⟩
  · unfold resampleQuaternions
    rw [pyGet_last hl, Py.ok_bind, pyGet_first hf, Py.ok_bind, npDiv_ok hdt.ne', Py.ok_bind, hlin, Py.ok_bind, e1,
      Py.ok_bind]
    rfl
  · have := e2.length_eq
    simpa using this.symm
  · constructor
    · intro he
      exact ⟨n, by rw [← hstep, he]⟩
    · rintro ⟨k, hk⟩
      have := hfl k hk
      subst this
      rw [hk, mul_div_cancel_left₀ _ hn0.ne']

/-- C65 is false: two recordings that are resampled for comparison with the same requested period of 1 s get
sampling periods of 1 s and 5/4 s. -/
theorem C65_refuted : ∃ rA rB, resampleQuaternions [0, 1, 2] [⟨0, 0, 0, 1⟩, ⟨0, 0, 1, 0⟩, ⟨0, 0, 0, 1⟩] 1 =
      .ok (rA, [0, 1, 2]) ∧
    resampleQuaternions [0, 1, 2, 5 / 2] [⟨0, 0, 0, 1⟩, ⟨0, 0, 1, 0⟩, ⟨0, 0, 0, 1⟩, ⟨0, 0, 1, 0⟩] 1 =
      .ok (rB, [0, 5 / 4, 5 / 2]) := by
  have hq : (⟨0, 0, 0, 1⟩ : Quat).norm = 1 ∧ (⟨0, 0, 1, 0⟩ : Quat).norm = 1 := by
    constructor <;> simp [Quat.norm, Quat.dot]
  obtain ⟨rA, n, s, h1, h2, -, h4, h5, h6, -⟩ := C65_spacing_partial [0, 1, 2]
    [⟨0, 0, 0, 1⟩, ⟨0, 0, 1, 0⟩, ⟨0, 0, 0, 1⟩] 0 2 1 (by norm_num) (by simp) (by simp [hq]) (by simp) (by simp)
    (by norm_num) (by norm_num)
  obtain ⟨rB, m, t, g1, g2, -, g4, g5, g6, -⟩ := C65_spacing_partial [0, 1, 2, 5 / 2]
    [⟨0, 0, 0, 1⟩, ⟨0, 0, 1, 0⟩, ⟨0, 0, 0, 1⟩, ⟨0, 0, 1, 0⟩] 0 (5 / 2) 1 (by norm_num) (by simp) (by simp [hq])
    (by simp) (by simp) (by norm_num) (by norm_num)
  have key : ∀ {n : ℕ} {s L : ℝ}, 2 ≤ L → L < 3 → n * s = L - 0 → 1 ≤ s → n * (s - 1) < 1 → n = 2 := by
    intro n s L l1 l2 e1 e2 e3
    have u : (n : ℝ) < 3 := by
      have : (n : ℝ) ≤ n * s := le_mul_of_one_le_right (Nat.cast_nonneg n) e2
      linarith
    have v : (1 : ℝ) < n := by linarith
    have u' : n < 3 := by exact_mod_cast u
    have v' : 1 < n := by exact_mod_cast v
    omega
  have hn := key (by norm_num) (by norm_num) h4 h5 h6
  have hm := key (by norm_num) (by norm_num) g4 g5 g6
  subst hn hm
  have hs : s = 1 := by push_cast at h4; linarith
  have ht : t = 5 / 4 := by push_cast at g4; linarith
  subst hs ht
  refine ⟨rA, rB, ?_, ?_⟩
  · rw [h2]
    norm_num [List.range_succ]
  · rw [g2]
    norm_num [List.range_succ]

/-- The hypotheses of `C65_spacing_partial` are satisfiable (they are used with concrete data above), and there are
ranges with the exact period. -/
example : ∃ k : ℕ, (2 : ℝ) - 0 = k * 1 := ⟨2, by norm_num⟩

end HandEye
