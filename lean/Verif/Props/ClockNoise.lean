import Verif.Props.SignalNoise
import Verif.Props.ClockFrames

/-! # C102: the time offset of two noisy sensors on a moving body -/

namespace HandEye

open Spec

/-- The filter of a motion of which nothing is clipped. -/
theorem filter_unclipped {Q : ℤ → Quat} {n k : ℕ} (hn : 0 < n) (hk : 0 < k) {lo hi : ℤ}
    (hrest : ∀ i, i < lo ∨ hi ≤ i → Q (i + 1) = Q i) (h1 : 0 ≤ lo) (h2 : hi ≤ n) {p : ℝ} (hp0 : 0 ≤ p) (hp1 : p ≤ 100)
    (hcl : Spec.WithinPercentile (Spec.rotationComponents Q n) p) {dt : ℝ} (hdt : 0 < dt) :
    filterAndSmooth ((List.range n).map fun (i : ℕ) => (1 / (2 * dt)) • Spec.rotationVector (Q i) (Q (i + 1))) k p =
      .ok ((List.range n).map fun (i : ℕ) => smoothed (fun j => (1 / (2 * dt)) • Spec.rotationVector (Q j) (Q (j + 1))) k i) := by
  set V : ℤ → Vec3 := fun j => (1 / (2 * dt)) • Spec.rotationVector (Q j) (Q (j + 1)) with hVd
  have hsup : ∀ i, i < lo ∨ hi ≤ i → V i = 0 := by
    intro i h
    rw [hVd]
    simp only
    rw [hrest i h, rotationVector_rest]
    ext <;> simp
  have hflat : flat3 ((List.range n).map fun (i : ℕ) => V i) =
      (Spec.rotationComponents Q n).map ((1 / (2 * dt)) * ·) := by
    unfold flat3 Spec.rotationComponents
    rw [List.flatMap_map, List.map_flatMap]
    rfl
  have hne : Spec.rotationComponents Q n ≠ [] := by
    obtain ⟨n, rfl⟩ : ∃ n', n = n' + 1 := ⟨n - 1, by omega⟩
    unfold Spec.rotationComponents
    rw [List.range_succ_eq_map]
    simp
  obtain ⟨lim, hlim, -⟩ := npPercentile_spec (l := flat3 ((List.range n).map fun (i : ℕ) => V i))
    (by rw [hflat]; simpa using hne) hp0 hp1
  have hc : 0 ≤ 1 / (2 * dt) := by positivity
  have hbound := withinPercentile_limit hc hcl hne hp0 hp1 (hflat ▸ hlim)
  have hlim0 : 0 ≤ lim := by
    obtain ⟨x, hx⟩ := List.exists_mem_of_ne_nil _ hne
    exact (abs_nonneg _).trans (hbound x hx)
  have hall : ∀ j, |(V j).x| ≤ lim ∧ |(V j).y| ≤ lim ∧ |(V j).z| ≤ lim := by
    intro j
    by_cases hj : j < 0 ∨ (n : ℤ) ≤ j
    · rw [hsup j (by omega)]
      simp [hlim0]
    · push Not at hj
      obtain ⟨i, rfl⟩ := Int.eq_ofNat_of_zero_le hj.1
      have hi : i ∈ List.range n := List.mem_range.mpr (by omega)
      refine ⟨hbound _ ?_, hbound _ ?_, hbound _ ?_⟩ <;>
        exact List.mem_flatMap.mpr ⟨i, hi, by simp⟩
  have f := filter_signal (k := k) (fun i hi' => hsup i (by omega)) hlim hlim0 hk
  rw [show ((List.range n).map fun (i : ℕ) => (1 / (2 * dt)) • Spec.rotationVector (Q i) (Q (i + 1))) = (List.range n).map fun (i : ℕ) => V i from rfl, f]
  congr 1
  exact List.map_congr_left fun i _ => filtered_smoothed hall _ _

/-- The speeds that are computed from a noisy recording. -/
theorem noisy_norms {Q : ℤ → Quat} {n k : ℕ} (hn : 0 < n) (hk : 0 < k) {lo hi : ℤ}
    (hrest : ∀ i, i < lo ∨ hi ≤ i → Q (i + 1) = Q i) (h1 : (k : ℤ) ≤ lo) (h2 : hi + k ≤ n) {p : ℝ} (hp0 : 0 ≤ p) (hp1 : p ≤ 100)
    (hcl : Spec.WithinPercentile (Spec.rotationComponents Q n) p) {t dt ε : ℝ} (hdt : 0 < dt) {q : ℕ → Quat} {v : ℕ → Vec3}
    (hv : ∀ i < n, angularVelocityBetweenQuaternions (q i) (q (i + 1)) dt = .ok (v i))
    (hε : ∀ i < n, NearVec ε (v i) ((1 / (2 * dt)) • Spec.rotationVector (Q i) (Q (i + 1)))) :
    ∃ z, computeAngularVelocityNorms ((List.range (n + 1)).map q) (Spec.regular t dt n) k p = .ok z ∧ z.length = n ∧
      energy (fun i => sample z i - (smoothed (fun j => (1 / (2 * dt)) • Spec.rotationVector (Q j) (Q (j + 1))) k i).norm) ≤
        (√(3 * n) * ε) ^ 2 := by
  have hf := filter_unclipped hn hk hrest (by omega) (by omega) hp0 hp1 hcl hdt
  have hnear : List.Forall₂ (NearVec ε) ((List.range n).map v)
      ((List.range n).map fun (i : ℕ) => (1 / (2 * dt)) • Spec.rotationVector (Q i) (Q (i + 1))) := by
    rw [List.forall₂_map_left_iff, List.forall₂_map_right_iff, List.forall₂_same]
    exact fun i hi => hε i (List.mem_range.mp hi)
  obtain ⟨u, u', e1, e2, -, e3, e4⟩ := C102_filter _ _ ε p k (by simp; omega) hnear hk hp0 hp1
  obtain rfl : _ = u' := Except.ok.inj (hf.symm.trans e2)
  refine ⟨u.map Vec3.norm, norms_regular (V := fun i => v i.toNat) hdt (by simpa using hv) (by simpa using e1), by simpa using e3, ?_⟩
  have hN := smoothed_support (V := fun j => (1 / (2 * dt)) • Spec.rotationVector (Q j) (Q (j + 1))) (lo := lo) (hi := hi) (n := n) (k := k)
    (fun j hj => by rw [hrest j hj, rotationVector_rest]; ext <;> simp) h1 h2
  have := energy_near (A := u.map Vec3.norm) (F := (List.range n).map fun (i : ℕ) =>
      (smoothed (fun j => (1 / (2 * dt)) • Spec.rotationVector (Q j) (Q (j + 1))) k i).norm) (d := √3 * ε) (by
    rw [List.forall₂_map_left_iff, List.forall₂_map_right_iff]
    rw [List.forall₂_map_right_iff] at e4
    exact e4)
  refine le_trans (le_of_eq ?_) (this.trans (le_of_eq ?_))
  · congr 1
    funext i
    rw [sample_map (f := fun i : ℤ => (smoothed (fun j => (1 / (2 * dt)) • Spec.rotationVector (Q j) (Q (j + 1))) k i).norm) hN]
  · rw [List.length_map, List.length_range, mul_pow, mul_pow, Real.sq_sqrt (by norm_num), Real.sq_sqrt (by positivity)]
    ring

/-- **C102**.  The setting is that of C73: a moving body carries two sensors, which measure their orientations in different frames (`G`), at regular
times; it rests at both ends of the recordings; nothing is clipped.  But the recorded orientations `pA`, `pB` are noisy: the angular velocities
that are computed from them differ by up to `εA` and `εB` from the true ones.  If the true filtered speed changes enough when it is
shifted by more than `j` samples, the computed time offset is the true one up to `j` sample times. -/
theorem C102_clock (Q : ℤ → Quat) (G : Quat) (hG : G.norm = 1)
    (n k : ℕ) (hk : 0 < k) (lo hi m : ℤ) (hrest : ∀ i, i < lo ∨ hi ≤ i → Q (i + 1) = Q i) (h1 : k ≤ lo)
    (h2 : hi + k ≤ n) (h3 : k ≤ lo + m) (h4 : hi + m + k ≤ n)
    (dt ta tb : ℝ) (hdt : 0 < dt) (rA rB : ℕ) (hrA : 1 ≤ rA) (hrB : 1 ≤ rB) (hr : rA = 1 ∨ rB = 1)
    (cfg : FilteringConfig) (c1 : cfg.smoothing_kernel_size_A = k) (c2 : cfg.smoothing_kernel_size_B = k)
    (hpA : 0 ≤ cfg.clipping_percentile_A ∧ cfg.clipping_percentile_A ≤ 100)
    (hpB : 0 ≤ cfg.clipping_percentile_B ∧ cfg.clipping_percentile_B ≤ 100)
    (hclA : Spec.WithinPercentile (Spec.rotationComponents Q n) cfg.clipping_percentile_A)
    (hclB : Spec.WithinPercentile (Spec.rotationComponents (fun i => G * Q (i - m)) n) cfg.clipping_percentile_B)
    (pA pB : ℕ → Quat) (vA vB : ℕ → Vec3) (εA εB : ℝ) (hεA : 0 ≤ εA) (hεB : 0 ≤ εB)
    (hvA : ∀ i < n, angularVelocityBetweenQuaternions (pA (rA * i)) (pA (rA * (i + 1))) dt = .ok (vA i))
    (hvB : ∀ i < n, angularVelocityBetweenQuaternions (pB (rB * i)) (pB (rB * (i + 1))) dt = .ok (vB i))
    (hA : ∀ i < n, NearVec εA (vA i) ((1 / (2 * dt)) • Spec.rotationVector (Q i) (Q (i + 1))))
    (hB : ∀ i < n, NearVec εB (vB i) ((1 / (2 * dt)) • Spec.rotationVector (G * Q (i - m)) (G * Q (i + 1 - m))))
    (N : ℤ → ℝ) (hN : ∀ i, N i = (smoothed (fun j => (1 / (2 * dt)) • Spec.rotationVector (Q j) (Q (j + 1))) k i).norm)
    (j : ℕ) (x : ℝ) (hx : 0 ≤ x) (ex : energy N ≤ x ^ 2)
    (hmargin : ∀ s : ℤ, (j : ℤ) < |s| →
      4 * (√(3 * n) * εB * x + x * (√(3 * n) * εA) + √(3 * n) * εA * (√(3 * n) * εB)) < energy fun i => N i - N (i - s)) :
    ∃ k' : ℤ, |k' - m| ≤ j ∧ calculateTimeOffset (Spec.regular ta (dt / rA) (rA * n)) ((List.range (rA * n + 1)).map pA)
      (Spec.regular tb (dt / rB) (rB * n)) ((List.range (rB * n + 1)).map pB) cfg = .ok (dt * k' + tb - ta) := by
  have dG := Quat.norm_eq_one.mp hG
  have hsup : ∀ i, i < 0 ∨ (n : ℤ) ≤ i → N i = 0 := fun i hi' => by
    rw [hN]
    exact smoothed_support (lo := lo) (hi := hi) (fun j hj => by rw [hrest j hj, rotationVector_rest]; ext <;> simp) h1 h2 i hi'
  have hfin : N.support.Finite := (Set.finite_Ico (0 : ℤ) n).subset fun i hi' => by
    by_contra hc
    rw [Set.mem_Ico, not_and_or, not_le, not_lt] at hc
    exact hi' (hsup i hc)
  -- the body moves
  have hlohi : lo < hi := by
    by_contra hc
    have hz : ∀ i, N i = 0 := by
      intro i
      have hs : (fun j => (1 / (2 * dt)) • Spec.rotationVector (Q j) (Q (j + 1))) = fun _ => (0 : Vec3) := by
        funext j
        rw [hrest j (by omega), rotationVector_rest]
        ext <;> simp
      rw [hN, hs]
      refine Vec3.norm_eq_zero.mpr ?_
      ext <;> simp [smoothed, Spec.windowMean]
    have := hmargin (j + 1) (by rw [abs_of_nonneg (by positivity)]; omega)
    rw [show (fun i => N i - N (i - (j + 1))) = fun _ => 0 by funext i; simp [hz]] at this
    have h0 : energy (fun _ => 0) = 0 := by simp [energy]
    rw [h0] at this
    have : 0 ≤ √(3 * (n : ℝ)) * εB * x + x * (√(3 * (n : ℝ)) * εA) + √(3 * (n : ℝ)) * εA * (√(3 * (n : ℝ)) * εB) := by
      positivity
    linarith
  have hn : 0 < n := by omega
  subst c1
  have eI : ∀ i : ℤ, i + 1 - m = i - m + 1 := fun i => by ring
  obtain ⟨zA, a1, a2, a3⟩ := noisy_norms hn hk hrest h1 h2 hpA.1 hpA.2 hclA (t := ta) hdt (q := fun i => pA (rA * i)) hvA hA
  obtain ⟨zB, b1, b2, b3⟩ := noisy_norms (Q := fun i => G * Q (i - m)) hn hk (lo := lo + m) (hi := hi + m)
    (fun i hi' => by rw [eI, hrest (i - m) (by omega)]) h3 h4 hpB.1 hpB.2 hclB (t := tb) hdt (q := fun i => pB (rB * i)) hvB hB
  have hspeed : ∀ i : ℤ, (smoothed (fun j => (1 / (2 * dt)) • Spec.rotationVector (G * Q (j - m)) (G * Q (j + 1 - m))) cfg.smoothing_kernel_size_A i).norm =
      N (i - m) := by
    intro i
    have : (fun j => (1 / (2 * dt)) • Spec.rotationVector (G * Q (j - m)) (G * Q (j + 1 - m))) =
        fun j => spin G ((fun j => (1 / (2 * dt)) • Spec.rotationVector (Q j) (Q (j + 1))) (j - m)) := by
      funext j
      rw [rotationVector_frame dG, eI, spin_smul]
    rw [this, smoothed_spin (fun j => (fun j => (1 / (2 * dt)) • Spec.rotationVector (Q j) (Q (j + 1))) (j - m)), spin_norm dG,
      smoothed_shift (fun j => (1 / (2 * dt)) • Spec.rotationVector (Q j) (Q (j + 1))), hN]
  have hmul : 1 ≤ rA * n ∧ 1 ≤ rB * n := ⟨Nat.mul_pos hrA hn, Nat.mul_pos hrB hn⟩
  obtain ⟨last, k', hlast, hk', hres⟩ := C102_noise (Spec.regular ta dt (n - 1)) zA (Spec.regular tb dt (n - 1)) zB N m j 1 (√(3 * n) * εA)
    (√(3 * n) * εB) x ta tb hfin zero_le_one (by positivity) (by positivity) hx ex
    (by
      simp only [hN]
      exact a3)
    (by
      simp only [one_mul, ← hspeed]
      exact b3)
    (by omega) (by omega) (by rintro rfl; simp at a2; omega) (by rintro rfl; simp at b2; omega) (by simpa only [one_mul] using hmargin)
    (by rw [regular_length]; omega) (regular_head _ _ _) (regular_head _ _ _)
  rw [regular_last] at hlast
  have hlast := (Option.some.inj hlast).symm
  have hdtmax : (if dt / rA ≥ dt / rB then dt / rA else dt / rB) = dt := by
    have ra : (1 : ℝ) ≤ rA := by exact_mod_cast hrA
    have rb : (1 : ℝ) ≤ rB := by exact_mod_cast hrB
    rcases hr with rfl | rfl
    · rw [if_pos (by push_cast; rw [ge_iff_le, div_one]; exact div_le_self hdt.le rb)]
      push_cast; rw [div_one]
    · split_ifs with h
      · push_cast at h
        rw [div_one] at h
        exact le_antisymm (div_le_self hdt.le ra) h
      · push_cast; rw [div_one]
  refine ⟨k', hk', ?_⟩
  unfold calculateTimeOffset
  rw [regular_mean _ _ hmul.1, Py.ok_bind, regular_mean _ _ hmul.2, Py.ok_bind]
  dsimp only
  rw [hdtmax, resample_regular ta hdt hrA hn, Py.ok_bind]
  dsimp only
  rw [resample_regular tb hdt hrB hn, Py.ok_bind]
  dsimp only
  rw [a1, Py.ok_bind, c2, b1, Py.ok_bind]
  simp only [a2, b2]
  rw [regular_take _ _ hn, regular_take _ _ hn, pyAssert_pos (by rw [regular_length, regular_length]; omega), Py.ok_bind]
  rw [hres, hlast, regular_length]
  congr 1
  have hn1 : ((n - 1 : ℕ) : ℝ) ≠ 0 := by
    have : n - 1 ≠ 0 := by omega
    exact_mod_cast this
  push_cast
  rw [add_sub_cancel_right, add_sub_cancel_left]
  field_simp

/-! ## Example: one turn, and a twitch of the second sensor at the end -/

/-- A body that turns once. -/
noncomputable def turnOnce (i : ℤ) : Quat := if i ≤ 1 then ⟨0, 0, 0, 1⟩ else ⟨-0.6, 0, 0, 0.8⟩

theorem rotationVector_x {P T : Quat} {c r : ℝ} (hP : P.dot P = 1) (hT : T = ⟨-r, 0, 0, c⟩) (hc : 0 < c) (hr : 0 < r) :
    Spec.rotationVector P (T * P) = ⟨2 * Real.arccos c, 0, 0⟩ := by
  have h1 := rotationVector_mounting (p := 1) (q := T) hP
  rw [one_mul] at h1
  rw [h1, hT]
  have hd : (1 : Quat).dot ⟨-r, 0, 0, c⟩ = c := by simp [Quat.dot]
  have hv : (1 * (⟨-r, 0, 0, c⟩ : Quat).conj).vec = r • (⟨1, 0, 0⟩ : Vec3) := by ext <;> simp [Quat.vec]
  have hu : (⟨1, 0, 0⟩ : Vec3).norm = 1 := Vec3.norm_eq_one.mpr (by norm_num [Vec3.dot])
  unfold Spec.rotationVector
  rw [hd, hv, if_pos hc.le, Vec3.norm_smul, hu, abs_of_pos hc, abs_of_pos hr]
  ext <;> simp
  field_simp

theorem turnOnce_unit (i : ℤ) : (turnOnce i).dot (turnOnce i) = 1 := by
  unfold turnOnce
  split_ifs <;> norm_num [Quat.dot]

theorem turnOnce_vector (i : ℤ) : Spec.rotationVector (turnOnce i) (turnOnce (i + 1)) = if i = 1 then ⟨2 * Real.arccos 0.8, 0, 0⟩ else 0 := by
  by_cases h : i = 1
  · rw [if_pos h, show turnOnce (i + 1) = ⟨-0.6, 0, 0, 0.8⟩ * turnOnce i by
      rw [h]
      unfold turnOnce
      ext <;> norm_num]
    exact rotationVector_x (turnOnce_unit i) rfl (by norm_num) (by norm_num)
  · rw [if_neg h, show turnOnce (i + 1) = turnOnce i by
      unfold turnOnce
      split_ifs <;> first | rfl | omega]
    exact rotationVector_rest

theorem turnOnce_within (m : ℕ) (hm : m ≤ 1) : Spec.WithinPercentile (Spec.rotationComponents (fun i => turnOnce (i - m)) 4) 100 := by
  have hv : ∀ i : ℕ, Spec.rotationVector (turnOnce (i - m)) (turnOnce (i + 1 - m)) = if i = m + 1 then ⟨2 * Real.arccos 0.8, 0, 0⟩ else 0 := by
    intro i
    rw [show (i : ℤ) + 1 - m = i - m + 1 by ring, turnOnce_vector]
    congr 1
    rw [eq_iff_iff]
    omega
  have h0 : 0 ≤ 2 * Real.arccos 0.8 := mul_nonneg zero_le_two (Real.arccos_nonneg _)
  have hlen : (Spec.rotationComponents (fun i => turnOnce (i - m)) 4).length = 12 := by
    unfold Spec.rotationComponents
    rw [List.length_flatMap]
    simp
  refine withinPercentile_of_count (M := 2 * Real.arccos 0.8) (by norm_num) (by norm_num) ?_ ?_ ?_
  · intro h
    rw [h] at hlen
    simp at hlen
  · intro x hx
    obtain ⟨i, -, hx⟩ := List.mem_flatMap.mp hx
    dsimp only at hx
    rw [hv] at hx
    split_ifs at hx <;> simp at hx <;> (try rcases hx with rfl | rfl) <;> simp [h0, abs_of_nonneg (Real.arccos_nonneg _)]
  · have hpos : 0 < (Spec.rotationComponents (fun i => turnOnce (i - m)) 4).countP fun x => decide (2 * Real.arccos 0.8 ≤ x) := by
      rw [List.countP_pos_iff]
      refine ⟨2 * Real.arccos 0.8, ?_, by simp⟩
      unfold Spec.rotationComponents
      rw [List.mem_flatMap]
      refine ⟨m + 1, List.mem_range.mpr (by omega), ?_⟩
      dsimp only
      rw [hv, if_pos rfl]
      exact List.mem_cons_self
    have h11 : ⌊(100 : ℝ) / 100 * ((12 : ℕ) - 1 : ℝ)⌋₊ = 11 := by norm_num
    rw [hlen, h11]
    omega

theorem smoothed_one (V : ℤ → Vec3) (i : ℤ) : smoothed V 1 i = V i := by
  ext <;> simp [smoothed, Spec.windowMean]

/-- What the second sensor records: the turn one sample later, and then a twitch of one degree. -/
noncomputable def twitching (i : ℕ) : Quat :=
  if i ≤ 2 then ⟨0, 0, 0, 1⟩ else if i = 3 then ⟨-0.6, 0, 0, 0.8⟩ else ⟨-(200 / 10001), 0, 0, 9999 / 10001⟩ * ⟨-0.6, 0, 0, 0.8⟩

/-- The velocities that are computed from it. -/
noncomputable def twitchingVelocity (i : ℕ) : Vec3 :=
  if i = 2 then ⟨Real.arccos 0.8, 0, 0⟩ else if i = 3 then ⟨Real.arccos (9999 / 10001), 0, 0⟩ else 0

theorem twitching_velocity (i : ℕ) (hi : i < 4) : angularVelocityBetweenQuaternions (twitching i) (twitching (i + 1)) 1 = .ok (twitchingVelocity i) := by
  have hu : ∀ i, (twitching i).dot (twitching i) = 1 := by
    intro i
    unfold twitching
    split_ifs <;> norm_num [Quat.dot]
  have hh : (2 : ℝ)⁻¹ * (2 * Real.arccos 0.8) = Real.arccos 0.8 := by ring
  rcases (by omega : i < 2 ∨ i = 2 ∨ i = 3) with h | h | h
  · have e : twitching (i + 1) = twitching i := by
      unfold twitching
      rw [if_pos (by omega), if_pos (by omega)]
    rw [velocity_value (hu i) (hu (i + 1)) one_pos (Or.inl (Or.inl e)), e, rotationVector_rest]
    unfold twitchingVelocity
    rw [if_neg (by omega), if_neg (by omega)]
    congr 1
    ext <;> simp
  · subst h
    have e : twitching 3 = ⟨-0.6, 0, 0, 0.8⟩ * twitching 2 := by
      ext <;> norm_num [twitching]
    rw [velocity_value (hu 2) (hu 3) one_pos (Or.inr ?_), e, rotationVector_x (hu 2) rfl (by norm_num) (by norm_num)]
    · congr 1
      ext <;> simp [twitchingVelocity]
    · norm_num [twitching, Quat.dot, abs_lt]
  · subst h
    have e : twitching 4 = ⟨-(200 / 10001), 0, 0, 9999 / 10001⟩ * twitching 3 := by
      ext <;> norm_num [twitching]
    rw [velocity_value (hu 3) (hu 4) one_pos (Or.inr ?_), e, rotationVector_x (hu 3) rfl (by norm_num) (by norm_num)]
    · congr 1
      ext <;> simp [twitchingVelocity]
    · norm_num [twitching, Quat.dot, abs_lt]

theorem twitch_small : Real.arccos (9999 / 10001) ≤ 0.03 := by
  have h : Real.cos 0.03 ≤ 9999 / 10001 := by
    have := (abs_le.mp (Real.cos_bound (x := 0.03) (by norm_num [abs_le]))).2
    rw [abs_of_pos (by norm_num)] at this
    norm_num at this ⊢
    linarith
  calc Real.arccos (9999 / 10001) ≤ Real.arccos (Real.cos 0.03) := Real.arccos_le_arccos h
    _ = 0.03 := Real.arccos_cos (by norm_num) (by linarith [Real.two_le_pi])

theorem turn_large : 0.6 ≤ Real.arccos 0.8 := by
  have h : (0.8 : ℝ) ≤ Real.cos 0.6 := by
    have := (abs_le.mp (Real.cos_bound (x := 0.6) (by norm_num [abs_le]))).1
    rw [abs_of_pos (by norm_num)] at this
    norm_num at this ⊢
    linarith
  calc (0.6 : ℝ) = Real.arccos (Real.cos 0.6) := (Real.arccos_cos (by norm_num) (by linarith [Real.two_le_pi])).symm
    _ ≤ Real.arccos 0.8 := Real.arccos_le_arccos h

theorem pulse_energy : energy (fun i : ℤ => if i = 1 then Real.arccos 0.8 else 0) ≤ Real.arccos 0.8 ^ 2 := by
  unfold energy
  rw [finsum_eq_sum_of_support_subset _ (s := {1})]
  · simp
  · intro i hi
    rw [Finset.coe_singleton, Set.mem_singleton_iff]
    by_contra hc
    exact hi (by simp [hc])

theorem pulse_shift {s : ℤ} (hs : s ≠ 0) :
    Real.arccos 0.8 ^ 2 ≤ energy fun i => (if i = 1 then Real.arccos 0.8 else 0) - if i - s = 1 then Real.arccos 0.8 else 0 := by
  unfold energy
  have := single_le_finsum (f := fun i : ℤ => ((if i = 1 then Real.arccos 0.8 else 0) - if i - s = 1 then Real.arccos 0.8 else 0) ^ 2) 1
    ((Set.toFinite ({1, 1 + s} : Set ℤ)).subset fun i hi => by
      by_contra hc
      rw [Set.mem_insert_iff, Set.mem_singleton_iff, not_or] at hc
      refine hi ?_
      dsimp only
      rw [if_neg hc.1, if_neg (by omega)]
      norm_num) (fun i => sq_nonneg _)
  refine le_trans (le_of_eq ?_) this
  rw [if_pos rfl, if_neg (by omega), sub_zero]

/-- The offset is exact in spite of the twitch. -/
theorem twitching_offset : calculateTimeOffset (Spec.regular 100 1 4) ((List.range 5).map fun (i : ℕ) => turnOnce i) (Spec.regular 7 1 4) ((List.range 5).map twitching)
    ⟨1, 100, 1, 100⟩ = .ok (-92) := by
  have hw := turn_large
  have hN : ∀ i : ℤ, (if i = 1 then Real.arccos 0.8 else 0) =
      (smoothed (fun j => ((1 : ℝ) / (2 * 1)) • Spec.rotationVector (turnOnce j) (turnOnce (j + 1))) 1 i).norm := by
    intro i
    rw [smoothed_one, turnOnce_vector, Vec3.norm_smul]
    split_ifs
    · have : (⟨2 * Real.arccos 0.8, 0, 0⟩ : Vec3) = (2 * Real.arccos 0.8) • (⟨1, 0, 0⟩ : Vec3) := by ext <;> simp
      rw [this, Vec3.norm_smul, Vec3.norm_eq_one.mpr (by norm_num [Vec3.dot]), abs_of_pos (by norm_num), abs_of_pos (by linarith)]
      ring
    · rw [(Vec3.norm_eq_zero.mpr rfl : (0 : Vec3).norm = 0), mul_zero]
  have H := C102_clock turnOnce ⟨0, 0, 0, 1⟩ (Quat.norm_eq_one.mpr (by norm_num [Quat.dot])) 4 1 one_pos 1 2 1 ?_ (by norm_num)
    (by norm_num) (by norm_num) (by norm_num) 1 100 7 one_pos 1 1 le_rfl le_rfl (Or.inl rfl) ⟨1, 100, 1, 100⟩ rfl rfl (by norm_num) (by norm_num)
    (by simpa using turnOnce_within 0 (by norm_num)) ?_ (fun i => turnOnce i) twitching
    (fun i => if i = 1 then ⟨Real.arccos 0.8, 0, 0⟩ else 0) twitchingVelocity 0 0.03 le_rfl (by norm_num) ?_ ?_ ?_ ?_
    (fun i => if i = 1 then Real.arccos 0.8 else 0) hN 0 (Real.arccos 0.8) (Real.arccos_nonneg _) ?_ ?_
  · obtain ⟨k', hk', h⟩ := H
    obtain rfl : k' = 1 := by
      have := abs_nonpos_iff.mp (show |k' - 1| ≤ 0 by simpa using hk')
      omega
    norm_num at h ⊢
    exact h
  · intro i hi
    unfold turnOnce
    split_ifs <;> first | rfl | omega
  · have := turnOnce_within 1 le_rfl
    have e : ∀ q : Quat, (⟨0, 0, 0, 1⟩ : Quat) * q = q := fun q => one_mul q
    simpa [e] using this
  · intro i hi
    rw [one_mul, one_mul]
    push_cast
    have hstep : (turnOnce (i + 1) = turnOnce i ∨ turnOnce (i + 1) = -turnOnce i) ∨ |(turnOnce i).dot (turnOnce (i + 1))| < 1 - 1.1e-5 := by
      by_cases h : i = 1
      · right
        subst h
        norm_num [turnOnce, Quat.dot, abs_lt]
      · left; left
        unfold turnOnce
        split_ifs <;> first | rfl | omega
    rw [velocity_value (turnOnce_unit _) (turnOnce_unit _) one_pos hstep, turnOnce_vector]
    congr 1
    split_ifs <;> first | omega | (ext <;> simp)
  · intro i hi
    rw [one_mul, one_mul]
    exact twitching_velocity i hi
  · intro i hi
    rw [turnOnce_vector]
    split_ifs <;> first | omega | simp [NearVec]
  · intro i hi
    have e : ∀ q : Quat, (⟨0, 0, 0, 1⟩ : Quat) * q = q := fun q => one_mul q
    rw [e, e, show (i : ℤ) + 1 - 1 = i - 1 + 1 by ring, turnOnce_vector]
    have ht := twitch_small
    have ht0 := Real.arccos_nonneg (9999 / 10001)
    unfold twitchingVelocity
    have hz : Real.arccos (4 / 5) - 1 / 2 * (2 * Real.arccos (4 / 5)) = 0 := by ring
    have ht3 : Real.arccos (9999 / 10001) ≤ 3 / 100 := by
      norm_num at ht
      exact ht
    split_ifs <;> first | omega | norm_num [NearVec, abs_of_nonneg ht0, ht3, hz]
  · exact pulse_energy
  · intro s hs
    have hs' : s ≠ 0 := by rintro rfl; simp at hs
    refine lt_of_lt_of_le ?_ (pulse_shift hs')
    have h12 : √(3 * ((4 : ℕ) : ℝ)) ≤ 3.5 := Real.sqrt_le_iff.mpr (by norm_num)
    have h12' : √(3 * ((4 : ℕ) : ℝ)) * Real.arccos 0.8 ≤ 3.5 * Real.arccos 0.8 := mul_le_mul_of_nonneg_right h12 (by linarith)
    nlinarith

theorem angularVelocities_regular (t : ℝ) {dt : ℝ} (hdt : 0 < dt) {n : ℕ} (hn : 1 ≤ n) {q : ℕ → Quat} {V : ℕ → Vec3}
    (hV : ∀ i < n, angularVelocityBetweenQuaternions (q i) (q (i + 1)) dt = .ok (V i)) :
    AngularVelocities (Spec.regular t dt n) ((List.range (n + 1)).map q) dt (Spec.regular t dt n) ((List.range n).map V) := by
  have h := resample_regular t hdt le_rfl hn q
  simp only [Nat.cast_one, div_one, one_mul] at h
  refine ⟨_, h, ?_⟩
  rw [Py.mapM_ok (g := V)]
  · simp
  · intro i hi
    have hi : i < n := by simpa using hi
    unfold angularVelocityAt
    rw [pyAt_ok (by rw [regular_length]; omega), Py.ok_bind, pyAt_ok (by rw [regular_length]; omega), Py.ok_bind, regular_get, regular_get]
    have : t + ((i + 1 : ℕ) : ℝ) * dt - (t + (i : ℝ) * dt) = dt := by push_cast; ring
    rw [this, pyAssert_pos hdt, Py.ok_bind, turning_get q (by omega), Py.ok_bind, turning_get q (by omega), Py.ok_bind, hV i hi]

/-- The same with C102_offset: the twitch does not change the result. -/
example : calculateTimeOffset (Spec.regular 100 1 4) ((List.range 5).map fun (i : ℕ) => turnOnce i) (Spec.regular 7 1 4)
      ((List.range 5).map fun (i : ℕ) => turnOnce (i - 1)) ⟨1, 100, 1, 100⟩ =
    calculateTimeOffset (Spec.regular 100 1 4) ((List.range 5).map fun (i : ℕ) => turnOnce i) (Spec.regular 7 1 4) ((List.range 5).map twitching)
      ⟨1, 100, 1, 100⟩ := by
  have hw := turn_large
  have hstep : ∀ i : ℤ, angularVelocityBetweenQuaternions (turnOnce i) (turnOnce (i + 1)) 1 = .ok (if i = 1 then ⟨Real.arccos 0.8, 0, 0⟩ else 0) := by
    intro i
    have hstep : (turnOnce (i + 1) = turnOnce i ∨ turnOnce (i + 1) = -turnOnce i) ∨ |(turnOnce i).dot (turnOnce (i + 1))| < 1 - 1.1e-5 := by
      by_cases h : i = 1
      · right
        subst h
        norm_num [turnOnce, Quat.dot, abs_lt]
      · left; left
        unfold turnOnce
        split_ifs <;> first | rfl | omega
    rw [velocity_value (turnOnce_unit _) (turnOnce_unit _) one_pos hstep, turnOnce_vector]
    congr 1
    split_ifs <;> (ext <;> simp)
  have hV : ∀ i : ℤ, ((1 : ℝ) / (2 * 1)) • Spec.rotationVector (turnOnce i) (turnOnce (i + 1)) = if i = 1 then ⟨Real.arccos 0.8, 0, 0⟩ else 0 := by
    intro i
    rw [turnOnce_vector]
    split_ifs <;> (ext <;> simp)
  have hrest : ∀ i : ℤ, i < 1 ∨ 2 ≤ i → turnOnce (i + 1) = turnOnce i := by
    intro i hi
    unfold turnOnce
    split_ifs <;> first | rfl | omega
  have eI : ∀ i : ℤ, i + 1 - 1 = i - 1 + 1 := fun i => by ring
  have fA := filter_unclipped (Q := turnOnce) (n := 4) (k := 1) (lo := 1) (hi := 2) (by norm_num) one_pos hrest (by norm_num) (by norm_num) (p := 100)
    (by norm_num) (by norm_num) (by simpa using turnOnce_within 0 (by norm_num)) one_pos
  have fB := filter_unclipped (Q := fun i => turnOnce (i - 1)) (n := 4) (k := 1) (lo := 2) (hi := 3) (by norm_num) one_pos
    (fun i hi => by rw [eI]; exact hrest _ (by omega)) (by norm_num) (by norm_num) (p := 100)
    (by norm_num) (by norm_num) (by simpa using turnOnce_within 1 le_rfl) one_pos
  simp only [eI, smoothed_one, hV] at fA fB
  have hn0 : (0 : Vec3).norm = 0 := Vec3.norm_eq_zero.mpr rfl
  have hn1 : (⟨Real.arccos 0.8, 0, 0⟩ : Vec3).norm = Real.arccos 0.8 := by
    have : (⟨Real.arccos 0.8, 0, 0⟩ : Vec3) = Real.arccos 0.8 • (⟨1, 0, 0⟩ : Vec3) := by ext <;> simp
    rw [this, Vec3.norm_smul, Vec3.norm_eq_one.mpr (by norm_num [Vec3.dot]), abs_of_pos (by linarith), mul_one]
  have eA : sample (((List.range 4).map fun (i : ℕ) => if (i : ℤ) = 1 then (⟨Real.arccos 0.8, 0, 0⟩ : Vec3) else 0).map Vec3.norm) =
      fun i => if i = 1 then Real.arccos 0.8 else 0 := by
    funext i
    rw [List.map_map, ← sample_map (n := 4) (f := fun i : ℤ => if i = 1 then Real.arccos 0.8 else 0) (fun i hi => if_neg (by omega))]
    congr 1
    refine List.map_congr_left fun j _ => ?_
    rw [Function.comp_apply, apply_ite Vec3.norm, hn0, hn1]
  have eB : sample (((List.range 4).map fun (i : ℕ) => if (i : ℤ) - 1 = 1 then (⟨Real.arccos 0.8, 0, 0⟩ : Vec3) else 0).map Vec3.norm) =
      fun i => if i - 1 = 1 then Real.arccos 0.8 else 0 := by
    funext i
    rw [List.map_map, ← sample_map (n := 4) (f := fun i : ℤ => if i - 1 = 1 then Real.arccos 0.8 else 0) (fun i hi => if_neg (by omega))]
    congr 1
    refine List.map_congr_left fun j _ => ?_
    rw [Function.comp_apply, apply_ite Vec3.norm, hn0, hn1]
  have hd := regular_mean 100 1 (N := 4) (by norm_num)
  have hd' := regular_mean 7 1 (N := 4) (by norm_num)
  have tA := angularVelocities_regular 100 one_pos (n := 4) (by norm_num) (q := fun i => turnOnce i)
    (V := fun (i : ℕ) => if (i : ℤ) = 1 then ⟨Real.arccos 0.8, 0, 0⟩ else 0) (fun i _ => by push_cast; exact hstep i)
  have tB := angularVelocities_regular 7 one_pos (n := 4) (by norm_num) (q := fun i => turnOnce (i - 1))
    (V := fun (i : ℕ) => if (i : ℤ) - 1 = 1 then ⟨Real.arccos 0.8, 0, 0⟩ else 0) (fun i _ => by
      push_cast
      rw [eI]
      exact hstep _)
  have nB := angularVelocities_regular 7 one_pos (n := 4) (by norm_num) (q := twitching) (V := twitchingVelocity) twitching_velocity
  have ht := twitch_small
  have ht0 := Real.arccos_nonneg (9999 / 10001)
  have ht3 : Real.arccos (9999 / 10001) ≤ 3 / 100 := by
    norm_num at ht
    exact ht
  have H := C102_offset (Spec.regular 100 1 4) (Spec.regular 7 1 4) _ _ _ _ _ _ ⟨1, 100, 1, 100⟩ 1 1 _ _ _ _ _ _ hd hd' (by simpa using tA) (by simpa using tB)
    (by simpa using tA) (by simpa using nB) 0 0.03 ?_ ?_ one_pos one_pos (by norm_num) (by norm_num) fA fB 1 1 (Real.arccos 0.8) 0 one_pos
    (Real.arccos_nonneg _) ?_ ?_ (by simp) (by simp) ?_
  · obtain ⟨first, last, o, k, -, -, hk, h1, h2⟩ := H
    obtain rfl : k = 0 := abs_nonpos_iff.mp (by simpa using hk)
    rw [Int.cast_zero, mul_zero, add_zero] at h2
    exact h1.trans h2.symm
  · rw [List.forall₂_map_left_iff, List.forall₂_map_right_iff, List.forall₂_same]
    intro i _
    split_ifs <;> first | omega | simp [NearVec]
  · rw [List.forall₂_map_left_iff, List.forall₂_map_right_iff, List.forall₂_same]
    intro i hi
    have hi := List.mem_range.mp hi
    unfold twitchingVelocity
    split_ifs <;> first | omega | norm_num [NearVec, abs_of_nonneg ht0, ht3]
  · intro i
    rw [eA, eB, one_mul]
  · rw [eA]
    exact pulse_energy
  · intro s hs
    have hs' : s ≠ 0 := by rintro rfl; simp at hs
    rw [eA]
    refine lt_of_lt_of_le ?_ (le_trans (pulse_shift hs') (le_of_eq (one_mul _).symm))
    simp only [List.length_map, List.length_range]
    have h12 : √(3 * ((4 : ℕ) : ℝ)) ≤ 3.5 := Real.sqrt_le_iff.mpr (by norm_num)
    have h12' : √(3 * ((4 : ℕ) : ℝ)) * Real.arccos 0.8 ≤ 3.5 * Real.arccos 0.8 := mul_le_mul_of_nonneg_right h12 (by linarith)
    nlinarith

end HandEye
