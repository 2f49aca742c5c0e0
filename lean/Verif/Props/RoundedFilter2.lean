import Verif.Props.RoundedFilter

/-! # Property C114: the whole computation of the time offset in floating-point arithmetic -/

namespace HandEye

open Spec

theorem norm_bound {v : Vec3} {N : ℝ} (h1 : |v.x| ≤ N) (h2 : |v.y| ≤ N) (h3 : |v.z| ≤ N) : Real.sqrt (v.x ^ 2 + v.y ^ 2 + v.z ^ 2) ≤ √3 * N := by
  have hN : 0 ≤ N := (abs_nonneg _).trans h1
  rw [← Real.sqrt_sq hN, ← Real.sqrt_mul (by norm_num)]
  apply Real.sqrt_le_sqrt
  have a := sq_le_sq' (abs_le.mp h1).1 (abs_le.mp h1).2
  have b := sq_le_sq' (abs_le.mp h2).1 (abs_le.mp h2).2
  have c := sq_le_sq' (abs_le.mp h3).1 (abs_le.mp h3).2
  linarith

/-- **C114**, one signal: the computed speeds are within `√3 (ε + κ₁ + κ₂ + 6 u (M + κ₁ + κ₂))` of the exactly filtered true speeds. -/
theorem C114_signal {u : ℝ} {R : Arith} (h : Spec.Machine u R) (percentile : List ℝ → ℝ → ℝ) (smooth : List ℝ → ℕ → ℕ → ℝ) (sum : List ℝ → ℝ)
    (hsum : Spec.Sums u sum) (v w : List Vec3) (ε κ₁ κ₂ M p : ℝ) (k : ℕ) (hv : v ≠ [])
    (hvw : List.Forall₂ (NearVec ε) v w) (hM : ∀ x ∈ v, |x.x| ≤ M ∧ |x.y| ≤ M ∧ |x.z| ≤ M) (hk : 0 < k) (hp : 0 ≤ p) (hp' : p ≤ 100)
    (hper : Spec.PercentileNear κ₁ (v.flatMap fun x => [x.x, x.y, x.z]) p (percentile (v.flatMap fun x => [x.x, x.y, x.z]) p))
    (hsm : Spec.Smooths κ₂ v.length k (M + κ₁) smooth) :
    ∃ out exact, Arith.filterWith percentile smooth v k p = .ok out ∧ filterAndSmooth w k p = .ok exact ∧ out.length = v.length ∧
      List.Forall₂ (fun s e => |s - e| ≤ √3 * (ε + κ₁ + κ₂ + 6 * u * (M + κ₁ + κ₂))) (out.map (R.speed sum)) (exact.map Vec3.norm) ∧
      ∀ s ∈ out.map (R.speed sum), |s| ≤ 1.01 * (√3 * (M + κ₁ + κ₂)) := by
  have h0 := h.nonneg
  have hs := h.small
  obtain ⟨out, exact, e1, e2, e3, e4, e5⟩ := C114_filter percentile smooth v w ε κ₁ κ₂ M p k hv hvw hM hk hp hp' hper hsm
  have hsp : ∀ x ∈ out, |R.speed sum x - x.norm| ≤ 6 * u * (√3 * (M + κ₁ + κ₂)) ∧ x.norm ≤ √3 * (M + κ₁ + κ₂) ∧ 0 ≤ x.norm := by
    intro x hx
    obtain ⟨b1, b2, b3⟩ := e5 x hx
    have a := C114_speed h sum hsum x
    have b := norm_bound b1 b2 b3
    have hn : Real.sqrt (x.x ^ 2 + x.y ^ 2 + x.z ^ 2) = x.norm := by
      unfold Vec3.norm Vec3.dot
      congr 1
      ring
    rw [hn] at a b
    exact ⟨a.trans (mul_le_mul_of_nonneg_left b (by positivity)), b, hn ▸ Real.sqrt_nonneg _⟩
  refine ⟨out, exact, e1, e2, e3, ?_, ?_⟩
  · rw [List.forall₂_map_left_iff, List.forall₂_map_right_iff]
    clear e1 e2 e3 e5
    induction e4 with
    | nil => exact List.Forall₂.nil
    | @cons a b la lb hab _ ih =>
      refine List.Forall₂.cons ?_ (ih fun x hx => hsp x (List.mem_cons_of_mem _ hx))
      have h1 := (hsp a (List.mem_cons_self ..)).1
      have h2 := near_norm ((abs_nonneg _).trans hab.1) hab.1 hab.2.1 hab.2.2
      refine (abs_sub_le _ a.norm _).trans ((add_le_add h1 h2).trans (le_of_eq ?_))
      ring
  · intro s hs'
    obtain ⟨x, hx, rfl⟩ := List.mem_map.mp hs'
    obtain ⟨h1, h2, h3⟩ := hsp x hx
    have k1 := abs_sub_abs_le_abs_sub (R.speed sum x) x.norm
    rw [abs_of_nonneg h3] at k1
    have k2 : u * (√3 * (M + κ₁ + κ₂)) ≤ 1 / 1000 * (√3 * (M + κ₁ + κ₂)) := mul_le_mul_of_nonneg_right hs (h3.trans h2)
    norm_num
    linarith

/-- TA.py:91-111: the angular velocities that are computed from the orientations of a recording, between the sample times `samples`. -/
def RoundedVelocities (R : Arith) (cos sin : ℝ → ℝ) (times : List ℝ) (quaternions : List Quat) (dt : ℝ) (samples : List ℝ) (velocities : List Vec3) : Prop :=
  ∃ interp, R.resampleQuaternions cos sin times quaternions dt = .ok (interp, samples) ∧
    (List.range (interp.length - 1)).mapM (R.velocityAt interp samples) = .ok velocities

theorem resampleRounded_length {R : Arith} {cos sin : ℝ → ℝ} {times samples : List ℝ} {quaternions interp : List Quat} {dt : ℝ}
    (h : R.resampleQuaternions cos sin times quaternions dt = .ok (interp, samples)) : interp.length = samples.length := by
  unfold Arith.resampleQuaternions at h
  obtain ⟨num, -, h⟩ := Py.bind_eq_ok.mp h
  obtain ⟨_, -, h⟩ := Py.bind_eq_ok.mp h
  obtain ⟨last, -, h⟩ := Py.bind_eq_ok.mp h
  obtain ⟨first, -, h⟩ := Py.bind_eq_ok.mp h
  obtain ⟨qs, h1, h⟩ := Py.bind_eq_ok.mp h
  rw [Py.pure_eq] at h
  injection h with h
  obtain ⟨rfl, rfl⟩ := Prod.mk.inj h
  unfold Arith.resample at h1
  obtain ⟨parts, -, h1⟩ := Py.bind_eq_ok.mp h1
  by_cases hl : parts.flatten.length = (R.linspace first last num.toNat).length
  · rw [pyAssert_pos hl, Py.ok_bind, Py.pure_eq] at h1
    injection h1 with h1
    rw [← h1, hl]
  · rw [pyAssert_neg hl, Py.error_bind] at h1
    cases h1

theorem RoundedVelocities.length {R : Arith} {cos sin : ℝ → ℝ} {times samples : List ℝ} {quaternions : List Quat} {dt : ℝ} {velocities : List Vec3}
    (h : RoundedVelocities R cos sin times quaternions dt samples velocities) : velocities.length = samples.length - 1 := by
  obtain ⟨interp, h1, h2⟩ := h
  rw [← (Py.mapM_eq_ok.mp h2).length_eq, List.length_range, resampleRounded_length h1]

/-- The sample times increase: otherwise an assertion would have failed. -/
theorem RoundedVelocities.sorted {u : ℝ} {R : Arith} (hR : Spec.Machine u R) {cos sin : ℝ → ℝ} {times samples : List ℝ} {quaternions : List Quat} {dt : ℝ}
    {velocities : List Vec3} (h : RoundedVelocities R cos sin times quaternions dt samples velocities) : samples.Pairwise (· < ·) := by
  obtain ⟨interp, h1, h2⟩ := h
  have hl := resampleRounded_length h1
  rw [← List.isChain_iff_pairwise, List.isChain_iff_getElem]
  intro i hi
  have hm : i ∈ List.range (interp.length - 1) := by
    rw [List.mem_range]
    omega
  obtain ⟨v, hv⟩ : ∃ v, R.velocityAt interp samples i = .ok v := by
    have := Py.mapM_eq_ok.mp h2
    have hi2 : i < (List.range (interp.length - 1)).length := by rw [List.length_range]; omega
    have g := this.get hi2 (by rw [← this.length_eq]; exact hi2)
    simp only [List.get_eq_getElem, List.getElem_range] at g
    exact ⟨_, g⟩
  unfold Arith.velocityAt at hv
  rw [pyAt_ok hi, Py.ok_bind, pyAt_ok (by omega), Py.ok_bind] at hv
  by_cases hc : R.fl (samples[i + 1] - samples[i]) > 0
  · by_contra hcon
    have hneg : samples[i + 1] - samples[i] ≤ 0 := by linarith
    have r := (abs_le.mp (hR.rounds (samples[i + 1] - samples[i]))).2
    rw [abs_of_nonpos hneg] at r
    have hs := hR.small
    have h0 := hR.nonneg
    nlinarith
  · rw [pyAssert_neg hc, Py.error_bind] at hv
    cases hv

/-- **C114**: all of `calculate_time_offset` in floating-point arithmetic.  The angular velocities `vA` and `vB` that it computes from the recordings are not the true
`wA` and `wB`, but no component is off by more than `εA` and `εB` (by noise, and by rounding: see `C110_velocity_value`); the library functions have errors of at most
`κ` (see `C114_percentile`, `C114_smooth` and `C112_direct`).  If the filtered speeds of the true motions are delayed copies of each other by `m` samples, and a shift
by more than `j` samples changes them by more than the errors allow, then the time offset is that of a delay of `k` samples, where `k` is at most `j` off, up to the
rounding of times. -/
theorem C114_offset {u : ℝ} {R : Arith} (h : Spec.Machine u R) (cos sin : ℝ → ℝ) (percentile : List ℝ → ℝ → ℝ) (smooth : List ℝ → ℕ → ℕ → ℝ)
    (correlate : List ℝ → List ℝ → List ℝ) (sum : List ℝ → ℝ) (hsum : Spec.Sums u sum) (times_A times_B sA sB : List ℝ) (qA qB : List Quat) (cfg : FilteringConfig)
    (dA dB : ℝ) (wA wB vA vB uA uB : List Vec3) (hdA : R.meanStep sum times_A = .ok dA) (hdB : R.meanStep sum times_B = .ok dB)
    (nA : RoundedVelocities R cos sin times_A qA (max dA dB) sA vA) (nB : RoundedVelocities R cos sin times_B qB (max dA dB) sB vB)
    (εA εB κA κB κA' κB' κ MA MB : ℝ) (hA : List.Forall₂ (NearVec εA) vA wA) (hB : List.Forall₂ (NearVec εB) vB wB)
    (hMA : ∀ x ∈ vA, |x.x| ≤ MA ∧ |x.y| ≤ MA ∧ |x.z| ≤ MA) (hMB : ∀ x ∈ vB, |x.x| ≤ MB ∧ |x.y| ≤ MB ∧ |x.z| ≤ MB)
    (hkA : 0 < cfg.smoothing_kernel_size_A) (hkB : 0 < cfg.smoothing_kernel_size_B)
    (hpA : 0 ≤ cfg.clipping_percentile_A ∧ cfg.clipping_percentile_A ≤ 100) (hpB : 0 ≤ cfg.clipping_percentile_B ∧ cfg.clipping_percentile_B ≤ 100)
    (pA : Spec.PercentileNear κA (vA.flatMap fun x => [x.x, x.y, x.z]) cfg.clipping_percentile_A
      (percentile (vA.flatMap fun x => [x.x, x.y, x.z]) cfg.clipping_percentile_A))
    (pB : Spec.PercentileNear κB (vB.flatMap fun x => [x.x, x.y, x.z]) cfg.clipping_percentile_B
      (percentile (vB.flatMap fun x => [x.x, x.y, x.z]) cfg.clipping_percentile_B))
    (smA : Spec.Smooths κA' vA.length cfg.smoothing_kernel_size_A (MA + κA) smooth)
    (smB : Spec.Smooths κB' vB.length cfg.smoothing_kernel_size_B (MB + κB) smooth)
    (hcor : ∀ a b : List ℝ, a.length = vA.length → b.length = vB.length → (∀ s ∈ a, |s| ≤ 1.01 * (√3 * (MA + κA + κA'))) →
      (∀ s ∈ b, |s| ≤ 1.01 * (√3 * (MB + κB + κB'))) → Spec.Correlates κ a b (correlate b a))
    (fA : filterAndSmooth wA cfg.smoothing_kernel_size_A cfg.clipping_percentile_A = .ok uA)
    (fB : filterAndSmooth wB cfg.smoothing_kernel_size_B cfg.clipping_percentile_B = .ok uB)
    (m : ℤ) (c x eA eB : ℝ) (j n : ℕ) (hc : 0 < c) (hx : 0 ≤ x) (hdel : Delayed (uA.map Vec3.norm) (uB.map Vec3.norm) m c)
    (ex : energy (sample (uA.map Vec3.norm)) ≤ x ^ 2) (hn : 1 ≤ n) (hlen : wA.length = n + 1) (hwB : wB ≠ [])
    (heA : eA = √(3 * wA.length) * (εA + κA + κA' + 6 * u * (MA + κA + κA'))) (heB : eB = √(3 * wB.length) * (εB + κB + κB' + 6 * u * (MB + κB + κB')))
    (hmargin : ∀ s : ℤ, (j : ℤ) < |s| →
      4 * (eB * x + c * x * eA + eA * eB + κ) < c * energy (fun i => sample (uA.map Vec3.norm) i - sample (uA.map Vec3.norm) (i - s)))
    (hm : 0 < m + wA.length) (hm' : m < wB.length) (hu : ((n : ℝ) + 8) ^ 2 * u ≤ 1 / 4) :
    ∃ (ta tb last o : ℝ) (k : ℤ), sA[0]? = some ta ∧ sA[n]? = some last ∧ sB[0]? = some tb ∧
      R.offsetOf cos sin percentile smooth correlate sum times_A qA times_B qB cfg = .ok o ∧ |k - m| ≤ j ∧
      |o - ((last - ta) / n * k + tb - ta)| ≤ ((1.1 * n + 6) * ((last - ta) / n * |(k : ℝ)|) + 3 * (|ta| + |tb|)) * u := by
  have h0 := h.nonneg
  have lA := nA.length
  have lB := nB.length
  have sorted := nA.sorted h
  have hlA := hA.length_eq
  have hlB := hB.length_eq
  have hwB' := List.length_pos_of_ne_nil hwB
  have hvA : vA ≠ [] := by
    rintro rfl
    simp at hlA
    omega
  have hvB : vB ≠ [] := by
    rintro rfl
    simp at hlB
    omega
  obtain ⟨zA, uA', a1, a2, a3, a4, a5⟩ := C114_signal h percentile smooth sum hsum vA wA εA κA κA' MA _ _ hvA hA hMA hkA hpA.1 hpA.2 pA smA
  obtain ⟨zB, uB', b1, b2, b3, b4, b5⟩ := C114_signal h percentile smooth sum hsum vB wB εB κB κB' MB _ _ hvB hB hMB hkB hpB.1 hpB.2 pB smB
  obtain rfl : uA = uA' := by rw [fA] at a2; injection a2
  obtain rfl : uB = uB' := by rw [fB] at b2; injection b2
  obtain ⟨iA, i1, i2⟩ := nA
  obtain ⟨iB, i3, i4⟩ := nB
  have liA := resampleRounded_length i1
  have liB := resampleRounded_length i3
  have luA : uA.length = wA.length := by
    have := a4.length_eq
    simp only [List.length_map] at this
    omega
  have luB : uB.length = wB.length := by
    have := b4.length_eq
    simp only [List.length_map] at this
    omega
  -- the noise
  have noise : ∀ {z : List ℝ} {w : List Vec3} {d : ℝ}, List.Forall₂ (fun s e => |s - e| ≤ √3 * d) z (w.map Vec3.norm) →
      energy (fun i => sample z i - sample (w.map Vec3.norm) i) ≤ (√(3 * w.length) * d) ^ 2 := by
    intro z w d hz
    have := energy_near hz
    rw [List.length_map] at this
    refine this.trans (le_of_eq ?_)
    rw [mul_pow, mul_pow, Real.sq_sqrt (by norm_num), Real.sq_sqrt (by positivity)]
    ring
  have n1 := noise a4
  have n2 := noise b4
  rw [luA, ← heA] at n1
  rw [luB, ← heB] at n2
  have dpos : ∀ {z e : List ℝ} {d : ℝ}, z ≠ [] → List.Forall₂ (fun s e => |s - e| ≤ √3 * d) z e → 0 ≤ d := by
    intro z e d hz hd
    cases hd with
    | nil => exact absurd rfl hz
    | cons h1 _ =>
      have : 0 ≤ √3 * d := (abs_nonneg _).trans h1
      exact nonneg_of_mul_nonneg_right this (by positivity)
  have hneA : zA.map (R.speed sum) ≠ [] := by
    intro e
    have := congrArg List.length e
    rw [List.length_map, List.length_nil] at this
    omega
  have hneB : zB.map (R.speed sum) ≠ [] := by
    intro e
    have := congrArg List.length e
    rw [List.length_map, List.length_nil] at this
    omega
  have heA0 : 0 ≤ eA := by
    rw [heA]
    exact mul_nonneg (Real.sqrt_nonneg _) (dpos hneA a4)
  have heB0 : 0 ≤ eB := by
    rw [heB]
    exact mul_nonneg (Real.sqrt_nonneg _) (dpos hneB b4)
  have hsA : 0 < sA.length := by omega
  have hsB : 0 < sB.length := by omega
  obtain ⟨o, k, o1, o2, o3⟩ := C112_noise h correlate sum hsum κ (sA.take (zA.map (R.speed sum)).length) (zA.map (R.speed sum))
    (sB.take (zB.map (R.speed sum)).length) (zB.map (R.speed sum)) (hcor _ _ (by simp; omega) (by simp; omega) a5 b5) (sample (uA.map Vec3.norm)) m j n c eA eB x
    sA[0] sB[0] (sA[n]'(by omega)) (sample_support _) hc.le heA0 heB0 hx ex n1 (by
      refine le_trans (le_of_eq ?_) n2
      congr 1
      funext i
      rw [hdel]) (by rw [List.length_map, a3]; omega) (by rw [List.length_map, b3]; omega) hneA hneB hmargin
    (sorted.sublist (List.take_sublist _ _)) (by simp; omega) hn hu
    (by rw [List.head?_eq_getElem?, List.getElem?_take, if_pos (by simp; omega), List.getElem?_eq_getElem hsA])
    (by
      rw [List.getLast?_eq_getElem?, List.length_take, List.length_map, min_eq_left (by omega), List.getElem?_take, if_pos (by omega),
        show zA.length - 1 = n by omega, List.getElem?_eq_getElem (by omega)])
    (by rw [List.head?_eq_getElem?, List.getElem?_take, if_pos (by simp; omega), List.getElem?_eq_getElem hsB])
  refine ⟨sA[0], sB[0], sA[n]'(by omega), o, k, List.getElem?_eq_getElem hsA, List.getElem?_eq_getElem _, List.getElem?_eq_getElem hsB, ?_, o2, o3⟩
  have hmax : (if dA ≥ dB then dA else dB) = max dA dB := by
    split
    · rw [max_eq_left ‹_›]
    · rw [max_eq_right (by linarith)]
  unfold Arith.offsetOf
  rw [hdA, Py.ok_bind, hdB, Py.ok_bind]
  dsimp only
  rw [hmax, i1, Py.ok_bind]
  dsimp only
  rw [i3, Py.ok_bind]
  dsimp only
  unfold Arith.velocityNorms
  rw [pyRequire, if_pos (by omega), Py.ok_bind, i2, Py.ok_bind, a1, Py.ok_bind, Py.pure_eq, Py.ok_bind, pyRequire, if_pos (by omega), Py.ok_bind,
    i4, Py.ok_bind, b1, Py.ok_bind, Py.pure_eq, Py.ok_bind, pyAssert_pos (by simp; omega), Py.ok_bind]
  exact o1

end HandEye
