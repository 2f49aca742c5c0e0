import Verif.Lemmas.SignalNoise
import Verif.Lemmas.FilterNoise
import Verif.Props.Figures

/-! # C102: the time offset of noisy recordings -/

namespace HandEye

open Spec

/-- TA.py:47-60.  `A` is a clean signal `f` plus noise of energy at most `a²`, and `B` is the clean signal, `m` samples later and with
gain `c`, plus noise of energy at most `b²`.  If a shift of the clean signal by more than `j` samples changes it by more than the
noise allows, then the offset that is found is at most `j` sample times off. -/
theorem C102_noise (times_A A times_B B : List ℝ) (f : ℤ → ℝ) (m : ℤ) (j : ℕ) (c a b x ta tb : ℝ) (hf : f.support.Finite) (hc : 0 ≤ c) (ha : 0 ≤ a)
    (hb : 0 ≤ b) (hx : 0 ≤ x) (ef : energy f ≤ x ^ 2) (eA : energy (fun i => sample A i - f i) ≤ a ^ 2)
    (eB : energy (fun i => sample B i - c * f (i - m)) ≤ b ^ 2) (hm : 0 < m + A.length) (hm' : m < B.length) (hA : A ≠ []) (hB : B ≠ [])
    (hmargin : ∀ s : ℤ, (j : ℤ) < |s| → 4 * (b * x + c * x * a + a * b) < c * energy (fun i => f i - f (i - s)))
    (h2 : 2 ≤ times_A.length) (hta : times_A.head? = some ta) (htb : times_B.head? = some tb) :
    ∃ (last : ℝ) (k : ℤ), times_A.getLast? = some last ∧ |k - m| ≤ j ∧
      calculateTimeOffsetFromSignals times_A A times_B B = .ok ((last - ta) / (times_A.length - 1) * k + tb - ta) := by
  have hlA : 0 < A.length := List.length_pos_of_ne_nil hA
  have hlB : 0 < B.length := List.length_pos_of_ne_nil hB
  have hclen := correlateFull_length A B
  obtain ⟨k, hk, hk1, hk2, -⟩ := npArgmax_spec (l := correlateFull B A) (by intro e; rw [e] at hclen; simp at hclen; omega)
  have hcorr : ∀ lag : ℤ, |correlationAt A B lag - c * (energy f - energy (fun i => f i - f (i - (lag - m))) / 2)| ≤
      b * x + c * x * a + a * b := fun lag => corr_noise hf (sample_support A) (sample_support B) hc ha hb hx m lag ef eA eB
  set k₀ : ℕ := (m + A.length - 1).toNat with hk₀
  have hk₀' : (k₀ : ℤ) - A.length + 1 = m := by omega
  have hk₀len : k₀ < (correlateFull B A).length := by rw [hclen]; omega
  have hge := hk2 _ (List.getElem_mem hk₀len)
  rw [correlateFull_get A B k₀ hk₀len, correlateFull_get A B k hk, hk₀'] at hge
  have hclose : |((k : ℤ) - A.length + 1) - m| ≤ j := by
    by_contra hcon
    have h1 := hmargin _ (not_le.mp hcon)
    have h2 := abs_le.mp (hcorr m)
    have h3 := abs_le.mp (hcorr ((k : ℤ) - A.length + 1))
    have h0 : energy (fun i => f i - f (i - (m - m))) = 0 := by simp [energy]
    rw [h0] at h2
    nlinarith
  have hTA : times_A ≠ [] := by rintro rfl; simp at hta
  refine ⟨times_A.getLast hTA, (k : ℤ) - A.length + 1, List.getLast?_eq_some_getLast hTA, hclose, ?_⟩
  have e1 : pyAt times_B 0 = .ok tb := by rw [pyAt_eq_ok, ← List.head?_eq_getElem?, htb]
  have e2 : pyAt times_A 0 = .ok ta := by rw [pyAt_eq_ok, ← List.head?_eq_getElem?, hta]
  unfold calculateTimeOffsetFromSignals
  rw [pyRequire, if_pos (by omega), Py.ok_bind, npMean_npDiff h2 hta (List.getLast?_eq_some_getLast hTA), Py.ok_bind, hk1, Py.ok_bind, e1,
    Py.ok_bind, e2, Py.ok_bind, Py.pure_eq]

/-- A pulse, seen two samples later; both signals are noisy: the offset is exact. -/
example : calculateTimeOffsetFromSignals [0, 1, 2] [0.1, 2, 0] [5, 6] [0, 0, 0.05, 2, -0.05] = .ok 7 := by
  have hpulse : ∀ i : ℤ, i ≠ 1 → (if i = 1 then (2 : ℝ) else 0) = 0 := fun i h => if_neg h
  have hsum : ∀ (g : ℤ → ℝ) (S : Finset ℤ), (∀ i, i ∉ S → g i = 0) → energy g = ∑ i ∈ S, g i ^ 2 := by
    intro g S h
    refine finsum_eq_sum_of_support_subset _ fun i hi => ?_
    by_contra hc
    exact hi (by simp [h i hc])
  have H := C102_noise [0, 1, 2] [0.1, 2, 0] [5, 6] [0, 0, 0.05, 2, -0.05] (fun i => if i = 1 then 2 else 0) 2 0 1 0.1 0.1 2 0 5
    ((Set.toFinite ({1} : Set ℤ)).subset fun i hi => by by_contra hc; exact hi (hpulse i hc)) zero_le_one (by norm_num) (by norm_num) (by norm_num) ?_ ?_ ?_
    (by norm_num) (by norm_num) (by simp) (by simp) ?_ (by norm_num) rfl rfl
  · obtain ⟨last, k, h1, h2, h3⟩ := H
    obtain rfl : k = 2 := by
      have := abs_nonpos_iff.mp (show |k - 2| ≤ 0 by simpa using h2)
      omega
    obtain rfl : 2 = last := by simpa using h1
    rw [h3]
    norm_num
  · rw [hsum _ {1} (fun i hi => hpulse i (by simpa using hi))]
    norm_num
  · rw [hsum _ {0, 1, 2} ?_]
    · norm_num [sample]
    · intro i hi
      simp only [Finset.mem_insert, Finset.mem_singleton, not_or] at hi
      rw [hpulse i hi.2.1, sub_zero]
      by_contra hc
      have := sample_ne_zero hc
      simp at this
      omega
  · rw [hsum _ {0, 1, 2, 3, 4} ?_]
    · norm_num [sample]
    · intro i hi
      simp only [Finset.mem_insert, Finset.mem_singleton, not_or] at hi
      rw [hpulse (i - 2) (by omega), mul_zero, sub_zero]
      by_contra hc
      have := sample_ne_zero hc
      simp at this
      omega
  · intro s hs
    have hs' : s ≠ 0 := by rintro rfl; simp at hs
    rw [one_mul, hsum _ {1, 1 + s} ?_, Finset.sum_pair (by omega)]
    · rw [if_pos rfl, if_neg (by omega), if_neg (by omega), if_pos (by omega)]
      norm_num
    · intro i hi
      simp only [Finset.mem_insert, Finset.mem_singleton, not_or] at hi
      rw [if_neg hi.1, if_neg (by omega), sub_zero]

theorem near_map {e : ℝ} (he : 0 ≤ e) {v v' : List Vec3} (h : List.Forall₂ (NearVec e) v v') (g : Vec3 → ℝ) (hg : ∀ u u', NearVec e u u' → |g u - g u'| ≤ e) :
    Near e (v.map g) (v'.map g) := by
  refine ⟨by simp [h.length_eq], fun i => ?_⟩
  by_cases hi : i < v.length
  · have hi' : i < v'.length := h.length_eq ▸ hi
    rw [getD_eq (by simpa using hi), getD_eq (by simpa using hi'), List.getElem_map, List.getElem_map]
    exact hg _ _ (h.get hi hi')
  · rw [List.getD_eq_getElem?_getD, List.getD_eq_getElem?_getD, List.getElem?_eq_none (by simpa using hi),
      List.getElem?_eq_none (by simpa [← h.length_eq] using hi)]
    simpa using he

theorem near_flat3 {e : ℝ} (he : 0 ≤ e) {v v' : List Vec3} (h : List.Forall₂ (NearVec e) v v') : Near e (flat3 v) (flat3 v') := by
  induction h with
  | nil => exact ⟨rfl, fun i => by simpa [flat3] using he⟩
  | @cons u u' l l' h1 h2 ih =>
    obtain ⟨hl, hd⟩ := ih
    refine ⟨by simpa [flat3] using hl, fun i => ?_⟩
    match i with
    | 0 => exact h1.1
    | 1 => exact h1.2.1
    | 2 => exact h1.2.2
    | i + 3 => exact hd i

/-- TA.py:23-44.  The filter does not amplify noise: if no component of two tables of angular velocities differs by more than `e`, then
neither do the components of the filtered tables. -/
theorem C102_filter (v v' : List Vec3) (e p : ℝ) (k : ℕ) (hv : v ≠ []) (h : List.Forall₂ (NearVec e) v v') (hk : 0 < k) (hp : 0 ≤ p) (hp' : p ≤ 100) :
    ∃ out out', filterAndSmooth v k p = .ok out ∧ filterAndSmooth v' k p = .ok out' ∧ List.Forall₂ (NearVec e) out out' ∧
      out.length = v.length ∧ List.Forall₂ (fun u u' => |u.norm - u'.norm| ≤ √3 * e) out out' := by
  have he : 0 ≤ e := by
    cases h with
    | nil => exact absurd rfl hv
    | cons h1 _ => exact (abs_nonneg _).trans h1.1
  have hflat : flat3 v ≠ [] := by
    cases v with
    | nil => exact absurd rfl hv
    | cons u l => simp [flat3]
  obtain ⟨m, m', e1, e2, hm⟩ := near_percentile he (near_flat3 he h) hflat hp hp'
  have hclip : List.Forall₂ (NearVec e) (v.map (clipVec m)) (v'.map (clipVec m')) := by
    rw [List.forall₂_map_left_iff, List.forall₂_map_right_iff]
    exact h.imp fun u u' hu => ⟨near_clip hu.1 hm, near_clip hu.2.1 hm, near_clip hu.2.2 hm⟩
  unfold filterAndSmooth
  rw [e1, e2, Py.ok_bind, Py.ok_bind, pyRequire, if_pos hk.ne', Py.ok_bind, Py.ok_bind]
  have hout : List.Forall₂ (NearVec e)
      ((List.range v.length).map fun (i : ℕ) => (⟨smoothAt ((v.map (clipVec m)).map Vec3.x) k i, smoothAt ((v.map (clipVec m)).map Vec3.y) k i,
        smoothAt ((v.map (clipVec m)).map Vec3.z) k i⟩ : Vec3))
      ((List.range v'.length).map fun (i : ℕ) => (⟨smoothAt ((v'.map (clipVec m')).map Vec3.x) k i, smoothAt ((v'.map (clipVec m')).map Vec3.y) k i,
        smoothAt ((v'.map (clipVec m')).map Vec3.z) k i⟩ : Vec3)) := by
    rw [List.forall₂_map_left_iff, List.forall₂_map_right_iff, ← h.length_eq, List.forall₂_same]
    exact fun i _ => ⟨near_smoothAt he (near_map he hclip _ fun _ _ hu => hu.1) hk i, near_smoothAt he (near_map he hclip _ fun _ _ hu => hu.2.1) hk i,
      near_smoothAt he (near_map he hclip _ fun _ _ hu => hu.2.2) hk i⟩
  exact ⟨_, _, rfl, rfl, hout, by simp, hout.imp fun u u' hu => near_norm he hu.1 hu.2.1 hu.2.2⟩

/-- A table of two velocities, and the same with noise. -/
example : ∃ out out', filterAndSmooth [⟨1, 0, 0⟩, ⟨0, 3, 0⟩] 1 99 = .ok out ∧ filterAndSmooth [⟨1.1, 0, 0⟩, ⟨0, 2.95, 0.1⟩] 1 99 = .ok out' ∧
    List.Forall₂ (NearVec 0.11) out out' := by
  obtain ⟨out, out', h1, h2, h3, -⟩ := C102_filter [⟨1, 0, 0⟩, ⟨0, 3, 0⟩] [⟨1.1, 0, 0⟩, ⟨0, 2.95, 0.1⟩] 0.11 99 1 (by simp)
    (by norm_num [NearVec, abs_le]) one_pos (by norm_num) (by norm_num)
  exact ⟨out, out', h1, h2, h3⟩

/-- TA.py:91-111: the angular velocities that are computed from the orientations of a recording, between the sample times `samples`. -/
def AngularVelocities (times : List ℝ) (quaternions : List Quat) (dt : ℝ) (samples : List ℝ) (velocities : List Vec3) : Prop :=
  ∃ interp, resampleQuaternions times quaternions dt = .ok (interp, samples) ∧
    (List.range (interp.length - 1)).mapM (angularVelocityAt interp samples) = .ok velocities

theorem resampleQuaternions_length {times samples : List ℝ} {quaternions interp : List Quat} {dt : ℝ}
    (h : resampleQuaternions times quaternions dt = .ok (interp, samples)) : interp.length = samples.length := by
  unfold resampleQuaternions at h
  obtain ⟨last, -, h⟩ := Py.bind_eq_ok.mp h
  obtain ⟨first, -, h⟩ := Py.bind_eq_ok.mp h
  obtain ⟨steps, -, h⟩ := Py.bind_eq_ok.mp h
  obtain ⟨s, -, h⟩ := Py.bind_eq_ok.mp h
  obtain ⟨qs, h1, h⟩ := Py.bind_eq_ok.mp h
  obtain ⟨rfl, rfl⟩ : qs = interp ∧ s = samples := by
    rw [Py.pure_eq] at h
    simpa using h
  unfold resampleQuaternionsFromSamples at h1
  obtain ⟨parts, -, h1⟩ := Py.bind_eq_ok.mp h1
  by_cases hl : parts.flatten.length = s.length
  · rw [pyAssert_pos hl, Py.ok_bind, Py.pure_eq] at h1
    injection h1 with h1
    rw [← h1, hl]
  · rw [pyAssert_neg hl, Py.error_bind] at h1
    cases h1

theorem AngularVelocities.length {times samples : List ℝ} {quaternions : List Quat} {dt : ℝ} {velocities : List Vec3}
    (h : AngularVelocities times quaternions dt samples velocities) : velocities.length = samples.length - 1 := by
  obtain ⟨interp, h1, h2⟩ := h
  rw [← (Py.mapM_eq_ok.mp h2).length_eq, List.length_range, resampleQuaternions_length h1]

/-- The time offset depends on the orientations only through the filtered angular velocities. -/
theorem offset_of_velocities {times_A times_B sA sB : List ℝ} {qA qB : List Quat} {cfg : FilteringConfig} {dA dB : ℝ} {vA vB uA uB : List Vec3}
    (hdA : npMean (npDiff times_A) = .ok dA) (hdB : npMean (npDiff times_B) = .ok dB)
    (hA : AngularVelocities times_A qA (if dA ≥ dB then dA else dB) sA vA) (hB : AngularVelocities times_B qB (if dA ≥ dB then dA else dB) sB vB)
    (hvA : vA ≠ []) (hvB : vB ≠ [])
    (hfA : filterAndSmooth vA cfg.smoothing_kernel_size_A cfg.clipping_percentile_A = .ok uA)
    (hfB : filterAndSmooth vB cfg.smoothing_kernel_size_B cfg.clipping_percentile_B = .ok uB) (hlA : uA.length = vA.length) :
    calculateTimeOffset times_A qA times_B qB cfg =
      calculateTimeOffsetFromSignals (sA.take uA.length) (uA.map Vec3.norm) (sB.take uB.length) (uB.map Vec3.norm) := by
  have lA := hA.length
  have lB := hB.length
  have pA := List.length_pos_of_ne_nil hvA
  have pB := List.length_pos_of_ne_nil hvB
  obtain ⟨iA, a1, a2⟩ := hA
  obtain ⟨iB, b1, b2⟩ := hB
  have nA := resampleQuaternions_length a1
  have nB := resampleQuaternions_length b1
  unfold calculateTimeOffset
  rw [hdA, Py.ok_bind, hdB, Py.ok_bind]
  dsimp only
  rw [a1, Py.ok_bind]
  dsimp only
  rw [b1, Py.ok_bind]
  dsimp only
  unfold computeAngularVelocityNorms
  rw [pyRequire, if_pos (by omega), Py.ok_bind, a2, Py.ok_bind, hfA, Py.ok_bind, Py.pure_eq, Py.ok_bind, pyRequire, if_pos (by omega), Py.ok_bind,
    b2, Py.ok_bind, hfB, Py.ok_bind, Py.pure_eq, Py.ok_bind, pyAssert_pos (by simp; omega), Py.ok_bind]
  simp only [List.length_map]

theorem energy_near {A F : List ℝ} {d : ℝ} (h : List.Forall₂ (fun u v => |u - v| ≤ d) A F) :
    energy (fun i => sample A i - sample F i) ≤ F.length * d ^ 2 := by
  have hs : (fun i : ℤ => (sample A i - sample F i) ^ 2).support ⊆ ((Finset.range F.length).map Nat.castEmbedding : Finset ℤ) := by
    intro i hi
    have : sample A i ≠ 0 ∨ sample F i ≠ 0 := by
      by_contra hc
      rw [not_or, not_not, not_not] at hc
      exact hi (by simp [hc.1, hc.2])
    have hr : 0 ≤ i ∧ i < F.length := by
      rcases this with h1 | h1
      · have := sample_ne_zero h1
        rw [h.length_eq] at this
        exact this
      · exact sample_ne_zero h1
    rw [Finset.mem_coe, Finset.mem_map]
    exact ⟨i.toNat, by rw [Finset.mem_range]; omega, by simp; omega⟩
  unfold energy
  rw [finsum_eq_sum_of_support_subset _ hs, Finset.sum_map]
  refine (Finset.sum_le_card_nsmul _ _ (d ^ 2) fun i hi => ?_).trans (by simp)
  rw [Finset.mem_range] at hi
  rw [← sq_abs]
  refine pow_le_pow_left₀ (abs_nonneg _) ?_ 2
  rw [Nat.castEmbedding_apply, sample_natCast, sample_natCast, getD_eq (by rw [h.length_eq]; exact hi), getD_eq hi]
  exact h.get (by rw [h.length_eq]; exact hi) hi

/-- TA.py:124-180.  The orientations of two recordings are noisy, so that the angular velocities `vA` and `vB` are not the true `wA` and `wB`, but no
component is off by more than `εA` and `εB`.  If the filtered speeds of the true motions are delayed copies of each other, and a shift
by more than `j` samples changes them by more than the noise allows, then the noisy recordings give the same time offset as the true ones
up to `j` sample times. -/
theorem C102_offset (times_A times_B sA sB : List ℝ) (qA qB pA pB : List Quat) (cfg : FilteringConfig) (dA dB : ℝ) (wA wB vA vB uA uB : List Vec3)
    (hdA : npMean (npDiff times_A) = .ok dA) (hdB : npMean (npDiff times_B) = .ok dB)
    (tA : AngularVelocities times_A qA (if dA ≥ dB then dA else dB) sA wA) (tB : AngularVelocities times_B qB (if dA ≥ dB then dA else dB) sB wB)
    (nA : AngularVelocities times_A pA (if dA ≥ dB then dA else dB) sA vA) (nB : AngularVelocities times_B pB (if dA ≥ dB then dA else dB) sB vB)
    (εA εB : ℝ) (hA : List.Forall₂ (NearVec εA) vA wA) (hB : List.Forall₂ (NearVec εB) vB wB)
    (hkA : 0 < cfg.smoothing_kernel_size_A) (hkB : 0 < cfg.smoothing_kernel_size_B)
    (hpA : 0 ≤ cfg.clipping_percentile_A ∧ cfg.clipping_percentile_A ≤ 100) (hpB : 0 ≤ cfg.clipping_percentile_B ∧ cfg.clipping_percentile_B ≤ 100)
    (fA : filterAndSmooth wA cfg.smoothing_kernel_size_A cfg.clipping_percentile_A = .ok uA)
    (fB : filterAndSmooth wB cfg.smoothing_kernel_size_B cfg.clipping_percentile_B = .ok uB)
    (m : ℤ) (c x : ℝ) (j : ℕ) (hc : 0 < c) (hx : 0 ≤ x) (hdel : Delayed (uA.map Vec3.norm) (uB.map Vec3.norm) m c)
    (ex : energy (sample (uA.map Vec3.norm)) ≤ x ^ 2) (h2 : 2 ≤ wA.length) (hwB : wB ≠ [])
    (hmargin : ∀ s : ℤ, (j : ℤ) < |s| →
      4 * (√(3 * wB.length) * εB * x + c * x * (√(3 * wA.length) * εA) + √(3 * wA.length) * εA * (√(3 * wB.length) * εB)) <
        c * energy (fun i => sample (uA.map Vec3.norm) i - sample (uA.map Vec3.norm) (i - s))) :
    ∃ (first last o : ℝ) (k : ℤ), sA[0]? = some first ∧ sA[wA.length - 1]? = some last ∧ |k| ≤ j ∧
      calculateTimeOffset times_A qA times_B qB cfg = .ok o ∧
      calculateTimeOffset times_A pA times_B pB cfg = .ok (o + (last - first) / (wA.length - 1) * k) := by
  have hwA : wA ≠ [] := by rintro rfl; simp at h2
  have hvA : vA ≠ [] := by rintro rfl; exact hwA (List.forall₂_nil_left_iff.mp hA)
  have hvB : vB ≠ [] := by rintro rfl; exact hwB (List.forall₂_nil_left_iff.mp hB)
  have hεA : 0 ≤ εA := by
    cases hA with
    | nil => exact absurd rfl hwA
    | cons h1 _ => exact (abs_nonneg _).trans h1.1
  have hεB : 0 ≤ εB := by
    cases hB with
    | nil => exact absurd rfl hwB
    | cons h1 _ => exact (abs_nonneg _).trans h1.1
  obtain ⟨zA, uA', a1, a2, -, a3, a4⟩ := C102_filter vA wA εA _ _ hvA hA hkA hpA.1 hpA.2
  obtain ⟨zB, uB', b1, b2, -, b3, b4⟩ := C102_filter vB wB εB _ _ hvB hB hkB hpB.1 hpB.2
  obtain rfl : uA = uA' := by rw [fA] at a2; injection a2
  obtain rfl : uB = uB' := by rw [fB] at b2; injection b2
  have lA : uA.length = wA.length := by rw [← a4.length_eq, a3, hA.length_eq]
  have lB : uB.length = wB.length := by rw [← b4.length_eq, b3, hB.length_eq]
  rw [offset_of_velocities hdA hdB tA tB hwA hwB fA fB lA, offset_of_velocities hdA hdB nA nB hvA hvB a1 b1 a3]
  have sAl := tA.length
  have sBl := tB.length
  have h1B := List.length_pos_of_ne_nil hwB
  have hsq : ∀ (n : ℕ) (e : ℝ), (n : ℝ) * (√3 * e) ^ 2 = (√(3 * n) * e) ^ 2 := by
    intro n e
    rw [mul_pow, mul_pow, Real.sq_sqrt (by norm_num), Real.sq_sqrt (by positivity)]
    ring
  have n4 : ∀ {z u : List Vec3} {e : ℝ}, 0 ≤ e → List.Forall₂ (fun u u' : Vec3 => |u.norm - u'.norm| ≤ √3 * e) z u →
      energy (fun i => sample (z.map Vec3.norm) i - sample (u.map Vec3.norm) i) ≤ (√(3 * u.length) * e) ^ 2 := by
    intro z u e he h
    rw [← hsq]
    have := energy_near (A := z.map Vec3.norm) (F := u.map Vec3.norm) (d := √3 * e) (by
      rw [List.forall₂_map_left_iff, List.forall₂_map_right_iff]
      exact h)
    simpa using this
  -- the windows overlap
  have hpos : ∃ i, sample (uA.map Vec3.norm) i ≠ 0 := by
    by_contra hcon
    push Not at hcon
    have := hmargin (j + 1) (by rw [abs_of_nonneg (by positivity)]; omega)
    rw [show (fun i => sample (uA.map Vec3.norm) i - sample (uA.map Vec3.norm) (i - (j + 1))) = fun _ => 0 by funext i; simp [hcon]] at this
    have h0 : energy (fun _ => 0) = 0 := by simp [energy]
    rw [h0, mul_zero] at this
    have : 0 ≤ √(3 * (wB.length : ℝ)) * εB * x + c * x * (√(3 * (wA.length : ℝ)) * εA) + √(3 * (wA.length : ℝ)) * εA * (√(3 * (wB.length : ℝ)) * εB) := by
      positivity
    linarith
  obtain ⟨i, hi⟩ := hpos
  have w1 := sample_ne_zero hi
  have w2 := sample_ne_zero (l := uB.map Vec3.norm) (i := i + m) (by rw [hdel, add_sub_cancel_right]; exact mul_ne_zero hc.ne' hi)
  rw [List.length_map, lA] at w1
  rw [List.length_map, lB] at w2
  have hsA : 0 < sA.length := by omega
  have hsB : 0 < sB.length := by omega
  have hlast : ∀ n, n = wA.length → (sA.take n).getLast? = some (sA[wA.length - 1]'(by omega)) := by
    rintro n rfl
    rw [List.getLast?_eq_getElem?, List.length_take, min_eq_left (by omega), List.getElem?_take, if_pos (by omega),
      List.getElem?_eq_getElem (by omega)]
  have hhead : ∀ (s : List ℝ) (n : ℕ) (hs : 0 < s.length), 0 < n → (s.take n).head? = some s[0] := by
    intro s n hs hn
    rw [List.head?_eq_getElem?, List.getElem?_take, if_pos hn, List.getElem?_eq_getElem hs]
  have hne : ∀ {u : List Vec3}, 0 < u.length → u.map Vec3.norm ≠ [] := by
    intro u hu h
    rw [List.map_eq_nil_iff] at h
    rw [h] at hu
    simp at hu
  have hltake : ∀ n, n = wA.length → (sA.take n).length = wA.length := by
    rintro n rfl
    rw [List.length_take, min_eq_left (by omega)]
  obtain ⟨l1, k1, g1, g2, g3⟩ := C102_noise (sA.take uA.length) (uA.map Vec3.norm) (sB.take uB.length) (uB.map Vec3.norm)
    (sample (uA.map Vec3.norm)) m 0 c 0 0 x sA[0] sB[0] (sample_support _) hc.le le_rfl le_rfl hx ex (by simp [energy])
    (by simp [energy, hdel _]) (by simp; omega) (by simp; omega) (hne (by omega)) (hne (by omega)) (by
      intro s hs
      have hE : energy (fun i => sample (uA.map Vec3.norm) i - sample (uA.map Vec3.norm) (i - s)) =
          2 * (∑ᶠ i, sample (uA.map Vec3.norm) i * sample (uA.map Vec3.norm) i) -
            2 * ∑ᶠ i, sample (uA.map Vec3.norm) i * sample (uA.map Vec3.norm) (i - s) := by
        have := autocorr_eq (sample_support (uA.map Vec3.norm)) s
        have h' : energy (sample (uA.map Vec3.norm)) = ∑ᶠ i, sample (uA.map Vec3.norm) i * sample (uA.map Vec3.norm) i :=
          finsum_congr fun i => sq _
        rw [← h', this]
        ring
      have hlt := autocorrelation_lt (sample_support (uA.map Vec3.norm)) ⟨i, hi⟩ (s := s) (by
        rintro rfl
        simp at hs)
      have : 0 < energy (fun i => sample (uA.map Vec3.norm) i - sample (uA.map Vec3.norm) (i - s)) := by
        rw [hE]
        linarith
      simpa using mul_pos hc this)
    (by rw [hltake _ lA]; exact h2) (hhead sA _ hsA (by omega)) (hhead sB _ hsB (by omega))
  obtain ⟨l2, k2, g4, g5, g6⟩ := C102_noise (sA.take zA.length) (zA.map Vec3.norm) (sB.take zB.length) (zB.map Vec3.norm)
    (sample (uA.map Vec3.norm)) m j c (√(3 * wA.length) * εA) (√(3 * wB.length) * εB) x sA[0] sB[0] (sample_support _) hc.le (by positivity)
    (by positivity) hx ex (by rw [← lA]; exact n4 hεA a4)
    (by
      rw [← lB]
      refine le_trans (le_of_eq ?_) (n4 hεB b4)
      congr 1
      funext i
      rw [hdel])
    (by rw [List.length_map, a3, hA.length_eq]; omega) (by rw [List.length_map, b3, hB.length_eq]; omega)
    (hne (by rw [a3, hA.length_eq]; omega)) (hne (by rw [b3, hB.length_eq]; omega)) hmargin
    (by rw [hltake _ (by rw [a3, hA.length_eq])]; exact h2) (hhead sA _ hsA (by rw [a3, hA.length_eq]; omega))
    (hhead sB _ hsB (by rw [b3, hB.length_eq]; omega))
  rw [hlast _ lA] at g1
  rw [hlast _ (by rw [a3, hA.length_eq])] at g4
  obtain rfl : _ = l1 := Option.some.inj g1
  obtain rfl : _ = l2 := Option.some.inj g4
  obtain rfl : k1 = m := by
    have := abs_nonpos_iff.mp (show |k1 - m| ≤ 0 by simpa using g2)
    omega
  refine ⟨sA[0], sA[wA.length - 1], _, k2 - k1, List.getElem?_eq_getElem hsA, List.getElem?_eq_getElem (by omega), g5, g3, ?_⟩
  rw [g6, hltake _ lA, hltake _ (by rw [a3, hA.length_eq])]
  congr 1
  push_cast
  ring

end HandEye
