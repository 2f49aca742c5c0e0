import Verif.Props.Mounting
import Verif.Spec.Clock

/-! # Property C73: the clock offset of two recordings of one motion -/

namespace HandEye

/-! ## Regular stamps -/

theorem regular_length (t d : ℝ) (N : ℕ) : (Spec.regular t d N).length = N + 1 := by simp [Spec.regular]

theorem regular_get {t d : ℝ} {N i : ℕ} (h : i < (Spec.regular t d N).length) :
    (Spec.regular t d N)[i] = t + i * d := by simp [Spec.regular]

theorem regular_sorted (t : ℝ) {d : ℝ} (hd : 0 < d) (N : ℕ) : (Spec.regular t d N).Pairwise (· < ·) := by
  unfold Spec.regular
  rw [List.pairwise_map]
  refine List.pairwise_lt_range.imp fun {a b} h => ?_
  have : (a : ℝ) < b := by exact_mod_cast h
  nlinarith

theorem regular_head (t d : ℝ) (N : ℕ) : (Spec.regular t d N).head? = some t := by
  unfold Spec.regular
  rw [List.range_succ_eq_map]
  simp

theorem regular_last (t d : ℝ) (N : ℕ) : (Spec.regular t d N).getLast? = some (t + N * d) := by
  unfold Spec.regular
  rw [List.range_succ]
  simp

theorem regular_mean (t d : ℝ) {N : ℕ} (hN : 1 ≤ N) : npMean (npDiff (Spec.regular t d N)) = .ok d := by
  rw [npMean_npDiff (by rw [regular_length]; omega) (regular_head t d N) (regular_last t d N), regular_length]
  congr 1
  have : (N : ℝ) ≠ 0 := by exact_mod_cast (by omega : N ≠ 0)
  push_cast
  rw [add_sub_cancel_left, add_sub_cancel_right, mul_comm, mul_div_assoc, div_self this, mul_one]

theorem regular_take (t d : ℝ) {N : ℕ} (hN : 1 ≤ N) : (Spec.regular t d N).take N = Spec.regular t d (N - 1) := by
  unfold Spec.regular
  rw [← List.map_take, List.take_range]
  congr 2
  omega

/-- Resampling a regular recording with a multiple of its period picks recorded orientations. -/
theorem resample_regular (t : ℝ) {dt : ℝ} (hdt : 0 < dt) {r n : ℕ} (hr : 1 ≤ r) (hn : 1 ≤ n) (q : ℕ → Quat) :
    resampleQuaternions (Spec.regular t (dt / r) (r * n)) ((List.range (r * n + 1)).map q) dt =
      .ok ((List.range (n + 1)).map fun i => q (r * i), Spec.regular t dt n) := by
  have hrr : (0 : ℝ) < r := by exact_mod_cast hr
  have hnr : (0 : ℝ) < n := by exact_mod_cast hn
  have hlast : t + ((r * n : ℕ) : ℝ) * (dt / r) = t + n * dt := by push_cast; field_simp
  have hs : npLinspace t (t + n * dt) ((t + n * dt - t) / dt + 1) = .ok (Spec.regular t dt n) := by
    have hi : pyInt ((t + n * dt - t) / dt + 1) = ((n + 1 : ℕ) : ℤ) := by
      have : (t + n * dt - t) / dt + 1 = ((n + 1 : ℕ) : ℝ) := by push_cast; field_simp; ring
      rw [this]
      unfold pyInt
      rw [if_pos (by positivity), Int.floor_natCast]
    unfold npLinspace
    rw [hi, if_neg (by omega), if_neg (by omega)]
    congr 1
    unfold Spec.regular
    rw [Int.toNat_natCast]
    refine List.map_congr_left fun i _ => ?_
    have : ((n + 1 - 1 : ℕ) : ℝ) = n := by simp
    rw [this]
    field_simp
    ring
  have hsort := regular_sorted t (div_pos hdt hrr) (r * n)
  have hmap : (Spec.regular t dt n).mapM (resampleOne (Spec.regular t (dt / r) (r * n)) ((List.range (r * n + 1)).map q)) =
      .ok (((List.range (n + 1)).map fun i => q (r * i)).map fun a => [a]) := by
    rw [Py.mapM_eq_ok, List.forall₂_iff_get]
    refine ⟨by simp [regular_length], ?_⟩
    intro k hk hk'
    rw [regular_length] at hk
    have hkn : k ≤ n := by omega
    have hrk : r * k ≤ r * n := Nat.mul_le_mul_left r hkn
    have hrk' : r * k < (Spec.regular t (dt / r) (r * n)).length := by rw [regular_length]; omega
    simp only [List.get_eq_getElem, List.getElem_map, List.getElem_range]
    have e : (Spec.regular t dt n)[k]'(by rw [regular_length]; omega) = (Spec.regular t (dt / r) (r * n))[r * k] := by
      rw [regular_get, regular_get]
      push_cast
      field_simp
    have hone := resampleOne_recorded (qs := (List.range (r * n + 1)).map q) hsort (by simp [regular_length])
      (regular_head t _ _) (regular_last t _ _) hrk' ?_ ?_
    · rw [e, hone]
      simp
    · rw [regular_get]
      have : (0 : ℝ) ≤ ((r * k : ℕ) : ℝ) * (dt / r) := by positivity
      linarith
    · rw [regular_get]
      have h1 : ((r * k : ℕ) : ℝ) ≤ ((r * n : ℕ) : ℝ) := by exact_mod_cast hrk
      have h2 := mul_le_mul_of_nonneg_right h1 (div_pos hdt hrr).le
      linarith
  unfold resampleQuaternions
  rw [pyGet_last (regular_last _ _ _), Py.ok_bind, pyGet_first (regular_head _ _ _), Py.ok_bind, npDiv_ok hdt.ne',
    Py.ok_bind, hlast, hs, Py.ok_bind]
  unfold resampleQuaternionsFromSamples
  rw [hmap, Py.ok_bind, flatten_singletons, pyAssert_pos (by simp [regular_length]), Py.ok_bind]
  rfl

/-! ## Angular velocities -/

/-- The direction of the computed velocity. -/
theorem velocity_direction {p q : Quat} (hq : q.dot q = 1) {t : ℝ} (ht : 0 < t)
    (h0 : p.dot q ≠ 0) (h1 : |p.dot q| < 1 - 1.1e-5) :
    ∃ c : ℝ, 0 < c ∧ angularVelocityBetweenQuaternions p q t = .ok (c • ((p.dot q) • (p * q.conj).vec)) := by
  have hw : (p * q.conj).w = p.dot q := by simp [Quat.dot]; ring
  have hpos : 0 < |p.dot q| := abs_pos.mpr h0
  have hd' : ∃ d : Quat, (if (p * q.conj).w < 0 then -(p * q.conj) else p * q.conj) = d ∧ d.w = |p.dot q| ∧
      d.vec = (1 / |p.dot q|) • ((p.dot q) • (p * q.conj).vec) := by
    refine ⟨_, rfl, ?_, ?_⟩
    · split
      · rename_i h
        rw [Quat.neg_w, hw, abs_of_neg (hw ▸ h)]
      · rename_i h
        rw [hw, abs_of_nonneg (hw ▸ not_lt.mp h)]
    · split
      · rename_i h
        rw [hw] at h
        rw [abs_of_neg h]
        ext <;> simp <;> field_simp <;> ring
      · rename_i h
        rw [hw] at h
        rw [abs_of_nonneg (not_lt.mp h)]
        ext <;> simp <;> field_simp
  obtain ⟨d, hde, hdw, hdv⟩ := hd'
  have hlt : d.w < 1 := by rw [hdw]; norm_num at h1 ⊢; linarith
  have hd0 : 0 ≤ d.w := by rw [hdw]; exact hpos.le
  have hs : 0 < Real.sqrt (1 - d.w * d.w) := Real.sqrt_pos.mpr (by nlinarith)
  refine ⟨0.5 / t * (2 * Real.arccos d.w) / Real.sqrt (1 - d.w * d.w) / |p.dot q|, ?_, ?_⟩
  · have : 0 < Real.arccos d.w := Real.arccos_pos.mpr hlt
    positivity
  · unfold angularVelocityBetweenQuaternions
    rw [Quat.inverse_unit hq, Py.ok_bind]
    dsimp only
    rw [hde, angleAxis_far ?_ (by linarith) hlt.le hs.ne', Py.ok_bind]
    · dsimp only
      rw [npDiv_ok ht.ne', Py.ok_bind, Py.pure_eq]
      congr 1
      have hx := congrArg Vec3.x hdv
      have hy := congrArg Vec3.y hdv
      have hz := congrArg Vec3.z hdv
      simp only [Quat.vec, Vec3.smul_x, Vec3.smul_y, Vec3.smul_z] at hx hy hz
      ext
      · simp only [Vec3.smul_x]
        rw [hx]
        simp only [Quat.vec]
        ring
      · simp only [Vec3.smul_y]
        rw [hy]
        simp only [Quat.vec]
        ring
      · simp only [Vec3.smul_z]
        rw [hz]
        simp only [Quat.vec]
        ring
    · rw [npIsclose, hdw, abs_one, mul_one, not_le, abs_of_neg (by rw [← hdw]; linarith)]
      norm_num at h1 ⊢
      linarith

/-- Mounting the sensor differently does not change the velocity. -/
theorem velocity_mounting {p q X : Quat} (hq : q.dot q = 1) (hX : X.dot X = 1) (t : ℝ) :
    angularVelocityBetweenQuaternions (p * X) (q * X) t = angularVelocityBetweenQuaternions p q t := by
  have hqX : (q * X).dot (q * X) = 1 := by rw [Quat.dot_mul_right, hX, hq, one_mul]
  unfold angularVelocityBetweenQuaternions
  rw [Quat.inverse_unit hq, Quat.inverse_unit hqX, Py.ok_bind, Py.ok_bind]
  have : p * X * (q * X).conj = p * q.conj := by
    simp only [Quat.dot] at hX
    ext <;> simp
    · linear_combination (-(p.w * q.x) + p.x * q.w - p.y * q.z + p.z * q.y) * hX
    · linear_combination (-(p.w * q.y) + p.x * q.z + p.y * q.w - p.z * q.x) * hX
    · linear_combination (-(p.w * q.z) - p.x * q.y + p.y * q.x + p.z * q.w) * hX
    · linear_combination (p.w * q.w + p.x * q.x + p.y * q.y + p.z * q.z) * hX
  rw [this]

/-! ## Signals on all integers -/

theorem sample_map {n : ℕ} {f : ℤ → ℝ} (h : ∀ i : ℤ, i < 0 ∨ (n : ℤ) ≤ i → f i = 0) (i : ℤ) :
    Spec.sample ((List.range n).map fun (j : ℕ) => f j) i = f i := by
  cases i with
  | ofNat a =>
    unfold Spec.sample
    by_cases ha : a < n
    · simp [ha]
    · simp only [List.getElem?_map, List.getElem?_eq_none (l := List.range n) (i := a) (by simpa using ha), Option.map_none]
      exact (h _ (Or.inr (by simp; omega))).symm
  | negSucc a => exact (h _ (Or.inl (by omega))).symm

theorem windowMean_shift (f : ℤ → ℝ) (k : ℕ) (i m : ℤ) :
    Spec.windowMean (fun j => f (j - m)) k i = Spec.windowMean f k (i - m) := by
  unfold Spec.windowMean
  congr 1
  refine Finset.sum_congr rfl fun j _ => ?_
  ring_nf

theorem windowMean_support {f : ℤ → ℝ} {lo hi : ℤ} {n k : ℕ} (h : ∀ i, i < lo ∨ hi ≤ i → f i = 0) (h1 : (k : ℤ) ≤ lo)
    (h2 : hi + k ≤ n) (i : ℤ) (hi' : i < 0 ∨ (n : ℤ) ≤ i) : Spec.windowMean f k i = 0 := by
  unfold Spec.windowMean
  rw [Finset.sum_eq_zero, zero_div]
  intro j hj
  have hj := Finset.mem_range.mp hj
  refine h _ ?_
  rcases hi' with hi' | hi'
  · exact Or.inl (by omega)
  · exact Or.inr (by omega)

theorem windowMean_ne {f : ℤ → ℝ} {lo : ℤ} {k : ℕ} (hk : 0 < k) (h : ∀ i < lo, f i = 0) (h0 : ∃ i, f i ≠ 0) :
    ∃ i, Spec.windowMean f k i ≠ 0 := by
  obtain ⟨j, hj, hmin⟩ := Int.exists_least_of_bdd (P := fun i => f i ≠ 0)
    ⟨lo, fun z hz => by by_contra hc; exact hz (h z (not_le.mp hc))⟩ h0
  refine ⟨j + (k / 2 : ℕ) - (k - 1 : ℕ), ?_⟩
  unfold Spec.windowMean
  rw [Finset.sum_eq_single (k - 1)]
  · have : j + ((k / 2 : ℕ) : ℤ) - ((k - 1 : ℕ) : ℤ) - ((k / 2 : ℕ) : ℤ) + ((k - 1 : ℕ) : ℤ) = j := by ring
    rw [this]
    exact div_ne_zero hj (by positivity)
  · intro b hb hne
    have hb := Finset.mem_range.mp hb
    by_contra hc
    have := hmin _ hc
    omega
  · intro hc
    exact absurd (Finset.mem_range.mpr (by omega)) hc

/-! ## Limits -/

theorem percentile_perm {l l' : List ℝ} (h : l.Perm l') (p : ℝ) : npPercentile l p = npPercentile l' p := by
  have hs : npSort l = npSort l' :=
    ((List.perm_insertionSort _ l).trans (h.trans (List.perm_insertionSort _ l').symm)).eq_of_pairwise
      (fun a b _ _ h1 h2 => le_antisymm h1 h2) (List.pairwise_insertionSort _ l) (List.pairwise_insertionSort _ l')
  have hn : l = [] ↔ l' = [] := by
    constructor
    · rintro rfl; exact h.nil_eq.symm
    · rintro rfl; exact h.eq_nil
  unfold npPercentile
  rw [hs, h.length_eq]
  simp only [hn]

/-- The limit is positive if enough values are. -/
theorem percentile_pos {l : List ℝ} {p m : ℝ} (h : Spec.IsPercentile l p m)
    (hc : l.length ≤ ⌊p / 100 * (l.length - 1 : ℝ)⌋₊ + l.countP fun x => decide (0 < x)) : 0 < m := by
  obtain ⟨s, k, f, a, hperm, hs, hkf, f0, f1, ha, hm⟩ := h
  have hl := hperm.length_eq
  have hk : ⌊p / 100 * (l.length - 1 : ℝ)⌋₊ = k := by
    rw [← hl, ← hkf, Nat.floor_eq_iff (by positivity)]
    exact ⟨by linarith, by linarith⟩
  rw [hk, ← hperm.countP_eq, ← hl] at hc
  obtain ⟨hk', rfl⟩ := List.getElem?_eq_some_iff.mp ha
  have hpos : 0 < s[k] := by
    by_contra hcon
    have h0 : (s.take (k + 1)).countP (fun x => decide (0 < x)) = 0 := by
      rw [List.countP_eq_zero]
      intro x hx
      obtain ⟨i, hi, rfl⟩ := List.mem_iff_getElem.mp hx
      rw [List.length_take] at hi
      rw [List.getElem_take]
      simp only [decide_eq_true_eq]
      have : s[i] ≤ s[k] := by
        rcases Nat.lt_or_ge i k with h | h
        · exact List.pairwise_iff_getElem.mp hs i k (by omega) hk' h
        · have : i = k := by omega
          subst this; exact le_rfl
      linarith
    have h1 : s.countP (fun x => decide (0 < x)) ≤ s.length - (k + 1) := by
      conv_lhs => rw [← List.take_append_drop (k + 1) s]
      rw [List.countP_append, h0, zero_add]
      exact le_trans List.countP_le_length (by simp)
    omega
  rcases hm with ⟨-, rfl⟩ | ⟨b, hb, rfl⟩
  · exact hpos
  · obtain ⟨hb', rfl⟩ := List.getElem?_eq_some_iff.mp hb
    have := List.pairwise_iff_getElem.mp hs k (k + 1) hk' hb' (by omega)
    nlinarith

/-! ## Filtering a signal that vanishes at both ends -/

/-- The filtered velocity. -/
noncomputable def filtered (V : ℤ → Vec3) (lim : ℝ) (k : ℕ) (i : ℤ) : Vec3 :=
  ⟨Spec.windowMean (fun j => npClip (V j).x (-lim) lim) k i, Spec.windowMean (fun j => npClip (V j).y (-lim) lim) k i,
    Spec.windowMean (fun j => npClip (V j).z (-lim) lim) k i⟩

theorem npClip_zero {m : ℝ} (h : 0 ≤ m) : npClip 0 (-m) m = 0 := by
  unfold npClip
  rw [max_eq_left (by linarith), min_eq_right h]

theorem npClip_ne {m x : ℝ} (h : 0 < m) (hx : 0 < x) : npClip x (-m) m ≠ 0 := by
  unfold npClip
  rw [max_eq_left (by linarith)]
  exact (lt_min h hx).ne'

theorem filter_signal {V : ℤ → Vec3} {n k : ℕ} {p lim : ℝ} (hV : ∀ i : ℤ, i < 0 ∨ (n : ℤ) ≤ i → V i = 0)
    (hlim : npPercentile (flat3 ((List.range n).map fun (i : ℕ) => V i)) p = .ok lim) (h0 : 0 ≤ lim) (hk : 0 < k) :
    filterAndSmooth ((List.range n).map fun (i : ℕ) => V i) k p =
      .ok ((List.range n).map fun (i : ℕ) => filtered V lim k i) := by
  unfold filterAndSmooth
  rw [hlim, Py.ok_bind, pyRequire_pos (by omega), Py.ok_bind, Py.pure_eq, List.length_map, List.length_range]
  congr 1
  refine List.map_congr_left fun i _ => ?_
  have key : ∀ c : Vec3 → ℝ, c 0 = 0 → (∀ u, c (clipVec lim u) = npClip (c u) (-lim) lim) →
      smoothAt ((((List.range n).map fun (i : ℕ) => V i).map (clipVec lim)).map c) k i =
        Spec.windowMean (fun j => npClip (c (V j)) (-lim) lim) k i := by
    intro c hc hcl
    rw [smoothAt_eq _ hk, List.map_map, List.map_map]
    congr 1
    funext j
    rw [← sample_map (n := n) (f := fun j => npClip (c (V j)) (-lim) lim)]
    · congr 1
      refine List.map_congr_left fun i _ => ?_
      simp only [Function.comp_apply, hcl]
    · intro i hi
      rw [hV i hi, hc, npClip_zero h0]
  unfold filtered
  rw [key Vec3.x rfl fun _ => rfl, key Vec3.y rfl fun _ => rfl, key Vec3.z rfl fun _ => rfl]

/-- Shifting the moving part of a signal only rearranges it. -/
theorem shift_perm {V : ℤ → Vec3} {lo hi m : ℤ} {n : ℕ} (hV : ∀ i, i < lo ∨ hi ≤ i → V i = 0) (h1 : 0 ≤ lo)
    (h2 : hi ≤ n) (h3 : 0 ≤ lo + m) (h4 : hi + m ≤ n) (h5 : lo < hi) :
    ((List.range n).map fun (i : ℕ) => V (i - m)).Perm ((List.range n).map fun (i : ℕ) => V i) := by
  have hn : 0 < n := by omega
  have e : ((List.range n).map fun (i : ℕ) => V (i - m)) =
      ((List.range n).map fun (i : ℕ) => V i).rotate ((-m) % n).toNat := by
    refine List.ext_getElem (by simp) ?_
    intro i hi1 hi2
    have hin : i < n := by simpa using hi1
    rw [List.getElem_rotate]
    simp only [List.getElem_map, List.getElem_range, List.length_map, List.length_range]
    have hmod : 0 ≤ (-m) % (n : ℤ) := Int.emod_nonneg _ (by omega)
    have hcast : (((i + ((-m) % (n : ℤ)).toNat) % n : ℕ) : ℤ) = (i - m) % n := by
      push_cast
      rw [Int.toNat_of_nonneg hmod, Int.add_emod, Int.emod_emod_of_dvd _ (dvd_refl _), ← Int.add_emod, sub_eq_add_neg]
    rw [hcast]
    rcases lt_trichotomy ((i : ℤ) - m) 0 with h | h | h
    · have : ((i : ℤ) - m) % n = i - m + n := by
        rw [← Int.add_emod_right, Int.emod_eq_of_lt (by omega) (by omega)]
      rw [this, hV _ (Or.inl (by omega)), hV _ (Or.inr (by omega))]
    · rw [h, Int.zero_emod]
    · rcases lt_or_ge ((i : ℤ) - m) n with h' | h'
      · rw [Int.emod_eq_of_lt (by omega) h']
      · have : ((i : ℤ) - m) % n = i - m - n := by
          rw [← Int.sub_emod_right, Int.emod_eq_of_lt (by omega) (by omega)]
        rw [this, hV _ (Or.inr (by omega)), hV _ (Or.inl (by omega))]
  rw [e]
  exact List.rotate_perm _ _

theorem norms_regular {n k : ℕ} {p t dt : ℝ} (hdt : 0 < dt) {q : ℕ → Quat} {V : ℤ → Vec3}
    (hV : ∀ i < n, angularVelocityBetweenQuaternions (q i) (q (i + 1)) dt = .ok (V i)) {out : List Vec3}
    (ho : filterAndSmooth ((List.range n).map fun (i : ℕ) => V i) k p = .ok out) :
    computeAngularVelocityNorms ((List.range (n + 1)).map q) (Spec.regular t dt n) k p = .ok (out.map Vec3.norm) := by
  unfold computeAngularVelocityNorms
  rw [pyRequire_pos (by simp), Py.ok_bind]
  have hm : (List.range (((List.range (n + 1)).map q).length - 1)).mapM
      (angularVelocityAt ((List.range (n + 1)).map q) (Spec.regular t dt n)) =
        .ok ((List.range n).map fun (i : ℕ) => V i) := by
    rw [Py.mapM_ok (g := fun (i : ℕ) => V i)]
    · simp
    · intro i hi
      have hi : i < n := by simpa using hi
      unfold angularVelocityAt
      rw [pyAt_ok (by rw [regular_length]; omega), Py.ok_bind, pyAt_ok (by rw [regular_length]; omega), Py.ok_bind,
        regular_get, regular_get]
      have : t + ((i + 1 : ℕ) : ℝ) * dt - (t + (i : ℝ) * dt) = dt := by push_cast; ring
      rw [this, pyAssert_pos hdt, Py.ok_bind, turning_get q (by omega), Py.ok_bind, turning_get q (by omega), Py.ok_bind,
        hV i hi]
  rw [hm, Py.ok_bind, ho, Py.ok_bind]
  rfl

theorem filtered_shift (V : ℤ → Vec3) (lim : ℝ) (k : ℕ) (m i : ℤ) :
    filtered (fun j => V (j - m)) lim k i = filtered V lim k (i - m) := by
  unfold filtered
  rw [← windowMean_shift, ← windowMean_shift, ← windowMean_shift]

theorem filtered_support {V : ℤ → Vec3} {lim : ℝ} (hl : 0 ≤ lim) {lo hi : ℤ} {n k : ℕ}
    (h : ∀ i, i < lo ∨ hi ≤ i → V i = 0) (h1 : (k : ℤ) ≤ lo) (h2 : hi + k ≤ n) (i : ℤ) (hi' : i < 0 ∨ (n : ℤ) ≤ i) :
    (filtered V lim k i).norm = 0 := by
  have key : ∀ c : Vec3 → ℝ, c 0 = 0 → Spec.windowMean (fun j => npClip (c (V j)) (-lim) lim) k i = 0 := by
    intro c hc
    refine windowMean_support (lo := lo) (hi := hi) (n := n) ?_ h1 h2 i hi'
    intro j hj
    rw [h j hj, hc, npClip_zero hl]
  rw [Vec3.norm_eq_zero]
  unfold filtered
  rw [key Vec3.x rfl, key Vec3.y rfl, key Vec3.z rfl]

theorem filtered_ne {V : ℤ → Vec3} {lim : ℝ} (hl : 0 < lim) {lo : ℤ} {k : ℕ} (hk : 0 < k) (h : ∀ i < lo, V i = 0)
    (h0 : ∃ i, 0 < (V i).x ∨ 0 < (V i).y ∨ 0 < (V i).z) : ∃ i, (filtered V lim k i).norm ≠ 0 := by
  have key : ∀ c : Vec3 → ℝ, c 0 = 0 → (∃ i, 0 < c (V i)) →
      ∃ i, Spec.windowMean (fun j => npClip (c (V j)) (-lim) lim) k i ≠ 0 := by
    rintro c hc ⟨i, hi⟩
    refine windowMean_ne hk (lo := lo) ?_ ⟨i, npClip_ne hl hi⟩
    intro j hj
    rw [h j hj, hc, npClip_zero hl.le]
  obtain ⟨i, hi⟩ := h0
  have fin : (∃ i, (filtered V lim k i).x ≠ 0 ∨ (filtered V lim k i).y ≠ 0 ∨ (filtered V lim k i).z ≠ 0) →
      ∃ i, (filtered V lim k i).norm ≠ 0 := by
    rintro ⟨i, hi⟩
    refine ⟨i, fun hc => ?_⟩
    rw [Vec3.norm_eq_zero] at hc
    rw [hc] at hi
    simp at hi
  rcases hi with hi | hi | hi
  · obtain ⟨j, hj⟩ := key Vec3.x rfl ⟨i, hi⟩
    exact fin ⟨j, Or.inl hj⟩
  · obtain ⟨j, hj⟩ := key Vec3.y rfl ⟨i, hi⟩
    exact fin ⟨j, Or.inr (Or.inl hj)⟩
  · obtain ⟨j, hj⟩ := key Vec3.z rfl ⟨i, hi⟩
    exact fin ⟨j, Or.inr (Or.inr hj)⟩

/-- The offset of two regular recordings, from the norms of their velocities. -/
theorem offset_regular {N : ℤ → ℝ} {n : ℕ} (hn : 0 < n) {m : ℤ} {dt ta tb c : ℝ} (hdt : 0 < dt) {rA rB : ℕ}
    (hrA : 1 ≤ rA) (hrB : 1 ≤ rB) (hr : rA = 1 ∨ rB = 1) {qA qB : ℕ → Quat} {cfg : FilteringConfig} (hc : 0 < c)
    (nA : computeAngularVelocityNorms ((List.range (n + 1)).map fun i => qA (rA * i)) (Spec.regular ta dt n)
      cfg.smoothing_kernel_size_A cfg.clipping_percentile_A = .ok ((List.range n).map fun (i : ℕ) => N i))
    (nB : computeAngularVelocityNorms ((List.range (n + 1)).map fun i => qB (rB * i)) (Spec.regular tb dt n)
      cfg.smoothing_kernel_size_B cfg.clipping_percentile_B = .ok ((List.range n).map fun (i : ℕ) => c * N (i - m)))
    (hN : ∀ i : ℤ, i < 0 ∨ (n : ℤ) ≤ i → N i = 0) (hNB : ∀ i : ℤ, i < 0 ∨ (n : ℤ) ≤ i → N (i - m) = 0)
    (h0 : ∃ i, N i ≠ 0) (hn2 : 2 ≤ n := by omega) :
    calculateTimeOffset (Spec.regular ta (dt / rA) (rA * n)) ((List.range (rA * n + 1)).map qA)
      (Spec.regular tb (dt / rB) (rB * n)) ((List.range (rB * n + 1)).map qB) cfg = .ok (dt * m + tb - ta) := by
  have hdel : Spec.Delayed ((List.range n).map fun (i : ℕ) => N i)
      ((List.range n).map fun (i : ℕ) => c * N (i - m)) m c := by
    intro i
    rw [sample_map (f := N) hN, sample_map (f := fun i => c * N (i - m)) (fun i hi => by rw [hNB i hi, mul_zero])]
  have hex : ∃ a ∈ (List.range n).map fun (i : ℕ) => N i, a ≠ 0 := by
    obtain ⟨i, hi'⟩ := h0
    have hr1 : 0 ≤ i := by by_contra hc; exact hi' (hN i (Or.inl (by omega)))
    have hr2 : i < n := by by_contra hc; exact hi' (hN i (Or.inr (by omega)))
    obtain ⟨j, rfl⟩ := Int.eq_ofNat_of_zero_le hr1
    exact ⟨_, List.mem_map.mpr ⟨j, List.mem_range.mpr (by omega), rfl⟩, hi'⟩
  have hmul : 1 ≤ rA * n ∧ 1 ≤ rB * n := ⟨Nat.mul_pos hrA hn, Nat.mul_pos hrB hn⟩
  obtain ⟨last, hlast, hres⟩ := C45_delay (Spec.regular ta dt (n - 1)) _ (Spec.regular tb dt (n - 1)) _ m c ta tb
    hc hex hdel (by rw [regular_length]; omega) (regular_head _ _ _) (regular_head _ _ _)
  rw [regular_last] at hlast
  have hlast := (Option.some.inj hlast).symm
  have hdtmax : (if dt / rA ≥ dt / rB then dt / rA else dt / rB) = dt := by
    have ra : (1 : ℝ) ≤ rA := by exact_mod_cast hrA
    have rb : (1 : ℝ) ≤ rB := by exact_mod_cast hrB
    rcases hr with rfl | rfl
    · rw [if_pos (by push_cast; rw [ge_iff_le, div_one]; exact div_le_self hdt.le rb)]
      push_cast; rw [div_one]
    · split_ifs with h
      · push_cast at h
        rw [div_one] at h
        exact le_antisymm (div_le_self hdt.le ra) h
      · push_cast; rw [div_one]
  unfold calculateTimeOffset
  rw [regular_mean _ _ hmul.1, Py.ok_bind, regular_mean _ _ hmul.2, Py.ok_bind]
  dsimp only
  rw [hdtmax, resample_regular ta hdt hrA hn, Py.ok_bind]
  dsimp only
  rw [resample_regular tb hdt hrB hn, Py.ok_bind]
  dsimp only
  rw [nA, Py.ok_bind, nB, Py.ok_bind]
  simp only [List.length_map, List.length_range]
  rw [regular_take _ _ hn, regular_take _ _ hn, pyAssert_pos (by rw [regular_length, regular_length]; omega), Py.ok_bind]
  rw [hres, hlast, regular_length]
  congr 1
  have hn1 : ((n - 1 : ℕ) : ℝ) ≠ 0 := by
    have : n - 1 ≠ 0 := by omega
    exact_mod_cast this
  push_cast
  rw [add_sub_cancel_right, add_sub_cancel_left]
  field_simp

/-- **C73**.  A moving body carries two sensors, mounted in any way (`X`), which measure their orientations in the same
frame.  It rests for as long as the smoothing window at both ends of both recordings, and during enough of the steps
it turns in the positive sense about a coordinate axis.  The two recordings are regular and equally long, the period
of one is a multiple of the period of the other.  Then the computed offset is exact: what is recorded by the first
sensor at time `t` is recorded by the second at time `t + offset`. -/
theorem C73_clock_offset_partial (Q : ℤ → Quat) (hQ : ∀ i, (Q i).norm = 1) (X : Quat) (hX : X.norm = 1) (n k : ℕ)
    (hn : 0 < n) (hk : 0 < k) (lo hi m : ℤ) (hrest : ∀ i, i < lo ∨ hi ≤ i → Q (i + 1) = Q i) (h1 : k ≤ lo)
    (h2 : hi + k ≤ n) (h3 : k ≤ lo + m) (h4 : hi + m + k ≤ n) (p : ℝ) (hp0 : 0 ≤ p) (hp1 : p ≤ 100)
    (hturn : 3 * n ≤ ⌊p / 100 * (3 * n - 1 : ℝ)⌋₊ + (Spec.turns Q n).countP fun x => decide (0 < x))
    (dt ta tb : ℝ) (hdt : 0 < dt) (rA rB : ℕ) (hrA : 1 ≤ rA) (hrB : 1 ≤ rB) (hr : rA = 1 ∨ rB = 1)
    (qA qB : ℕ → Quat) (hA : ∀ i ≤ n, qA (rA * i) = Q i) (hB : ∀ i ≤ n, qB (rB * i) = Q (i - m) * X)
    (cfg : FilteringConfig) (c1 : cfg.smoothing_kernel_size_A = k) (c2 : cfg.smoothing_kernel_size_B = k)
    (c3 : cfg.clipping_percentile_A = p) (c4 : cfg.clipping_percentile_B = p) :
    calculateTimeOffset (Spec.regular ta (dt / rA) (rA * n)) ((List.range (rA * n + 1)).map qA)
      (Spec.regular tb (dt / rB) (rB * n)) ((List.range (rB * n + 1)).map qB) cfg = .ok (dt * m + tb - ta) := by
  have dQ : ∀ i, (Q i).dot (Q i) = 1 := fun i => Quat.norm_eq_one.mp (hQ i)
  have dX := Quat.norm_eq_one.mp hX
  -- The velocities.
  have hvel : ∀ i : ℤ, ∃ v, angularVelocityBetweenQuaternions (Q i) (Q (i + 1)) dt = .ok v ∧
      (Q (i + 1) = Q i → v = 0) := by
    intro i
    obtain ⟨v, e1, e2, -⟩ := velocity_norm (dQ i) (dQ (i + 1)) hdt.ne'
    refine ⟨v, e1, fun h => Vec3.norm_eq_zero.mp (e2 ?_)⟩
    rw [h, dQ]
    norm_num
  choose V hV hV0 using hvel
  have hsup : ∀ i, i < lo ∨ hi ≤ i → V i = 0 := fun i h => hV0 i (hrest i h)
  have hcomp : ∀ (i : ℤ) (c : Vec3 → ℝ), (∀ (a : ℝ) u, c (a • u) = a * c u) → 0 < c (Spec.turnAxis (Q i) (Q (i + 1))) →
      0 < c (V i) := by
    intro i c hc h
    have hc0 : c 0 = 0 := by
      have := hc 0 0
      rwa [zero_mul, show (0 : ℝ) • (0 : Vec3) = 0 from by ext <;> simp] at this
    unfold Spec.turnAxis at h
    split at h
    · rename_i hlt
      have hne : (Q i).dot (Q (i + 1)) ≠ 0 := by
        intro h0
        rw [hc, h0, zero_mul] at h
        exact lt_irrefl _ h
      obtain ⟨a, ha, he⟩ := velocity_direction (dQ (i + 1)) hdt hne hlt
      rw [hV i] at he
      rw [Except.ok.inj he, hc]
      exact mul_pos ha h
    · rw [hc0] at h
      exact absurd h (lt_irrefl _)
  -- The limit.
  have hlen : (flat3 ((List.range n).map fun (i : ℕ) => V i)).length = 3 * n := by
    unfold flat3
    rw [List.length_flatMap]
    simp [Function.comp_def, mul_comm]
  have hcount : (Spec.turns Q n).countP (fun x => decide (0 < x)) ≤
      (flat3 ((List.range n).map fun (i : ℕ) => V i)).countP fun x => decide (0 < x) := by
    unfold Spec.turns flat3
    rw [List.flatMap_map, List.countP_flatMap, List.countP_flatMap]
    refine List.sum_le_sum fun i _ => ?_
    have hx := hcomp i Vec3.x fun a u => by simp
    have hy := hcomp i Vec3.y fun a u => by simp
    have hz := hcomp i Vec3.z fun a u => by simp
    simp only [Function.comp_apply, List.countP_cons, List.countP_nil, decide_eq_true_eq]
    have hif : ∀ {P P' : Prop} [Decidable P] [Decidable P'], (P → P') → (if P then 1 else 0) ≤ (if P' then 1 else 0 : ℕ) := by
      intro P P' _ _ h
      split_ifs with a b
      · exact le_rfl
      · exact absurd (h a) b
      · omega
      · exact le_rfl
    exact Nat.add_le_add (Nat.add_le_add (Nat.add_le_add le_rfl (hif hz)) (hif hy)) (hif hx)
  have hne : flat3 ((List.range n).map fun (i : ℕ) => V i) ≠ [] := by
    intro h
    rw [h] at hlen
    simp at hlen
    omega
  obtain ⟨lim, hlim, hper⟩ := npPercentile_spec hne hp0 hp1
  have hlim0 : 0 < lim := by
    refine percentile_pos hper ?_
    rw [hlen]
    push_cast
    omega
  -- Some positive component.
  have hsome : ∃ i, 0 < (V i).x ∨ 0 < (V i).y ∨ 0 < (V i).z := by
    by_contra hcon
    push Not at hcon
    obtain ⟨-, b, hb, hbl⟩ := isPercentile_bounds hper
    unfold flat3 at hb
    obtain ⟨u, hu, hb⟩ := List.mem_flatMap.mp hb
    obtain ⟨i, -, rfl⟩ := List.mem_map.mp hu
    simp only [List.mem_cons, List.not_mem_nil, or_false] at hb
    obtain ⟨g1, g2, g3⟩ := hcon i
    rcases hb with rfl | rfl | rfl <;> linarith
  have hlohi : lo < hi := by
    by_contra hcon
    obtain ⟨i, hi'⟩ := hsome
    have : V i = 0 := hsup i (by omega)
    rw [this] at hi'
    simp at hi'
  -- The filtered signals.
  have fA := filter_signal (k := k) (fun i hi' => hsup i (by omega)) hlim hlim0.le hk
  have hperm := shift_perm (m := m) (n := n) hsup (by omega) (by omega) (by omega) (by omega) hlohi
  have hlimB : npPercentile (flat3 ((List.range n).map fun (i : ℕ) => V (i - m))) p = .ok lim := by
    rw [← hlim]
    exact percentile_perm (hperm.flatMap_right _) p
  have fB := filter_signal (V := fun j => V (j - m)) (k := k) (fun i hi' => hsup _ (by omega)) hlimB hlim0.le hk
  have nA := norms_regular (t := ta) (q := fun i => qA (rA * i)) hdt (fun i hi' => by
    rw [hA i (by omega), hA (i + 1) (by omega)]; exact_mod_cast hV i) fA
  have nB := norms_regular (t := tb) (q := fun i => qB (rB * i)) (V := fun j => V (j - m)) hdt (fun i hi' => by
    rw [hB i (by omega), hB (i + 1) (by omega), velocity_mounting (dQ _) dX]
    have : ((i + 1 : ℕ) : ℤ) - m = i - m + 1 := by push_cast; ring
    rw [this, hV]) fB
  -- The delay.
  have hN := filtered_support hlim0.le hsup h1 h2
  have hNB : ∀ i : ℤ, i < 0 ∨ (n : ℤ) ≤ i → (filtered V lim k (i - m)).norm = 0 := by
    intro i hi'
    rw [← filtered_shift]
    exact filtered_support hlim0.le (lo := lo + m) (hi := hi + m) (fun j hj => hsup _ (by omega)) h3 h4 i hi'
  have nA' : computeAngularVelocityNorms ((List.range (n + 1)).map fun i => qA (rA * i)) (Spec.regular ta dt n)
      cfg.smoothing_kernel_size_A cfg.clipping_percentile_A =
        .ok ((List.range n).map fun (i : ℕ) => (filtered V lim k i).norm) := by
    rw [c1, c3, nA, List.map_map]
    rfl
  have nB' : computeAngularVelocityNorms ((List.range (n + 1)).map fun i => qB (rB * i)) (Spec.regular tb dt n)
      cfg.smoothing_kernel_size_B cfg.clipping_percentile_B =
        .ok ((List.range n).map fun (i : ℕ) => 1 * (filtered V lim k (i - m)).norm) := by
    rw [c2, c4, nB, List.map_map]
    congr 1
    refine List.map_congr_left fun i _ => ?_
    rw [Function.comp_apply, filtered_shift, one_mul]
  exact offset_regular (N := fun i => (filtered V lim k i).norm) hn hdt hrA hrB hr one_pos nA' nB' hN hNB
    (filtered_ne hlim0 hk (fun i hi' => hsup i (Or.inl hi')) hsome)

/-- The hypotheses are satisfiable: a body turns once, by 74 degrees; the second sensor is mounted askew, records
twice as fast and sees the turn one second later on its own clock's scale. -/
example : calculateTimeOffset (Spec.regular 100 1 4)
    ((List.range 5).map fun (i : ℕ) => if (i : ℤ) ≤ 1 then (⟨0, 0, 0, 1⟩ : Quat) else ⟨-0.6, 0, 0, 0.8⟩)
    (Spec.regular 7 (1 / 2) 8)
    ((List.range 9).map fun (j : ℕ) =>
      (if (j : ℤ) / 2 - 1 ≤ 1 then (⟨0, 0, 0, 1⟩ : Quat) else ⟨-0.6, 0, 0, 0.8⟩) * ⟨0, 0.6, 0.8, 0⟩)
    ⟨1, 100, 1, 100⟩ = .ok (-92) := by
  have := C73_clock_offset_partial (fun i => if i ≤ 1 then (⟨0, 0, 0, 1⟩ : Quat) else ⟨-0.6, 0, 0, 0.8⟩) ?_
    ⟨0, 0.6, 0.8, 0⟩ (Quat.norm_eq_one.mpr (by norm_num [Quat.dot])) 4 1 (by norm_num) (by norm_num) 1 2 1 ?_ (by norm_num)
    (by norm_num) (by norm_num) (by norm_num) 100 (by norm_num) (by norm_num) ?_ 1 100 7 one_pos 1 2 (by norm_num)
    (by norm_num) (by norm_num) (fun (i : ℕ) => if (i : ℤ) ≤ 1 then (⟨0, 0, 0, 1⟩ : Quat) else ⟨-0.6, 0, 0, 0.8⟩)
    (fun (j : ℕ) => (if (j : ℤ) / 2 - 1 ≤ 1 then (⟨0, 0, 0, 1⟩ : Quat) else ⟨-0.6, 0, 0, 0.8⟩) * ⟨0, 0.6, 0.8, 0⟩) ?_ ?_
    ⟨1, 100, 1, 100⟩ rfl rfl rfl rfl
  · norm_num at this ⊢
    exact this
  · intro i
    rw [Quat.norm_eq_one]
    split_ifs <;> norm_num [Quat.dot]
  · intro i hi
    split_ifs <;> first | rfl | omega
  · have hpos : 0 < (Spec.turns (fun i => if i ≤ 1 then (⟨0, 0, 0, 1⟩ : Quat) else ⟨-0.6, 0, 0, 0.8⟩) 4).countP
        fun x => decide (0 < x) := by
      rw [List.countP_pos_iff]
      refine ⟨(Spec.turnAxis ⟨0, 0, 0, 1⟩ ⟨-0.6, 0, 0, 0.8⟩).x, ?_, ?_⟩
      · unfold Spec.turns
        rw [List.mem_flatMap]
        exact ⟨1, by simp, by norm_num⟩
      · rw [decide_eq_true_eq]
        unfold Spec.turnAxis
        rw [if_pos (by norm_num [Quat.dot, abs_lt])]
        norm_num [Quat.dot, Quat.vec]
    have : ⌊(100 : ℝ) / 100 * (3 * (4 : ℕ) - 1 : ℝ)⌋₊ = 11 := by norm_num
    rw [this]
    omega
  · intro i _
    simp
  · intro i _
    have : ((2 * i : ℕ) : ℤ) / 2 - 1 = i - 1 := by omega
    rw [this]

end HandEye
