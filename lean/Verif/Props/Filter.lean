import Verif.Props.AlignedPoses
import Verif.Spec.Filter

/-! # Properties C48 and C63: filtering of the angular velocity -/

namespace HandEye

theorem npPercentile_spec {l : List ℝ} (h : l ≠ []) {p : ℝ} (h0 : 0 ≤ p) (h1 : p ≤ 100) :
    ∃ m, npPercentile l p = .ok m ∧ Spec.IsPercentile l p m := by
  unfold npPercentile
  rw [if_neg h, if_neg (by rintro (h | h) <;> linarith)]
  have hp : (npSort l).Perm l := List.perm_insertionSort _ _
  have hl := hp.length_eq
  have hpos := List.length_pos_of_ne_nil h
  have hc : ((l.length - 1 : ℕ) : ℝ) = (l.length : ℝ) - 1 := by
    rw [Nat.cast_sub (by omega)]; simp
  set x : ℝ := p / 100 * ((l.length - 1 : ℕ) : ℝ) with hx
  have hx0 : 0 ≤ x := by positivity
  have hx1 : x ≤ ((l.length - 1 : ℕ) : ℝ) := by
    have : p / 100 ≤ 1 := by linarith
    calc x ≤ 1 * ((l.length - 1 : ℕ) : ℝ) := by rw [hx]; gcongr
      _ = _ := one_mul _
  have hfl := Nat.floor_le hx0
  have hlt := Nat.lt_floor_add_one x
  have hk : ⌊x⌋₊ ≤ l.length - 1 := Nat.floor_le_of_le hx1
  refine ⟨_, rfl, npSort l, ⌊x⌋₊, x - ⌊x⌋₊, (npSort l)[⌊x⌋₊]'(by omega), hp, List.pairwise_insertionSort _ _,
    ?_, by linarith, by linarith, List.getElem?_eq_getElem _, ?_⟩
  · rw [hl, ← hc, ← hx]; ring
  rw [getD_eq (by omega : ⌊x⌋₊ < (npSort l).length)]
  by_cases hlast : ⌊x⌋₊ = l.length - 1
  · left
    have : x - ⌊x⌋₊ = 0 := by
      rw [← hlast] at hx1
      linarith
    rw [this]
    exact ⟨rfl, by ring⟩
  · right
    have hmin : min (⌊x⌋₊ + 1) (l.length - 1) = ⌊x⌋₊ + 1 := by omega
    rw [hmin, getD_eq (by omega)]
    exact ⟨_, List.getElem?_eq_getElem _, by ring⟩

theorem isPercentile_bounds {l : List ℝ} {p m : ℝ} (h : Spec.IsPercentile l p m) :
    (∃ a ∈ l, a ≤ m) ∧ ∃ b ∈ l, m ≤ b := by
  obtain ⟨s, k, f, a, hp, hs, -, f0, f1, ha, hm⟩ := h
  have ham : a ∈ l := hp.mem_iff.mp (List.mem_of_getElem? ha)
  rcases hm with ⟨-, rfl⟩ | ⟨b, hb, rfl⟩
  · exact ⟨⟨m, ham, le_rfl⟩, m, ham, le_rfl⟩
  · have hbm : b ∈ l := hp.mem_iff.mp (List.mem_of_getElem? hb)
    obtain ⟨h1, rfl⟩ := List.getElem?_eq_some_iff.mp ha
    obtain ⟨h2, rfl⟩ := List.getElem?_eq_some_iff.mp hb
    have := List.pairwise_iff_getElem.mp hs k (k + 1) h1 h2 (by omega)
    exact ⟨⟨_, ham, by nlinarith⟩, _, hbm, by nlinarith⟩

theorem npClip_clipped {m x : ℝ} (hm : 0 ≤ m) : Spec.Clipped m x (npClip x (-m) m) := by
  unfold npClip
  refine ⟨fun h => ?_, fun h => ?_, fun h => ?_⟩
  · rw [max_eq_left (abs_le.mp h).1, min_eq_right (abs_le.mp h).2]
  · rw [max_eq_left (by linarith), min_eq_left h.le]
  · rw [max_eq_right h.le, min_eq_right (by linarith)]

theorem npClip_abs {m x : ℝ} (hm : 0 ≤ m) : |npClip x (-m) m| ≤ m := by
  unfold npClip
  rw [abs_le]
  exact ⟨le_min (by linarith) (le_max_right _ _), min_le_left _ _⟩

theorem smoothAt_eq (v : List ℝ) {k : ℕ} (hk : 0 < k) (i : ℕ) :
    smoothAt v k i = Spec.windowMean (Spec.sample v) k i := by
  unfold smoothAt Spec.windowMean
  rw [sum_range_map, Finset.sum_div]
  refine Finset.sum_congr rfl fun j _ => ?_
  rw [sample_eq, mul_one_div]
  congr 2
  omega

theorem windowMean_le {f : ℤ → ℝ} {m : ℝ} (h : ∀ i, |f i| ≤ m) (k : ℕ) (i : ℤ) (hm : 0 ≤ m) :
    |Spec.windowMean f k i| ≤ m := by
  unfold Spec.windowMean
  rw [abs_div, Nat.abs_cast]
  rcases Nat.eq_zero_or_pos k with rfl | hk
  · simpa using hm
  rw [div_le_iff₀ (by positivity)]
  calc |∑ j ∈ Finset.range k, f (i - (k / 2 : ℕ) + j)| ≤ ∑ j ∈ Finset.range k, |f (i - (k / 2 : ℕ) + j)| :=
        Finset.abs_sum_le_sum_abs _ _
    _ ≤ ∑ _j ∈ Finset.range k, m := Finset.sum_le_sum fun j _ => h _
    _ = m * k := by rw [Finset.sum_const, Finset.card_range, nsmul_eq_mul, mul_comm]

theorem abs_sample_le {l : List ℝ} {m : ℝ} (hm : 0 ≤ m) (h : ∀ x ∈ l, |x| ≤ m) (i : ℤ) : |Spec.sample l i| ≤ m := by
  unfold Spec.sample
  split
  · split
    · exact h _ (List.mem_of_getElem? ‹_›)
    · simpa using hm
  · simpa using hm

/-- C48: the filter succeeds; the limit is the requested percentile of all components; every component of the
result is the mean over a window of `k` samples (zeros outside the signal) of the limited components, and stays
within the limit. -/
theorem C48_filter (v : List Vec3) (k : ℕ) (p : ℝ) (hv : v ≠ []) (hk : 0 < k) (h0 : 0 ≤ p) (h1 : p ≤ 100) :
    ∃ (m : ℝ) (out : List Vec3) (cx cy cz : List ℝ),
      filterAndSmooth v k p = .ok out ∧ out.length = v.length ∧
      Spec.IsPercentile (v.map Vec3.x ++ v.map Vec3.y ++ v.map Vec3.z) p m ∧
      (∀ (i : ℕ) (u : Vec3), out[i]? = some u → u = ⟨Spec.windowMean (Spec.sample cx) k i,
        Spec.windowMean (Spec.sample cy) k i, Spec.windowMean (Spec.sample cz) k i⟩) ∧
      (0 ≤ m → List.Forall₂ (Spec.Clipped m) (v.map Vec3.x) cx ∧ List.Forall₂ (Spec.Clipped m) (v.map Vec3.y) cy ∧
        List.Forall₂ (Spec.Clipped m) (v.map Vec3.z) cz ∧ ∀ u ∈ out, |u.x| ≤ m ∧ |u.y| ≤ m ∧ |u.z| ≤ m) := by
  have hperm : (flat3 v).Perm (v.map Vec3.x ++ v.map Vec3.y ++ v.map Vec3.z) := by
    clear hv
    induction v with
    | nil => exact List.Perm.refl _
    | cons a v ih =>
      change (a.x :: a.y :: a.z :: flat3 v).Perm
        ((a.x :: v.map Vec3.x) ++ (a.y :: v.map Vec3.y) ++ (a.z :: v.map Vec3.z))
      rw [List.perm_iff_count] at ih ⊢
      intro b
      have := ih b
      simp only [List.count_append, List.count_cons] at this ⊢
      omega
  have hne : flat3 v ≠ [] := by
    intro h
    cases v with
    | nil => exact hv rfl
    | cons a v => cases h
  obtain ⟨m, hm, s, j, f, a, hs, hrest⟩ := npPercentile_spec hne h0 h1
  refine ⟨m, (List.range v.length).map fun (i : ℕ) => ⟨smoothAt ((v.map (clipVec m)).map Vec3.x) k i,
    smoothAt ((v.map (clipVec m)).map Vec3.y) k i, smoothAt ((v.map (clipVec m)).map Vec3.z) k i⟩, v.map fun u => npClip u.x (-m) m, v.map fun u => npClip u.y (-m) m,
    v.map fun u => npClip u.z (-m) m, ?_, ?_, ⟨s, j, f, a, hs.trans hperm, hrest⟩, ?_, ?_⟩
  · unfold filterAndSmooth
    rw [hm, Py.ok_bind]
    dsimp only
    rw [pyRequire_pos hk.ne', Py.ok_bind]
    rfl
  · simp
  · intro i u hu
    rw [List.getElem?_map] at hu
    obtain ⟨n, hn, rfl⟩ := Option.map_eq_some_iff.mp hu
    have : n = i := by
      have := List.getElem?_eq_some_iff.mp hn
      obtain ⟨h, e⟩ := this
      simpa using e.symm
    subst this
    rw [smoothAt_eq _ hk, smoothAt_eq _ hk, smoothAt_eq _ hk]
    simp only [List.map_map, Function.comp_def, clipVec]
  · intro hm0
    refine ⟨?_, ?_, ?_, ?_⟩
    · rw [List.forall₂_map_left_iff, List.forall₂_map_right_iff, List.forall₂_same]
      exact fun u _ => npClip_clipped hm0
    · rw [List.forall₂_map_left_iff, List.forall₂_map_right_iff, List.forall₂_same]
      exact fun u _ => npClip_clipped hm0
    · rw [List.forall₂_map_left_iff, List.forall₂_map_right_iff, List.forall₂_same]
      exact fun u _ => npClip_clipped hm0
    · intro u hu
      obtain ⟨i, -, rfl⟩ := List.mem_map.mp hu
      rw [smoothAt_eq _ hk, smoothAt_eq _ hk, smoothAt_eq _ hk]
      simp only [List.map_map, Function.comp_def, clipVec]
      refine ⟨?_, ?_, ?_⟩ <;> refine windowMean_le (abs_sample_le hm0 ?_) _ _ hm0 <;> intro x hx <;>
        obtain ⟨u, -, rfl⟩ := List.mem_map.mp hx <;> exact npClip_abs hm0

/-- `C48_filter` applies: a short signal with the default settings. -/
example : ∃ out, filterAndSmooth [⟨1, 0, 0⟩, ⟨0, 2, 0⟩, ⟨0, 0, 3⟩] 25 99.5 = .ok out ∧ out.length = 3 := by
  obtain ⟨m, out, cx, cy, cz, h1, h2, -⟩ := C48_filter [⟨1, 0, 0⟩, ⟨0, 2, 0⟩, ⟨0, 0, 3⟩] 25 99.5 (by simp) (by simp)
    (by norm_num) (by norm_num)
  exact ⟨out, h1, h2⟩

/-- C48 needs `m ≥ 0`: a percentile of values that are not all negative at the top is. -/
theorem C48_limit_nonneg (l : List ℝ) (m : ℝ) (h : Spec.IsPercentile l 100 m) (h0 : ∃ a ∈ l, 0 ≤ a) : 0 ≤ m := by
  obtain ⟨s, k, f, a, hp, hs, hk, f0, f1, ha, hm⟩ := h
  obtain ⟨b, hb, hb0⟩ := h0
  obtain ⟨j, hj, rfl⟩ := List.mem_iff_getElem.mp (hp.mem_iff.mpr hb)
  obtain ⟨hk', rfl⟩ := List.getElem?_eq_some_iff.mp ha
  have hkl : (s.length : ℝ) - 1 < k + 1 := by linarith
  have hkl' : s.length < k + 2 := by exact_mod_cast (by linarith : (s.length : ℝ) < k + 2)
  have hkk : s.length = k + 1 := by omega
  have hle : s[j] ≤ s[k] := by
    rcases (by omega : j ≤ k).eq_or_lt with rfl | hlt
    · exact le_rfl
    · exact List.pairwise_iff_getElem.mp hs j k hj hk' hlt
  rcases hm with ⟨-, rfl⟩ | ⟨b, hb, -⟩
  · linarith
  · obtain ⟨h, -⟩ := List.getElem?_eq_some_iff.mp hb
    omega

/-- Without it the filter may not even keep the sign: a limit below zero replaces every value by itself. -/
theorem C48_negative_limit (m x : ℝ) (hm : m < 0) : npClip x (-m) m = m := by
  unfold npClip
  exact min_eq_left (le_trans (by linarith) (le_max_right _ _))

/-! ## C63: the filter treats both senses of rotation alike -/

theorem isPercentile_sorted {l s : List ℝ} {p m : ℝ} (h : Spec.IsPercentile l p m) (hp : s.Perm l)
    (hs : s.Pairwise (· ≤ ·)) : ∃ (k : ℕ) (f a : ℝ), k + f = p / 100 * (s.length - 1 : ℝ) ∧
    0 ≤ f ∧ f < 1 ∧ s[k]? = some a ∧ (f = 0 ∧ m = a ∨ ∃ b, s[k + 1]? = some b ∧ m = (1 - f) * a + f * b) := by
  obtain ⟨s', k, f, a, hp', hs', h⟩ := h
  have : s' = s := (hp'.trans hp.symm).eq_of_pairwise (fun a b _ _ h1 h2 => le_antisymm h1 h2) hs' hs
  subst this
  exact ⟨k, f, a, h⟩

/-- If the sorted values end in `m` from the position of the percentile on, it is `m`. -/
theorem isPercentile_const {l : List ℝ} {p m c d : ℝ} {i n : ℕ} (h : Spec.IsPercentile l p m)
    (hp : (List.replicate i c ++ List.replicate n d).Perm l) (hcd : c ≤ d)
    (hi : (i : ℝ) ≤ p / 100 * (i + n - 1 : ℝ)) : m = d := by
  obtain ⟨k, f, a, h1, h2, h3, h4, h5⟩ := isPercentile_sorted h hp (by
    rw [List.pairwise_append]
    refine ⟨List.pairwise_replicate.mpr (Or.inr le_rfl), List.pairwise_replicate.mpr (Or.inr le_rfl), ?_⟩
    intro x hx y hy
    rw [List.eq_of_mem_replicate hx, List.eq_of_mem_replicate hy]
    exact hcd)
  have hk : i ≤ k := by
    have : (i : ℝ) < k + 1 := by
      simp only [List.length_append, List.length_replicate, Nat.cast_add] at h1
      linarith
    have : i < k + 1 := by exact_mod_cast this
    omega
  have val : ∀ (j : ℕ) (x : ℝ), i ≤ j → (List.replicate i c ++ List.replicate n d)[j]? = some x → x = d := by
    intro j x hj hx
    rw [List.getElem?_append_right (by simpa using hj)] at hx
    exact List.eq_of_mem_replicate (List.mem_of_getElem? hx)
  have ha := val k a hk h4
  rcases h5 with ⟨-, rfl⟩ | ⟨b, hb, rfl⟩
  · exact ha
  · rw [ha, val _ b (by omega) hb]; ring

theorem perm_components (n : ℕ) (w : ℝ) :
    ((List.replicate n (⟨w, 0, 0⟩ : Vec3)).map Vec3.x ++ (List.replicate n (⟨w, 0, 0⟩ : Vec3)).map Vec3.y ++
      (List.replicate n (⟨w, 0, 0⟩ : Vec3)).map Vec3.z) = List.replicate n w ++ List.replicate (n + n) 0 := by
  simp only [List.map_replicate, List.append_assoc, List.replicate_add]

/-- C63 is false: a constant rotation about one axis passes the filter, but the reversed rotation, about the
negative axis, is removed altogether. -/
theorem C63_refuted (n k : ℕ) (w p : ℝ) (hn : 2 ≤ n) (hk : 0 < k) (hw : 0 < w) (h0 : 99 ≤ p) (h1 : p ≤ 100) :
    ∃ out, filterAndSmooth (List.replicate n ⟨w, 0, 0⟩) k p = .ok out ∧ out.length = n ∧ (∀ u ∈ out, 0 < u.x) ∧
      filterAndSmooth (List.replicate n ⟨-w, 0, 0⟩) k p = .ok (List.replicate n ⟨0, 0, 0⟩) := by
  have hne : ∀ u : Vec3, List.replicate n u ≠ [] := by
    intro u h
    have := congrArg List.length h
    simp at this
    omega
  have hnr : (2 : ℝ) ≤ n := by exact_mod_cast hn
  obtain ⟨m, out, cx, cy, cz, e1, e2, e3, e4, e5⟩ := C48_filter _ k p (hne ⟨w, 0, 0⟩) hk (by linarith) h1
  obtain ⟨m', out', cx', cy', cz', f1, f2, f3, f4, f5⟩ := C48_filter _ k p (hne ⟨-w, 0, 0⟩) hk (by linarith) h1
  rw [perm_components] at e3 f3
  have hm : m = w := by
    refine isPercentile_const e3 List.perm_append_comm hw.le ?_
    push_cast
    nlinarith
  have hm' : m' = 0 := by
    refine isPercentile_const f3 (List.Perm.refl _) (by linarith) ?_
    push_cast
    nlinarith
  subst hm hm'
  refine ⟨out, e1, by simpa using e2, ?_, ?_⟩
  · obtain ⟨g1, -, -, -⟩ := e5 hw.le
    have hcx : cx = List.replicate n m := by
      have hlen := g1.length_eq
      simp only [List.length_map, List.length_replicate] at hlen
      refine List.eq_replicate_iff.mpr ⟨hlen.symm, fun x hx => ?_⟩
      obtain ⟨i, hi, rfl⟩ := List.mem_iff_getElem.mp hx
      have := (List.forall₂_iff_get.mp g1).2 i (by simpa using (by omega : i < n)) hi
      have h2 : |m| ≤ m := by rw [abs_of_pos hw]
      simpa using this.1 (by simpa using h2)
    intro u hu
    obtain ⟨i, hi, rfl⟩ := List.mem_iff_getElem.mp hu
    rw [e4 i _ (List.getElem?_eq_getElem hi)]
    rw [e2, List.length_replicate] at hi
    change 0 < Spec.windowMean (Spec.sample cx) k i
    unfold Spec.windowMean
    refine div_pos ?_ (by exact_mod_cast hk)
    have hnn : ∀ j : ℤ, 0 ≤ Spec.sample cx j := by
      intro j
      unfold Spec.sample
      split
      · split
        · rename_i _ a ha
          rw [hcx] at ha
          rw [List.eq_of_mem_replicate (List.mem_of_getElem? ha)]
          exact hw.le
        · exact le_rfl
      · exact le_rfl
    refine Finset.sum_pos' (fun j _ => hnn _) ⟨k / 2, Finset.mem_range.mpr (Nat.div_lt_self hk (by norm_num)), ?_⟩
    rw [sub_add_cancel, sample_natCast, getD_eq (by rw [hcx]; simpa using hi)]
    simp only [hcx, List.getElem_replicate]
    exact hw
  · rw [f1]
    congr 1
    refine List.eq_replicate_iff.mpr ⟨by simpa using f2, fun u hu => ?_⟩
    obtain ⟨-, -, -, g⟩ := f5 le_rfl
    obtain ⟨g1, g2, g3⟩ := g u hu
    ext
    · exact abs_nonpos_iff.mp g1
    · exact abs_nonpos_iff.mp g2
    · exact abs_nonpos_iff.mp g3

/-- Such signals exist. -/
example : ∃ out, filterAndSmooth (List.replicate 3 ⟨1, 0, 0⟩) 25 99.5 = .ok out ∧ out.length = 3 ∧
    (∀ u ∈ out, 0 < u.x) ∧ filterAndSmooth (List.replicate 3 ⟨-1, 0, 0⟩) 25 99.5 = .ok (List.replicate 3 ⟨0, 0, 0⟩) :=
  C63_refuted 3 25 1 99.5 (by norm_num) (by norm_num) (by norm_num) (by norm_num) (by norm_num)

theorem windowMean_neg (f : ℤ → ℝ) (k : ℕ) (i : ℤ) :
    Spec.windowMean (fun j => -f j) k i = -Spec.windowMean f k i := by
  unfold Spec.windowMean
  rw [Finset.sum_neg_distrib, neg_div]

theorem smoothAt_neg (v : List ℝ) (k i : ℕ) : smoothAt (v.map (- ·)) k i = -smoothAt v k i := by
  unfold smoothAt
  rw [sum_range_map, sum_range_map, ← Finset.sum_neg_distrib]
  refine Finset.sum_congr rfl fun j _ => ?_
  rw [← neg_mul]
  congr 1
  rw [← sample_eq, ← sample_eq]
  unfold Spec.sample
  split
  · rw [List.getElem?_map]
    rename_i n _
    cases v[n]? <;> simp
  · simp

theorem npClip_neg {m x : ℝ} (hm : 0 ≤ m) : npClip (-x) (-m) m = -npClip x (-m) m := by
  unfold npClip
  rw [min_def, min_def, max_def, max_def]
  split_ifs <;> linarith

/-- C63 where it holds: when the percentile of the reversed velocities is the same, non-negative one.
`_partial`: false otherwise, see `C63_refuted`. -/
theorem C63_symmetric_partial (v : List Vec3) (k : ℕ) (p m : ℝ) (hm : npPercentile (flat3 v) p = .ok m)
    (hm' : npPercentile (flat3 (v.map fun u => ⟨-u.x, -u.y, -u.z⟩)) p = .ok m) (h0 : 0 ≤ m) (hk : 0 < k) :
    ∃ out, filterAndSmooth v k p = .ok out ∧
      filterAndSmooth (v.map fun u => ⟨-u.x, -u.y, -u.z⟩) k p = .ok (out.map fun u => ⟨-u.x, -u.y, -u.z⟩) := by
  refine ⟨(List.range v.length).map fun (i : ℕ) => ⟨smoothAt ((v.map (clipVec m)).map Vec3.x) k i,
    smoothAt ((v.map (clipVec m)).map Vec3.y) k i, smoothAt ((v.map (clipVec m)).map Vec3.z) k i⟩, ?_, ?_⟩
  · unfold filterAndSmooth
    rw [hm, Py.ok_bind]
    dsimp only
    rw [pyRequire_pos hk.ne', Py.ok_bind]
    rfl
  · unfold filterAndSmooth
    rw [hm', Py.ok_bind]
    dsimp only
    rw [pyRequire_pos hk.ne', Py.ok_bind]
    have key : ∀ (g : Vec3 → ℝ), (∀ u : Vec3, g (clipVec m ⟨-u.x, -u.y, -u.z⟩) = -g (clipVec m u)) → ∀ i : ℕ,
        smoothAt (((v.map fun u => (⟨-u.x, -u.y, -u.z⟩ : Vec3)).map (clipVec m)).map g) k i =
          -smoothAt ((v.map (clipVec m)).map g) k i := by
      intro g hg i
      rw [← smoothAt_neg, List.map_map, List.map_map, List.map_map, List.map_map]
      congr 2
      funext u
      exact hg u
    rw [List.length_map, List.map_map (l := List.range v.length)]
    refine congrArg Except.ok (List.map_congr_left fun i _ => ?_)
    rw [key Vec3.x (fun u => npClip_neg h0), key Vec3.y (fun u => npClip_neg h0), key Vec3.z (fun u => npClip_neg h0)]
    rfl

end HandEye
