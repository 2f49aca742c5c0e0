import Verif.Lemmas.Prefilter
import Verif.Props.DualQuat3

/-! # Properties C32 and C33: prefiltering by screw axis -/

namespace HandEye

theorem pairAxes_ok {w b : DQuat} (hw : ∃ r, w.screwAxis = .ok r) (hb : ∃ r, b.screwAxis = .ok r) :
    ∃ o, pairAxes w b = .ok o := by
  obtain ⟨⟨v, r, t⟩, hw⟩ := hw
  obtain ⟨⟨v', r', t'⟩, hb⟩ := hb
  unfold pairAxes
  rw [hw, Py.ok_bind]
  dsimp only
  rw [hb, Py.ok_bind]
  dsimp only
  split_ifs
  · exact ⟨_, rfl⟩
  · exact ⟨_, rfl⟩

theorem axesOf_some {p : DQuat × DQuat} {a : Vec3 × Vec3} (h : axesOf p = some a) :
    Spec.HasAxis p.1 a.1 ∧ Spec.HasAxis p.2 a.2 := by
  unfold axesOf pairAxes at h
  cases hw : p.1.screwAxis with
  | error e => rw [hw] at h; cases h
  | ok r =>
    obtain ⟨v, ro, t⟩ := r
    cases hb : p.2.screwAxis with
    | error e => rw [hw, hb] at h; cases h
    | ok r' =>
      obtain ⟨v', ro', t'⟩ := r'
      rw [hw, hb, Py.ok_bind] at h
      dsimp only at h
      rw [Py.ok_bind] at h
      dsimp only at h
      split_ifs at h with hc
      · cases h
      · rw [not_or, not_le, not_le] at hc
        cases h
        exact ⟨⟨v, ro, t, hw, hc.1, rfl⟩, ⟨v', ro', t', hb, hc.2, rfl⟩⟩

theorem axesOf_none {p : DQuat × DQuat} (h : axesOf p = none) (hw : ∃ r, p.1.screwAxis = .ok r)
    (hb : ∃ r, p.2.screwAxis = .ok r) : Spec.NoAxis p.1 ∨ Spec.NoAxis p.2 := by
  obtain ⟨⟨v, ro, t⟩, hw⟩ := hw
  obtain ⟨⟨v', ro', t'⟩, hb⟩ := hb
  unfold axesOf pairAxes at h
  rw [hw, hb, Py.ok_bind] at h
  dsimp only at h
  rw [Py.ok_bind] at h
  dsimp only at h
  split_ifs at h with hc
  · exact hc.imp (fun h => ⟨v, ro, t, hw, h⟩) (fun h => ⟨v', ro', t', hb, h⟩)
  · cases h

theorem hasAxis_unique {a : DQuat} {n m : Vec3} (h1 : Spec.HasAxis a n) (h2 : Spec.HasAxis a m) :
    n = m := by
  obtain ⟨v, ro, t, hw, _, rfl⟩ := h1
  obtain ⟨v', ro', t', hw', _, rfl⟩ := h2
  rw [hw] at hw'
  cases hw'
  rfl

/-- C32.  On trajectories of equal length for which the screw axes can be computed (which holds for all
unit dual quaternions), the filter makes a selection of indices: increasing, of usable pairs, no two of
them close; every pair that is not selected is degenerate or close to a selected pair before it.  The
filter returns exactly the selected elements of both lists if there are at least two, and fails the
assertion otherwise. -/
theorem C32_selection (we bh : List DQuat) (thr : ℝ) (hl : we.length = bh.length)
    (hw : ∀ a ∈ we, ∃ r, a.screwAxis = .ok r) (hb : ∀ a ∈ bh, ∃ r, a.screwAxis = .ok r) :
    ∃ idx : List ℕ, idx.Pairwise (· < ·) ∧ (∀ i ∈ idx, Spec.Usable we bh i) ∧
      idx.Pairwise (fun i j => ¬ Spec.Close thr we bh i j) ∧
      (∀ j < we.length, j ∉ idx → Spec.Degenerate we bh j ∨ ∃ i ∈ idx, i < j ∧ Spec.Close thr we bh i j) ∧
      (2 ≤ idx.length → ∃ we' bh', prefilterUsingScrewAxis we bh thr = .ok (we', bh') ∧
        we'.map some = idx.map (we[·]?) ∧ bh'.map some = idx.map (bh[·]?)) ∧
      (idx.length < 2 → prefilterUsingScrewAxis we bh thr = .error .assertion) := by
  set L := we.zip bh with hL
  have hLw : L.map Prod.fst = we := by rw [hL, List.map_fst_zip (by omega)]
  have hLb : L.map Prod.snd = bh := by rw [hL, List.map_snd_zip (by omega)]
  have hLl : L.length = we.length := by rw [hL, List.length_zip]; omega
  have hgw : ∀ (i : ℕ) (p : DQuat × DQuat), L[i]? = some p → we[i]? = some p.1 := fun i p h => by
    rw [← hLw, List.getElem?_map, h]; rfl
  have hgb : ∀ (i : ℕ) (p : DQuat × DQuat), L[i]? = some p → bh[i]? = some p.2 := fun i p h => by
    rw [← hLb, List.getElem?_map, h]; rfl
  have hok : ∀ p ∈ L, (∃ r, p.1.screwAxis = .ok r) ∧ ∃ r, p.2.screwAxis = .ok r := fun p hp =>
    ⟨hw _ (List.of_mem_zip hp).1, hb _ (List.of_mem_zip hp).2⟩
  have hpre := prefilter_eq thr L fun p hp => pairAxes_ok (hok p hp).1 (hok p hp).2
  rw [hLw, hLb] at hpre
  -- the selection with its indices
  set G := greedy (axesOf ∘ Prod.fst) (nearBy thr) L.zipIdx with hG
  have hGL : greedy axesOf (nearBy thr) L = G.map Prod.fst := by
    have := greedy_map axesOf (nearBy thr) Prod.fst L.zipIdx
    rwa [List.zipIdx_map_fst] at this
  have hsub : G.Sublist L.zipIdx := greedy_sublist _ _ _
  have hmem : ∀ p i, (p, i) ∈ L.zipIdx → L[i]? = some p := fun p i h =>
    List.mk_mem_zipIdx_iff_getElem?.mp h
  have hord : L.zipIdx.Pairwise (fun p q => p.2 < q.2) := by
    have h1 : (L.zipIdx.map Prod.snd).Pairwise (· < ·) := by
      rw [List.zipIdx_map_snd]; exact List.pairwise_lt_range'
    exact List.pairwise_map.mp h1
  have hnodup : L.zipIdx.Nodup := hord.imp fun h e => by rw [e] at h; exact lt_irrefl _ h
  refine ⟨G.map Prod.snd, ?_, ?_, ?_, ?_, ?_, ?_⟩
  · exact List.pairwise_map.mpr (hord.sublist hsub)
  · intro i hi
    obtain ⟨⟨p, k⟩, hp, rfl⟩ := List.mem_map.mp hi
    obtain ⟨a, ha⟩ := Option.isSome_iff_exists.mp (greedy_usable _ _ _ _ hp)
    obtain ⟨h1, h2⟩ := axesOf_some ha
    have hk := hmem p k (hsub.subset hp)
    exact ⟨p.1, p.2, a.1, a.2, hgw k p hk, hgb k p hk, h1, h2⟩
  · rw [List.pairwise_map]
    refine (greedy_pairwise (axesOf ∘ Prod.fst) (nearBy thr) L.zipIdx).imp_of_mem ?_
    rintro ⟨p, i⟩ ⟨q, j⟩ hp hq h ⟨w, b, w', b', n, m, n', m', e1, e2, e3, e4, a1, a2, a3, a4, hc⟩
    obtain ⟨a, ha⟩ := Option.isSome_iff_exists.mp (greedy_usable _ _ _ _ hp)
    obtain ⟨c, hc'⟩ := Option.isSome_iff_exists.mp (greedy_usable _ _ _ _ hq)
    have hi := hmem p i (hsub.subset hp)
    have hj := hmem q j (hsub.subset hq)
    have := h a c ha hc'
    apply this
    obtain ⟨h1, h2⟩ := axesOf_some ha
    obtain ⟨h3, h4⟩ := axesOf_some hc'
    rw [hgw i p hi] at e1; cases e1
    rw [hgb i p hi] at e2; cases e2
    rw [hgw j q hj] at e3; cases e3
    rw [hgb j q hj] at e4; cases e4
    rw [hasAxis_unique a1 h1, hasAxis_unique a2 h2, hasAxis_unique a3 h3, hasAxis_unique a4 h4] at hc
    exact hc
  · intro j hj hnj
    obtain ⟨q, hq⟩ : ∃ q, L[j]? = some q := ⟨L[j], by simp⟩
    have hqm : (q, j) ∈ L.zipIdx := List.mk_mem_zipIdx_iff_getElem?.mpr hq
    have hqG : (q, j) ∉ G := fun h => hnj (List.mem_map.mpr ⟨_, h, rfl⟩)
    have hqL : q ∈ L := List.mem_of_getElem? hq
    rcases greedy_dropped (axesOf ∘ Prod.fst) (nearBy thr) L.zipIdx hnodup (q, j) hqm hqG with
      h | ⟨⟨p, i⟩, hp, hs, a, c, ha, hc, hn⟩
    · exact Or.inl ⟨q.1, q.2, hgw j q hq, hgb j q hq, axesOf_none h (hok q hqL).1 (hok q hqL).2⟩
    · right
      have hi := hmem p i (hsub.subset hp)
      obtain ⟨h1, h2⟩ := axesOf_some ha
      obtain ⟨h3, h4⟩ := axesOf_some hc
      refine ⟨i, List.mem_map.mpr ⟨_, hp, rfl⟩, ?_, p.1, p.2, q.1, q.2, a.1, a.2, c.1, c.2,
        hgw i p hi, hgb i p hi, hgw j q hq, hgb j q hq, h1, h2, h3, h4, hn⟩
      have := hord.sublist hs
      simpa using this
  · intro h2
    refine ⟨(greedy axesOf (nearBy thr) L).map Prod.fst, (greedy axesOf (nearBy thr) L).map Prod.snd,
      ?_, ?_, ?_⟩
    · rw [hpre, if_pos (by rw [hGL]; simpa using h2)]
    · rw [hGL, List.map_map, List.map_map, List.map_map]
      apply List.map_congr_left
      rintro ⟨p, i⟩ hp
      exact (hgw i p (hmem p i (hsub.subset hp))).symm
    · rw [hGL, List.map_map, List.map_map, List.map_map]
      apply List.map_congr_left
      rintro ⟨p, i⟩ hp
      exact (hgb i p (hmem p i (hsub.subset hp))).symm
  · intro h2
    rw [hpre, if_neg (by rw [hGL]; simpa using h2)]

/-- For a unit dual quaternion that rotates (numerically), the axis of the filter is the rotation axis. -/
theorem hasAxis_rotation {a : DQuat} (ha : Spec.IsUnit a) {s : ℝ} (hs : 1e-12 < s)
    (hv : a.rot.x ^ 2 + a.rot.y ^ 2 + a.rot.z ^ 2 = s ^ 2) :
    Spec.HasAxis a ⟨a.rot.x / s, a.rot.y / s, a.rot.z / s⟩ := by
  have hs0 : 0 < s := lt_trans (by norm_num) hs
  obtain ⟨h0, h1⟩ := Quat.w_mem (DQuat.IsUnit.rot ha)
  have hd : a.rot.x ^ 2 + a.rot.y ^ 2 + a.rot.z ^ 2 + a.rot.w ^ 2 = 1 := by
    have := DQuat.IsUnit.rot ha
    rw [Quat.dot] at this
    linear_combination this
  have hw : a.rot.w ≠ -1 := by
    intro h
    rw [h] at hd
    nlinarith
  have hsin : Real.sin (Real.arccos a.rot.w) = s := by
    rw [Real.sin_arccos, show 1 - a.rot.w ^ 2 = s ^ 2 by linarith, Real.sqrt_sq hs0.le]
  have hac : s ≤ Real.arccos a.rot.w := by
    rw [← hsin]; exact Real.sin_le (Real.arccos_nonneg _)
  have hpi := Real.pi_pos
  have hrot : 360 / Real.pi * Real.arccos a.rot.w > 1e-12 := by
    have h360 : 1 ≤ 360 / Real.pi := by
      rw [le_div_iff₀ hpi]; linarith [Real.pi_le_four]
    nlinarith [Real.arccos_nonneg a.rot.w]
  have hn : (⟨a.rot.x / s, a.rot.y / s, a.rot.z / s⟩ : Vec3).norm = 1 := by
    rw [Vec3.norm, Vec3.dot, Real.sqrt_eq_one]
    field_simp
    linarith
  refine ⟨⟨a.rot.x / s, a.rot.y / s, a.rot.z / s⟩, 360 / Real.pi * Real.arccos a.rot.w,
    -2 * a.dual.w / s, ?_, ?_, ?_⟩
  · rw [screwAxis_eq ha]
    dsimp only
    rw [if_neg hw, if_pos hrot, hsin]
  · rw [hn]; norm_num
  · rw [hn]; ext <;> simp

/-- C32 for unit dual quaternions, where the screw axes can always be computed: the outcome is a result
or the failed assertion. -/
theorem C32_unit_trajectories (we bh : List DQuat) (thr : ℝ) (hl : we.length = bh.length)
    (hw : ∀ a ∈ we, Spec.IsUnit a) (hb : ∀ a ∈ bh, Spec.IsUnit a) :
    (∃ we' bh', prefilterUsingScrewAxis we bh thr = .ok (we', bh') ∧ we'.length = bh'.length ∧
      2 ≤ we'.length ∧ we'.Sublist we ∧ bh'.Sublist bh ∧ (we'.zip bh').Sublist (we.zip bh)) ∨
    prefilterUsingScrewAxis we bh thr = .error .assertion := by
  have hax : ∀ a, Spec.IsUnit a → ∃ r, a.screwAxis = .ok r := fun a ha => by
    obtain ⟨_, _, _, h, _⟩ := C18_parameters a ha
    exact ⟨_, h⟩
  have hLw : (we.zip bh).map Prod.fst = we := List.map_fst_zip (by omega)
  have hLb : (we.zip bh).map Prod.snd = bh := List.map_snd_zip (by omega)
  have hpre := prefilter_eq thr (we.zip bh) fun p hp =>
    pairAxes_ok (hax _ (hw _ (List.of_mem_zip hp).1)) (hax _ (hb _ (List.of_mem_zip hp).2))
  rw [hLw, hLb] at hpre
  have hsub := greedy_sublist axesOf (nearBy thr) (we.zip bh)
  split_ifs at hpre with h2
  · left
    refine ⟨_, _, hpre, by simp, by simpa using h2, ?_, ?_, ?_⟩
    · have := hsub.map Prod.fst; rwa [hLw] at this
    · have := hsub.map Prod.snd; rwa [hLb] at this
    · have hz : ∀ G : List (DQuat × DQuat), (G.map Prod.fst).zip (G.map Prod.snd) = G := fun G => by
        induction G with
        | nil => rfl
        | cons p G ih => simp [ih]
      rw [hz]; exact hsub
  · exact Or.inr hpre

theorem axesOf_eq {w b : DQuat} {n m : Vec3} (hw : Spec.HasAxis w n) (hb : Spec.HasAxis b m) :
    axesOf (w, b) = some (n, m) := by
  obtain ⟨v, ro, t, hw, h1, rfl⟩ := hw
  obtain ⟨v', ro', t', hb, h2, rfl⟩ := hb
  unfold axesOf pairAxes
  rw [hw, hb]
  change (match (if v.norm ≤ 1e-12 ∨ v'.norm ≤ 1e-12 then (pure none : Py (Option (Vec3 × Vec3)))
    else pure (some _)) with | .ok o => o | .error _ => none) = _
  rw [if_neg (by rw [not_or, not_le, not_le]; exact ⟨h1, h2⟩)]
  rfl

/-- Two rotations about x, one about y: the second is dropped. -/
theorem sample_prefilter :
    prefilterUsingScrewAxis
      [⟨⟨0.6, 0, 0, 0.8⟩, ⟨0, 0, 0, 0⟩⟩, ⟨⟨0.8, 0, 0, 0.6⟩, ⟨0, 1, 0, 0⟩⟩, ⟨⟨0, 0.6, 0, 0.8⟩, ⟨0, 0, 1, 0⟩⟩]
      [⟨⟨0, 0.6, 0, 0.8⟩, ⟨0, 0, 0, 0⟩⟩, ⟨⟨0, 0.8, 0, 0.6⟩, ⟨0, 0, 3, 0⟩⟩, ⟨⟨0, 0, 0.6, 0.8⟩, ⟨2, 0, 0, 0⟩⟩]
      0.95 = .ok
      ([⟨⟨0.6, 0, 0, 0.8⟩, ⟨0, 0, 0, 0⟩⟩, ⟨⟨0, 0.6, 0, 0.8⟩, ⟨0, 0, 1, 0⟩⟩],
       [⟨⟨0, 0.6, 0, 0.8⟩, ⟨0, 0, 0, 0⟩⟩, ⟨⟨0, 0, 0.6, 0.8⟩, ⟨2, 0, 0, 0⟩⟩]) := by
  have u1 := hasAxis_rotation (a := ⟨⟨0.6, 0, 0, 0.8⟩, ⟨0, 0, 0, 0⟩⟩) (s := 0.6)
    (by rw [DQuat.isUnit_iff]; norm_num [Quat.dot]) (by norm_num) (by norm_num)
  have u2 := hasAxis_rotation (a := ⟨⟨0.8, 0, 0, 0.6⟩, ⟨0, 1, 0, 0⟩⟩) (s := 0.8)
    (by rw [DQuat.isUnit_iff]; norm_num [Quat.dot]) (by norm_num) (by norm_num)
  have u3 := hasAxis_rotation (a := ⟨⟨0, 0.6, 0, 0.8⟩, ⟨0, 0, 1, 0⟩⟩) (s := 0.6)
    (by rw [DQuat.isUnit_iff]; norm_num [Quat.dot]) (by norm_num) (by norm_num)
  have v1 := hasAxis_rotation (a := ⟨⟨0, 0.6, 0, 0.8⟩, ⟨0, 0, 0, 0⟩⟩) (s := 0.6)
    (by rw [DQuat.isUnit_iff]; norm_num [Quat.dot]) (by norm_num) (by norm_num)
  have v2 := hasAxis_rotation (a := ⟨⟨0, 0.8, 0, 0.6⟩, ⟨0, 0, 3, 0⟩⟩) (s := 0.8)
    (by rw [DQuat.isUnit_iff]; norm_num [Quat.dot]) (by norm_num) (by norm_num)
  have v3 := hasAxis_rotation (a := ⟨⟨0, 0, 0.6, 0.8⟩, ⟨2, 0, 0, 0⟩⟩) (s := 0.6)
    (by rw [DQuat.isUnit_iff]; norm_num [Quat.dot]) (by norm_num) (by norm_num)
  have a1 := axesOf_eq u1 v1
  have a2 := axesOf_eq u2 v2
  have a3 := axesOf_eq u3 v3
  have hok : ∀ {w b n m}, Spec.HasAxis w n → Spec.HasAxis b m → ∃ o, pairAxes w b = .ok o := by
    rintro w b n m ⟨v, ro, t, hw, _⟩ ⟨v', ro', t', hb, _⟩
    exact pairAxes_ok ⟨_, hw⟩ ⟨_, hb⟩
  have hpre := prefilter_eq 0.95 [(⟨⟨0.6, 0, 0, 0.8⟩, ⟨0, 0, 0, 0⟩⟩, ⟨⟨0, 0.6, 0, 0.8⟩, ⟨0, 0, 0, 0⟩⟩),
    (⟨⟨0.8, 0, 0, 0.6⟩, ⟨0, 1, 0, 0⟩⟩, ⟨⟨0, 0.8, 0, 0.6⟩, ⟨0, 0, 3, 0⟩⟩),
    (⟨⟨0, 0.6, 0, 0.8⟩, ⟨0, 0, 1, 0⟩⟩, ⟨⟨0, 0, 0.6, 0.8⟩, ⟨2, 0, 0, 0⟩⟩)] (by
      intro p hp
      simp only [List.mem_cons, List.not_mem_nil, or_false] at hp
      rcases hp with rfl | rfl | rfl
      · exact hok u1 v1
      · exact hok u2 v2
      · exact hok u3 v3)
  simp only [List.map_cons, List.map_nil] at hpre
  rw [hpre, greedy_some _ _ a1, List.filter_cons, List.filter_cons, List.filter_nil]
  have s2 : survives axesOf (nearBy 0.95) (⟨0.6 / 0.6, 0 / 0.6, 0 / 0.6⟩, ⟨0 / 0.6, 0.6 / 0.6, 0 / 0.6⟩)
      (⟨⟨0.8, 0, 0, 0.6⟩, ⟨0, 1, 0, 0⟩⟩, ⟨⟨0, 0.8, 0, 0.6⟩, ⟨0, 0, 3, 0⟩⟩) = false := by
    rw [survives, a2]
    simp only [Bool.not_eq_false', decide_eq_true_eq]
    left
    norm_num [Vec3.dot]
  have s3 : survives axesOf (nearBy 0.95) (⟨0.6 / 0.6, 0 / 0.6, 0 / 0.6⟩, ⟨0 / 0.6, 0.6 / 0.6, 0 / 0.6⟩)
      (⟨⟨0, 0.6, 0, 0.8⟩, ⟨0, 0, 1, 0⟩⟩, ⟨⟨0, 0, 0.6, 0.8⟩, ⟨2, 0, 0, 0⟩⟩) = true := by
    rw [survives, a3]
    simp only [Bool.not_eq_true', nearBy]
    norm_num [Vec3.dot]
  rw [s2, s3]
  simp only [Bool.false_eq_true, if_false, if_true]
  rw [greedy_some _ _ a3, List.filter_nil, greedy]
  rfl

/-- C33.  Filtering the output of the filter changes nothing. -/
theorem C33_idempotent (we bh we' bh' : List DQuat) (thr : ℝ) (hl : we.length = bh.length)
    (hw : ∀ a ∈ we, ∃ r, a.screwAxis = .ok r) (hb : ∀ a ∈ bh, ∃ r, a.screwAxis = .ok r)
    (h : prefilterUsingScrewAxis we bh thr = .ok (we', bh')) :
    prefilterUsingScrewAxis we' bh' thr = .ok (we', bh') := by
  set L := we.zip bh with hL
  have hLw : L.map Prod.fst = we := by rw [hL, List.map_fst_zip (by omega)]
  have hLb : L.map Prod.snd = bh := by rw [hL, List.map_snd_zip (by omega)]
  have hok : ∀ p ∈ L, ∃ o, pairAxes p.1 p.2 = .ok o := fun p hp =>
    pairAxes_ok (hw _ (List.of_mem_zip hp).1) (hb _ (List.of_mem_zip hp).2)
  rw [← hLw, ← hLb, prefilter_eq thr L hok] at h
  split_ifs at h with h2
  cases h
  rw [prefilter_eq thr _ fun p hp => hok p ((greedy_sublist _ _ L).subset hp),
    greedy_of_pairwise _ _ _ (greedy_usable _ _ L) (greedy_pairwise _ _ L), if_pos h2]

example : prefilterUsingScrewAxis
    [⟨⟨0.6, 0, 0, 0.8⟩, ⟨0, 0, 0, 0⟩⟩, ⟨⟨0, 0.6, 0, 0.8⟩, ⟨0, 0, 1, 0⟩⟩]
    [⟨⟨0, 0.6, 0, 0.8⟩, ⟨0, 0, 0, 0⟩⟩, ⟨⟨0, 0, 0.6, 0.8⟩, ⟨2, 0, 0, 0⟩⟩] 0.95 = .ok
      ([⟨⟨0.6, 0, 0, 0.8⟩, ⟨0, 0, 0, 0⟩⟩, ⟨⟨0, 0.6, 0, 0.8⟩, ⟨0, 0, 1, 0⟩⟩],
       [⟨⟨0, 0.6, 0, 0.8⟩, ⟨0, 0, 0, 0⟩⟩, ⟨⟨0, 0, 0.6, 0.8⟩, ⟨2, 0, 0, 0⟩⟩]) := by
  have hax : ∀ a : DQuat, Spec.IsUnit a → ∃ r, a.screwAxis = .ok r := fun a ha => by
    obtain ⟨_, _, _, h, _⟩ := C18_parameters a ha
    exact ⟨_, h⟩
  refine C33_idempotent _ _ _ _ 0.95 ?_ ?_ ?_ sample_prefilter
  · rfl
  · intro a ha
    simp only [List.mem_cons, List.not_mem_nil, or_false] at ha
    rcases ha with rfl | rfl | rfl <;> exact hax _ (by rw [DQuat.isUnit_iff]; norm_num [Quat.dot])
  · intro a ha
    simp only [List.mem_cons, List.not_mem_nil, or_false] at ha
    rcases ha with rfl | rfl | rfl <;> exact hax _ (by rw [DQuat.isUnit_iff]; norm_num [Quat.dot])

end HandEye
