import Verif.Lemmas.RoundedPrefilter
import Verif.Props.Prefilter
import Verif.Props.RoundedEval3

/-! # Property C118: rounding in the prefilter -/

namespace HandEye

variable {A : Arith} {u : ℝ} {T : Trig}

/-- **C118**: with any rounding, and whatever the functions of the library return, the prefilter keeps some of the pairs, in their order.  So it is one of the
prefilters of C116 and C117. -/
theorem C118_keeps (A : Arith) (T : Trig) (cfg : HandEyeConfig) : Spec.KeepsPairs (A.filteredPoses T cfg) := by
  intro bs ws r hl h
  unfold Arith.filteredPoses at h
  split at h
  · obtain ⟨q, h1, h⟩ := Py.bind_eq_ok.mp h
    obtain ⟨_, _, h⟩ := Py.bind_eq_ok.mp h
    cases h
    unfold Arith.prefilter at h1
    obtain ⟨q, h2, h1⟩ := Py.bind_eq_ok.mp h1
    obtain ⟨_, _, h1⟩ := Py.bind_eq_ok.mp h1
    cases h1
    obtain ⟨k1, k2⟩ := keepDistinct_keeps _ _ _ _ _ h2 hl.symm
    exact ⟨k1.symm, k2⟩
  · cases h
    exact ⟨hl, List.Sublist.refl _⟩

/-- The direction of an axis that was found is that of the vector part. -/
def IsDirection (A : Arith) (u : ℝ) (T : Trig) (a : DQuat) (n : Quat) : Prop :=
  (Spec.along A T a).slice.toH ≠ 0 ∧ ‖n.toH - ‖(Spec.along A T a).slice.toH‖⁻¹ • (Spec.along A T a).slice.toH‖ ≤ 13.3 * u

theorem IsDirection.pos {a : DQuat} {n : Quat} (h : IsDirection A u T a n) : 0 < Spec.vecLength (Spec.along A T a) := by
  rw [vecLength_eq]
  exact norm_pos_iff.mpr h.1

theorem IsDirection.product (hA : Spec.Machine u A) {a b : DQuat} {n m : Quat} (h : IsDirection A u T a n) (h' : IsDirection A u T b m) :
    |A.dot n m - Spec.vecCosine (Spec.along A T a) (Spec.along A T b)| ≤ 33 * u := by
  rw [vecCosine_eq]
  have e : ∀ v : Quaternion ℝ, v ≠ 0 → ‖‖v‖⁻¹ • v‖ = 1 := fun v hv => by
    rw [norm_smul, norm_inv, norm_norm, inv_mul_cancel₀ (norm_ne_zero_iff.mpr hv)]
  exact product_near hA (e _ h.1) (e _ h'.1) h.2 h'.2

theorem roundedAxes (hA : Spec.Machine u A) (hT : Spec.SinePositive A T) (w b : DQuat) : ∃ o, A.pairAxes T w b = .ok o ∧
    (o = none → Spec.Still A T w ∨ Spec.Still A T b) ∧ ∀ a, o = some a → IsDirection A u T w a.1 ∧ IsDirection A u T b a.2 := by
  obtain ⟨q, h1, h2, h3⟩ := screwAxis_near hA hT w
  obtain ⟨p, k1, k2, k3⟩ := screwAxis_near hA hT b
  unfold Arith.pairAxes
  rw [h1, Py.ok_bind, k1, Py.ok_bind]
  split_ifs with hc
  · exact ⟨none, rfl, fun _ => hc.imp h2 k2, fun a ha => by cases ha⟩
  · rw [not_or, not_le, not_le] at hc
    refine ⟨_, rfl, fun h => (by cases h), fun a ha => ?_⟩
    cases ha
    exact ⟨h3 hc.1, k3 hc.2⟩

/-- **C118**: in floating-point arithmetic with unit roundoff `u`, with a sine that is positive between 0 and 180 degrees, the prefilter makes a selection of
indices: increasing; the axes of no two selected pairs enclose a cosine above the threshold by more than `33 u`, in either trajectory; every pair that is not selected
hardly moves, in one of the trajectories, or encloses with a selected pair before it a cosine that is not below the threshold by more than `33 u`.  The filter
returns exactly the selected elements of both lists if there are at least two, and fails the assertion otherwise. -/
theorem C118_selection (hA : Spec.Machine u A) (hT : Spec.SinePositive A T) (we bh : List DQuat) (thr : ℝ) (hl : we.length = bh.length) :
    ∃ idx : List ℕ, idx.Pairwise (· < ·) ∧
      (∀ i ∈ idx, ∃ w b, we[i]? = some w ∧ bh[i]? = some b ∧ 0 < Spec.vecLength (Spec.along A T w) ∧ 0 < Spec.vecLength (Spec.along A T b)) ∧
      idx.Pairwise (fun i j => ¬ Spec.Alike A T (thr + 33 * u) we bh i j) ∧
      (∀ j < we.length, j ∉ idx → (∃ w b, we[j]? = some w ∧ bh[j]? = some b ∧ (Spec.Still A T w ∨ Spec.Still A T b)) ∨
        ∃ i ∈ idx, i < j ∧ Spec.Alike A T (thr - 33 * u) we bh i j) ∧
      (2 ≤ idx.length → ∃ we' bh', A.prefilter T we bh thr = .ok (we', bh') ∧
        we'.map some = idx.map (we[·]?) ∧ bh'.map some = idx.map (bh[·]?)) ∧
      (idx.length < 2 → A.prefilter T we bh thr = .error .assertion) := by
  set L := we.zip bh with hL
  have hLw : L.map Prod.fst = we := by rw [hL, List.map_fst_zip (by omega)]
  have hLb : L.map Prod.snd = bh := by rw [hL, List.map_snd_zip (by omega)]
  have hLl : L.length = we.length := by rw [hL, List.length_zip]; omega
  have hgw : ∀ (i : ℕ) (p : DQuat × DQuat), L[i]? = some p → we[i]? = some p.1 := fun i p h => by
    rw [← hLw, List.getElem?_map, h]; rfl
  have hgb : ∀ (i : ℕ) (p : DQuat × DQuat), L[i]? = some p → bh[i]? = some p.2 := fun i p h => by
    rw [← hLb, List.getElem?_map, h]; rfl
  have hax : ∀ (p : DQuat × DQuat) a, axesOption (A.pairAxes T) p = some a → IsDirection A u T p.1 a.1 ∧ IsDirection A u T p.2 a.2 := by
    intro p a ha
    obtain ⟨o, h1, -, h3⟩ := roundedAxes hA hT p.1 p.2
    rw [axesOption_ok h1] at ha
    exact h3 a ha
  have hnone : ∀ (p : DQuat × DQuat), axesOption (A.pairAxes T) p = none → Spec.Still A T p.1 ∨ Spec.Still A T p.2 := by
    intro p ha
    obtain ⟨o, h1, h2, -⟩ := roundedAxes hA hT p.1 p.2
    rw [axesOption_ok h1] at ha
    exact h2 ha
  have hk := keepDistinct_eq (axes := A.pairAxes T) (close := A.closeAxes thr) [] L (fun p _ => by
    obtain ⟨o, h1, -⟩ := roundedAxes hA hT p.1 p.2
    exact ⟨o, h1⟩) we.length hLl.le
  simp only [List.length_nil, List.nil_append, Nat.zero_add] at hk
  rw [hLw, hLb] at hk
  set near : Quat × Quat → Quat × Quat → Prop := fun a b => A.closeAxes thr a b = true with hnear
  -- the selection with its indices
  set G := greedy (axesOption (A.pairAxes T) ∘ Prod.fst) near L.zipIdx with hG
  have hGL : greedy (axesOption (A.pairAxes T)) near L = G.map Prod.fst := by
    have := greedy_map (axesOption (A.pairAxes T)) near Prod.fst L.zipIdx
    rwa [List.zipIdx_map_fst] at this
  have hsub : G.Sublist L.zipIdx := greedy_sublist _ _ _
  have hmem : ∀ p i, (p, i) ∈ L.zipIdx → L[i]? = some p := fun p i h =>
    List.mk_mem_zipIdx_iff_getElem?.mp h
  have hord : L.zipIdx.Pairwise (fun p q => p.2 < q.2) := by
    have h1 : (L.zipIdx.map Prod.snd).Pairwise (· < ·) := by
      rw [List.zipIdx_map_snd]; exact List.pairwise_lt_range'
    exact List.pairwise_map.mp h1
  have hnodup : L.zipIdx.Nodup := hord.imp fun h e => by rw [e] at h; exact lt_irrefl _ h
  refine ⟨G.map Prod.snd, ?_, ?_, ?_, ?_, ?_, ?_⟩
  · exact List.pairwise_map.mpr (hord.sublist hsub)
  · intro i hi
    obtain ⟨⟨p, k⟩, hp, rfl⟩ := List.mem_map.mp hi
    obtain ⟨a, ha⟩ := Option.isSome_iff_exists.mp (greedy_usable _ _ _ _ hp)
    obtain ⟨h1, h2⟩ := hax p a ha
    have hk := hmem p k (hsub.subset hp)
    exact ⟨p.1, p.2, hgw k p hk, hgb k p hk, h1.pos, h2.pos⟩
  · rw [List.pairwise_map]
    refine (greedy_pairwise (axesOption (A.pairAxes T) ∘ Prod.fst) near L.zipIdx).imp_of_mem ?_
    rintro ⟨p, i⟩ ⟨q, j⟩ hp hq h ⟨w, b, w', b', e1, e2, e3, e4, hc⟩
    obtain ⟨a, ha⟩ := Option.isSome_iff_exists.mp (greedy_usable _ _ _ _ hp)
    obtain ⟨c, hc'⟩ := Option.isSome_iff_exists.mp (greedy_usable _ _ _ _ hq)
    have hi := hmem p i (hsub.subset hp)
    have hj := hmem q j (hsub.subset hq)
    apply h a c ha hc'
    obtain ⟨h1, h2⟩ := hax p a ha
    obtain ⟨h3, h4⟩ := hax q c hc'
    rw [hgw i p hi] at e1; cases e1
    rw [hgb i p hi] at e2; cases e2
    rw [hgw j q hj] at e3; cases e3
    rw [hgb j q hj] at e4; cases e4
    rw [hnear]
    simp only [Arith.closeAxes, decide_eq_true_eq]
    refine hc.imp (fun hc => ?_) fun hc => ?_
    · linarith [(abs_le.mp (h1.product hA h3)).1]
    · linarith [(abs_le.mp (h2.product hA h4)).1]
  · intro j hj hnj
    obtain ⟨q, hq⟩ : ∃ q, L[j]? = some q := ⟨L[j], by simp⟩
    have hqm : (q, j) ∈ L.zipIdx := List.mk_mem_zipIdx_iff_getElem?.mpr hq
    have hqG : (q, j) ∉ G := fun h => hnj (List.mem_map.mpr ⟨_, h, rfl⟩)
    rcases greedy_dropped (axesOption (A.pairAxes T) ∘ Prod.fst) near L.zipIdx hnodup (q, j) hqm hqG with
      h | ⟨⟨p, i⟩, hp, hs, a, c, ha, hc, hn⟩
    · exact Or.inl ⟨q.1, q.2, hgw j q hq, hgb j q hq, hnone q h⟩
    · right
      have hi := hmem p i (hsub.subset hp)
      obtain ⟨h1, h2⟩ := hax p a ha
      obtain ⟨h3, h4⟩ := hax q c hc
      refine ⟨i, List.mem_map.mpr ⟨_, hp, rfl⟩, by simpa using hord.sublist hs, p.1, p.2, q.1, q.2, hgw i p hi, hgb i p hi, hgw j q hq, hgb j q hq, ?_⟩
      rw [hnear] at hn
      simp only [Arith.closeAxes, decide_eq_true_eq] at hn
      refine hn.imp (fun hn => ?_) fun hn => ?_
      · linarith [(abs_le.mp (h1.product hA h3)).2]
      · linarith [(abs_le.mp (h2.product hA h4)).2]
  · intro h2
    refine ⟨(greedy (axesOption (A.pairAxes T)) near L).map Prod.fst, (greedy (axesOption (A.pairAxes T)) near L).map Prod.snd, ?_, ?_, ?_⟩
    · unfold Arith.prefilter
      rw [hk, Py.ok_bind, pyAssert_pos (by rw [hGL]; simpa using h2), Py.ok_bind, Py.pure_eq]
    · rw [hGL, List.map_map, List.map_map, List.map_map]
      apply List.map_congr_left
      rintro ⟨p, i⟩ hp
      exact (hgw i p (hmem p i (hsub.subset hp))).symm
    · rw [hGL, List.map_map, List.map_map, List.map_map]
      apply List.map_congr_left
      rintro ⟨p, i⟩ hp
      exact (hgb i p (hmem p i (hsub.subset hp))).symm
  · intro h2
    unfold Arith.prefilter
    rw [hk, Py.ok_bind, pyAssert_neg (by rw [hGL]; simpa using h2)]
    rfl

/-! ## Without rounding -/

/-- The functions of the library over the real numbers. -/
noncomputable def realTrig : Trig := ⟨Real.pi, npDegrees, fun x => npMod x 360, Real.sin⟩

/-- A vector as an array of four numbers. -/
def Vec3.padded (v : Vec3) : Quat := ⟨v.x, v.y, v.z, 0⟩

theorem exact_screwAxis {a : DQuat} {v : Vec3} {r t : ℝ} (h : a.screwAxis = .ok (v, r, t)) : exactArith.screwAxis realTrig a = .ok v.padded := by
  unfold DQuat.screwAxis at h
  obtain ⟨ac, h1, h⟩ := Py.bind_eq_ok.mp h
  unfold npArccos at h1
  split_ifs at h1 with hw
  cases h1
  have hr : exactArith.rotation realTrig a.rot.w = some (npMod (2 * npDegrees (Real.arccos a.rot.w)) 360) := by
    unfold Arith.rotation
    rw [if_pos hw]
    rfl
  unfold Arith.screwAxis
  rw [hr]
  unfold Arith.axisFor
  dsimp only at h ⊢
  generalize npMod (2 * npDegrees (Real.arccos a.rot.w)) 360 = ro at h ⊢
  have hn : exactArith.fl (2 * exactArith.norm a.dual.slice) = 2 * Real.sqrt (a.dual.x ^ 2 + a.dual.y ^ 2 + a.dual.z ^ 2) := by
    simp [Arith.norm, exactArith, Quat.slice, sq]
  split_ifs at h ⊢ with hro ht
  · obtain ⟨_, _, h⟩ := Py.bind_eq_ok.mp h
    obtain ⟨x, hx, h⟩ := Py.bind_eq_ok.mp h
    obtain ⟨y, hy, h⟩ := Py.bind_eq_ok.mp h
    obtain ⟨z, hz, h⟩ := Py.bind_eq_ok.mp h
    cases h
    have hs : ∀ ro, exactArith.sineOfHalf realTrig ro = Real.sin (ro / 2 * Real.pi / 180) := fun _ => rfl
    unfold npDiv at hx hy hz
    split_ifs at hx hy hz with h0
    cases hx
    cases hy
    cases hz
    unfold Arith.divScalar
    rw [hs, if_neg h0]
    simp [Arith.quot, exactArith, Quat.slice, Vec3.padded]
  · cases h
    unfold Arith.slideAxis
    rw [hn, if_pos ht]
    simp [Arith.quot, Arith.smul, exactArith, Quat.slice, Vec3.padded]
  · cases h
    unfold Arith.slideAxis
    rw [hn, if_neg ht]
    rfl

theorem exact_pairAxes {w b : DQuat} {o : Option (Vec3 × Vec3)} (h : pairAxes w b = .ok o) :
    exactArith.pairAxes realTrig w b = .ok (o.map fun a => (a.1.padded, a.2.padded)) := by
  unfold pairAxes at h
  obtain ⟨⟨v, r, t⟩, h1, h⟩ := Py.bind_eq_ok.mp h
  obtain ⟨⟨v', r', t'⟩, h2, h⟩ := Py.bind_eq_ok.mp h
  have hn : ∀ v : Vec3, exactArith.norm v.padded = v.norm := by
    intro v
    simp [Arith.norm, exactArith, Vec3.padded, Vec3.norm, Vec3.dot]
  have hq : ∀ v : Vec3, exactArith.quot v.padded v.norm = ((1 / v.norm) • v).padded := by
    intro v
    have e : ((1 / v.norm) • v : Vec3) = ⟨1 / v.norm * v.x, 1 / v.norm * v.y, 1 / v.norm * v.z⟩ := rfl
    rw [e]
    simp only [Arith.quot, exactArith, Vec3.padded, id, div_eq_inv_mul, mul_one, mul_zero]
  unfold Arith.pairAxes
  rw [exact_screwAxis h1, Py.ok_bind, exact_screwAxis h2, Py.ok_bind, hn, hn, hq, hq]
  dsimp only at h
  split_ifs at h ⊢ with hc
  · cases h; rfl
  · cases h; rfl

theorem exact_closeAxes (thr : ℝ) (a b : Vec3 × Vec3) :
    nearBy thr a b ↔ exactArith.closeAxes thr (a.1.padded, a.2.padded) (b.1.padded, b.2.padded) = true := by
  simp [nearBy, Arith.closeAxes, exactArith, Vec3.padded, Vec3.dot]

/-- **C118**, without rounding: on trajectories of equal length for which the screw axes can be computed, the model is that over the real numbers. -/
theorem C118_exact (we bh : List DQuat) (thr : ℝ) (hl : we.length = bh.length) (hw : ∀ a ∈ we, ∃ r, a.screwAxis = .ok r)
    (hb : ∀ a ∈ bh, ∃ r, a.screwAxis = .ok r) : exactArith.prefilter realTrig we bh thr = prefilterUsingScrewAxis we bh thr := by
  have hok : ∀ p ∈ we.zip bh, ∃ o, pairAxes p.1 p.2 = .ok o := fun p hp => pairAxes_ok (hw _ (List.of_mem_zip hp).1) (hb _ (List.of_mem_zip hp).2)
  have hok' : ∀ p ∈ we.zip bh, ∃ o, exactArith.pairAxes realTrig p.1 p.2 = .ok o := fun p hp => by
    obtain ⟨o, ho⟩ := hok p hp
    exact ⟨_, exact_pairAxes ho⟩
  have hpre := prefilter_eq thr (we.zip bh) hok
  have hk := keepDistinct_eq (axes := exactArith.pairAxes realTrig) (close := exactArith.closeAxes thr) [] (we.zip bh) hok' we.length
    (by rw [List.length_zip]; omega)
  rw [List.map_fst_zip (by omega), List.map_snd_zip (by omega)] at hpre
  simp only [List.length_nil, List.nil_append, Nat.zero_add] at hk
  rw [List.map_fst_zip (by omega), List.map_snd_zip (by omega)] at hk
  have hg := greedy_congr (ax := axesOf) (ax' := axesOption (exactArith.pairAxes realTrig)) (near := nearBy thr)
    (near' := fun a b => exactArith.closeAxes thr a b = true) (fun a => (a.1.padded, a.2.padded)) (exact_closeAxes thr) (we.zip bh) (by
      intro p hp
      obtain ⟨o, ho⟩ := hok p hp
      rw [axesOption_ok (exact_pairAxes ho)]
      unfold axesOf
      rw [ho])
  unfold Arith.prefilter
  rw [hpre, hk, ← hg, Py.ok_bind]
  split_ifs with h2
  · rw [pyAssert_pos h2]; rfl
  · rw [pyAssert_neg h2]; rfl

/-! ## An example -/

/-- Functions of the library for the example: rounding does not matter for them, and the sine is positive. -/
noncomputable def sampleTrig : Trig := ⟨Real.pi, npDegrees, fun x => npMod x 360, fun x => max (Real.sin x) (2⁻¹ ^ 60)⟩

theorem sampleTrig_positive (A : Arith) : Spec.SinePositive A sampleTrig := by
  intro w r _ _
  exact lt_of_lt_of_le (by positivity) (le_max_right _ _)

/-- Three pairs of poses: one without any motion, and turns by 120 degrees about two axes. -/
noncomputable def threeTurns : List DQuat := [⟨⟨0, 0, 0, 1⟩, ⟨0, 0, 0, 0⟩⟩, ⟨⟨1 / 2, 1 / 2, 1 / 2, 1 / 2⟩, ⟨0, 0, 0, 0⟩⟩, ⟨⟨-1 / 2, 1 / 2, 1 / 2, 1 / 2⟩, ⟨0, 0, 0, 0⟩⟩]

theorem rd_120 : roundDouble 120 = 120 := by
  rw [roundDouble_eq 46 (120 * 2 ^ 46) (by norm_num) (by norm_num) (by norm_num)]; norm_num

theorem turn_120 (x y z : ℝ) (d : Quat) : (doubleArith Real.arccos).rotation sampleTrig (⟨⟨x, y, z, 1 / 2⟩, d⟩ : DQuat).rot.w = some 120 := by
  have h : Real.arccos (1 / 2) = Real.pi / 3 := by
    rw [← Real.cos_pi_div_three, Real.arccos_cos (by positivity) (by linarith [Real.pi_pos])]
  unfold Arith.rotation
  rw [if_pos (by norm_num)]
  simp only [doubleArith, sampleTrig, h, npDegrees]
  rw [show 2 * (Real.pi / 3 * (180 / Real.pi)) = 120 by field_simp; norm_num, rd_120]
  norm_num [npMod]

theorem turn_along (x y z : ℝ) (d : Quat) : Spec.along (doubleArith Real.arccos) sampleTrig ⟨⟨x, y, z, 1 / 2⟩, d⟩ = ⟨x, y, z, 1 / 2⟩ := by
  unfold Spec.along
  rw [if_pos ⟨120, turn_120 x y z d, by norm_num⟩]

theorem turn_not_still {x y z : ℝ} (h : x ^ 2 + y ^ 2 + z ^ 2 = 3 / 4) (d : Quat) : ¬ Spec.Still (doubleArith Real.arccos) sampleTrig ⟨⟨x, y, z, 1 / 2⟩, d⟩ := by
  rintro (⟨r, _, _, h3⟩ | ⟨h1, _⟩)
  · have hs : (doubleArith Real.arccos).sineOfHalf sampleTrig r ≤ 1 := max_le (Real.sin_le_one _) (by norm_num)
    have hv : 0.5 ≤ Spec.vecLength ⟨x, y, z, 1 / 2⟩ := by
      unfold Spec.vecLength
      rw [h]
      exact Real.le_sqrt_of_sq_le (by norm_num)
    norm_num at h3 hv
    linarith
  · exact h1 ⟨120, turn_120 x y z d, by norm_num⟩

/-- In `float64`, the prefilter keeps both turns and drops the pair without motion. -/
example : ∃ we' bh', (doubleArith Real.arccos).prefilter sampleTrig threeTurns threeTurns 0.95 = .ok (we', bh') ∧ we'.length = 2 := by
  obtain ⟨idx, h1, h2, _, h4, h5, -⟩ := C118_selection (machine_double Real.arccos) (sampleTrig_positive _) threeTurns threeTurns 0.95 rfl
  have v1 : Spec.vecLength ⟨1 / 2, 1 / 2, 1 / 2, 1 / 2⟩ = Real.sqrt (3 / 4) := by unfold Spec.vecLength; norm_num
  have v2 : Spec.vecLength ⟨-1 / 2, 1 / 2, 1 / 2, 1 / 2⟩ = Real.sqrt (3 / 4) := by unfold Spec.vecLength; norm_num
  have n0 : 0 ∉ idx := by
    intro h
    obtain ⟨w, b, e1, -, hp, -⟩ := h2 0 h
    cases e1
    have : Spec.vecLength (Spec.along (doubleArith Real.arccos) sampleTrig ⟨⟨0, 0, 0, 1⟩, ⟨0, 0, 0, 0⟩⟩) = 0 := by
      unfold Spec.along Spec.vecLength
      split_ifs <;> norm_num
    linarith
  have m1 : 1 ∈ idx := by
    by_contra h
    rcases h4 1 (by norm_num [threeTurns]) h with ⟨w, b, e1, e2, hs⟩ | ⟨i, hi, hlt, _⟩
    · cases e1
      cases e2
      exact hs.elim (turn_not_still (by norm_num) _) (turn_not_still (by norm_num) _)
    · obtain rfl : i = 0 := by omega
      exact n0 hi
  have m2 : 2 ∈ idx := by
    by_contra h
    rcases h4 2 (by norm_num [threeTurns]) h with ⟨w, b, e1, e2, hs⟩ | ⟨i, hi, hlt, w, b, w', b', e1, e2, e3, e4, hc⟩
    · cases e1
      cases e2
      exact hs.elim (turn_not_still (by norm_num) _) (turn_not_still (by norm_num) _)
    · obtain rfl : i = 1 := by
        rcases Nat.lt_or_ge i 1 with h | h
        · obtain rfl : i = 0 := by omega
          exact absurd hi n0
        · omega
      cases e1
      cases e2
      cases e3
      cases e4
      rw [or_self, turn_along, turn_along, Spec.vecCosine, v1, v2, Real.mul_self_sqrt (by norm_num)] at hc
      norm_num at hc
  have hlt : ∀ i ∈ idx, i < 3 := by
    intro i hi
    obtain ⟨w, b, e1, -⟩ := h2 i hi
    exact (List.getElem?_eq_some_iff.mp e1).1
  have hidx : idx = [1, 2] := by
    refine List.Perm.eq_of_pairwise (le := (· < ·)) (fun a b _ _ h h' => absurd h' (by omega)) h1 (by simp) ?_
    refine (List.perm_ext_iff_of_nodup (h1.imp fun h => by omega) (by simp)).mpr fun i => ?_
    constructor
    · intro hi
      have := hlt i hi
      have : i ≠ 0 := fun h => n0 (h ▸ hi)
      simp
      omega
    · intro hi
      simp at hi
      rcases hi with rfl | rfl <;> assumption
  obtain ⟨we', bh', h6, h7, -⟩ := h5 (by rw [hidx]; rfl)
  refine ⟨we', bh', h6, ?_⟩
  have := congrArg List.length h7
  simpa [hidx] using this

/-- Poses for which the screw axes can be computed: unit dual quaternions, as in `C32_unit_trajectories`. -/
example : ∀ a ∈ threeTurns, ∃ r, a.screwAxis = .ok r := by
  intro a ha
  have : Spec.IsUnit a := by
    rw [DQuat.isUnit_iff]
    simp only [threeTurns, List.mem_cons, List.not_mem_nil, or_false] at ha
    obtain rfl | rfl | rfl := ha <;> norm_num [Quat.dot]
  rw [screwAxis_eq this]
  dsimp only
  split_ifs <;> exact ⟨_, rfl⟩

/-- The configuration with the prefilter, for which `C118_keeps` speaks. -/
example (A : Arith) : Spec.KeepsPairs (A.filteredPoses sampleTrig {}) ∧ (({} : HandEyeConfig).prefilter_poses_enabled = true) := ⟨C118_keeps _ _ _, rfl⟩

end HandEye
