import Verif.Lemmas.TimeAlign
import Verif.Props.Quat5
import Verif.Spec.Resample

/-! # Property C46: resampled orientations -/

namespace HandEye

theorem sorted_le {times : List ℝ} (h : times.Pairwise (· < ·)) : times.Pairwise (· ≤ ·) := h.imp le_of_lt

theorem sorted_lt_iff {times : List ℝ} (h : times.Pairwise (· < ·)) {i j : ℕ} (hi : i < times.length)
    (hj : j < times.length) : times[i] < times[j] ↔ i < j := by
  constructor
  · intro hlt
    by_contra hc
    rcases (not_lt.mp hc).eq_or_lt with rfl | hji
    · exact lt_irrefl _ hlt
    · exact lt_asymm hlt (List.pairwise_iff_getElem.mp h j i hj hi hji)
  · exact fun hlt => List.pairwise_iff_getElem.mp h i j hi hj hlt

theorem bisect_recorded {times : List ℝ} (h : times.Pairwise (· < ·)) {k : ℕ} (hk : k < times.length) :
    bisectLeft times times[k] = k := by
  apply bisectLeft_eq (sorted_le h) hk.le
  · intro i hi hik
    exact (sorted_lt_iff h hi hk).mpr hik
  · intro i hi hki
    by_contra hc
    have := (sorted_lt_iff h hi hk).mp (not_le.mp hc)
    omega

theorem bisect_between {times : List ℝ} (h : times.Pairwise (· < ·)) {k : ℕ} (hk : k + 1 < times.length)
    {s : ℝ} (h1 : times[k] < s) (h2 : s ≤ times[k + 1]) : bisectLeft times s = k + 1 := by
  apply bisectLeft_eq (sorted_le h) hk.le
  · intro i hi hik
    refine lt_of_le_of_lt ?_ h1
    by_contra hc
    have := (sorted_lt_iff h (show k < times.length by omega) hi).mp (not_le.mp hc)
    omega
  · intro i hi hki
    refine h2.trans ?_
    by_contra hc
    have := (sorted_lt_iff h hi hk).mp (not_le.mp hc)
    omega

/-- A time between the first and the last one is recorded or lies between two neighbours. -/
theorem locate {times : List ℝ} (h : times.Pairwise (· < ·)) {first last s : ℝ}
    (hf : times.head? = some first) (hl : times.getLast? = some last) (h1 : first ≤ s) (h2 : s ≤ last) :
    (∃ (k : ℕ) (hk : k < times.length), times[k] = s) ∨
    ∃ (k : ℕ) (hk : k + 1 < times.length), times[k] < s ∧ s < times[k + 1] := by
  have hne : times ≠ [] := by rintro rfl; simp at hf
  have h0 : 0 < times.length := List.length_pos_of_ne_nil hne
  rw [List.head?_eq_getElem?, List.getElem?_eq_getElem h0, Option.some.injEq] at hf
  rw [List.getLast?_eq_getElem?, List.getElem?_eq_getElem (by omega), Option.some.injEq] at hl
  obtain ⟨b0, b1, b2⟩ := bisectLeft_spec (sorted_le h) s
  generalize bisectLeft times s = r at b0 b1 b2
  have hr : r < times.length := by
    by_contra hc
    have := b1 (times.length - 1) (by omega) (by omega)
    rw [hl] at this
    linarith
  rcases (b2 r hr le_rfl).eq_or_lt with he | hlt
  · exact Or.inl ⟨r, hr, he.symm⟩
  · right
    have hr0 : r ≠ 0 := by
      rintro rfl
      rw [hf] at hlt
      linarith
    obtain ⟨k, rfl⟩ := Nat.exists_eq_succ_of_ne_zero hr0
    exact ⟨k, hr, b1 k (by omega) (by omega), hlt⟩

theorem pyGet_last {times : List ℝ} {last : ℝ} (hl : times.getLast? = some last) : pyGet times (-1) = .ok last := by
  have hne : times ≠ [] := by rintro rfl; simp at hl
  have h0 : 0 < times.length := List.length_pos_of_ne_nil hne
  rw [List.getLast?_eq_getElem?, List.getElem?_eq_getElem (by omega), Option.some.injEq] at hl
  have hp : pyPos times.length (-1) = some (times.length - 1) := by
    unfold pyPos
    rw [if_neg (by omega), if_pos (by omega)]
    congr 1
    omega
  rw [pyGet_some hp, hl]

theorem pyGet_first {times : List ℝ} {first : ℝ} (hf : times.head? = some first) : pyGet times 0 = .ok first := by
  have hne : times ≠ [] := by rintro rfl; simp at hf
  have h0 : 0 < times.length := List.length_pos_of_ne_nil hne
  rw [List.head?_eq_getElem?, List.getElem?_eq_getElem h0, Option.some.injEq] at hf
  have hp : pyPos times.length 0 = some 0 := pyPos_natCast (k := 0) h0
  rw [pyGet_some hp, hf]

theorem pyGet_natCast {α : Type} {l : List α} {k : ℕ} (h : k < l.length) : pyGet l (k : ℤ) = .ok l[k] :=
  pyGet_some (pyPos_natCast h)

section
variable {times : List ℝ} {qs : List Quat} {first last : ℝ}

theorem resampleOne_recorded (h : times.Pairwise (· < ·)) (hlen : qs.length = times.length)
    (hf : times.head? = some first) (hl : times.getLast? = some last) {k : ℕ} (hk : k < times.length)
    (h1 : first ≤ times[k]) (h2 : times[k] ≤ last) :
    resampleOne times qs times[k] = .ok [qs[k]] := by
  unfold resampleOne
  rw [pyGet_last hl, Py.ok_bind, pyAssert_pos h2, Py.ok_bind, pyGet_first hf, Py.ok_bind, pyAssert_pos h1,
    Py.ok_bind]
  dsimp only
  rw [bisect_recorded h hk, pyAt_ok hk, Py.ok_bind, if_pos (npIsclose_self _ (by norm_num)),
    pyAt_ok (by omega), Py.ok_bind]
  rfl

theorem resampleOne_between (h : times.Pairwise (· < ·)) (hlen : qs.length = times.length)
    (hf : times.head? = some first) (hl : times.getLast? = some last) {s : ℝ} {k : ℕ}
    (hk : k + 1 < times.length) (h1 : times[k] < s) (h2 : s < times[k + 1]) (h3 : first ≤ s) (h4 : s ≤ last) :
    resampleOne times qs s = if |s - times[k + 1]| ≤ 1e-16 + 1e-5 * |times[k + 1]| then .ok [qs[k + 1]]
      else (fun q => [q]) <$> quaternionSlerp qs[k] qs[k + 1] ((s - times[k]) / (times[k + 1] - times[k])) := by
  unfold resampleOne
  rw [pyGet_last hl, Py.ok_bind, pyAssert_pos h4, Py.ok_bind, pyGet_first hf, Py.ok_bind, pyAssert_pos h3,
    Py.ok_bind]
  dsimp only
  rw [bisect_between h hk h1 h2.le, pyAt_ok hk, Py.ok_bind]
  split
  · rw [pyAt_ok (by omega), Py.ok_bind]; rfl
  · have hc : ((k + 1 : ℕ) : ℤ) - 1 = (k : ℤ) := by omega
    rw [pyRequire_pos hk, Py.ok_bind, hc, pyAssert_pos (by omega), Py.ok_bind, pyGet_natCast (by omega), Py.ok_bind,
      pyGet_natCast (by omega), Py.ok_bind, pyAt_ok (by omega), Py.ok_bind, interpolate_eq _ _ _ _ (h1.trans h2),
      List.map_singleton, Py.mapM_cons]
    cases quaternionSlerp qs[k] qs[k + 1] ((s - times[k]) / (times[k + 1] - times[k])) <;> rfl

end

theorem onArc_slerp {a b : Quat} (ha : a.norm = 1) (hb : b.norm = 1) {f : ℝ} (h0 : 0 ≤ f) (h1 : f ≤ 1) :
    ∃ r, quaternionSlerp a b f = .ok r ∧ Spec.OnArc a b f r := by
  obtain ⟨r, e1, e2, e3, e4, e5⟩ := C08_slerp a b ha hb f h0 h1
  exact ⟨r, e1, e2, e3, e4, fun h => ⟨Quat.norm_eq_one.mp (e5 h).1, (e5 h).2⟩⟩

/-- What the code does for one sample: the orientation at that time, or that of the next recorded time if
that is only 1e-5 of its absolute value away. -/
def Spec.Snapped (times : List ℝ) (qs : List Quat) (s : ℝ) (q : Quat) : Prop :=
  ∃ (k : ℕ) (tl tr : ℝ), times[k]? = some tl ∧ times[k + 1]? = some tr ∧ tl < s ∧ s < tr ∧
    tr - s ≤ 1e-16 + 1e-5 * |tr| ∧ qs[k + 1]? = some q

theorem resampleOne_outcome {times : List ℝ} {qs : List Quat} {first last : ℝ}
    (h : times.Pairwise (· < ·)) (hlen : qs.length = times.length) (hu : ∀ q ∈ qs, q.norm = 1)
    (hf : times.head? = some first) (hl : times.getLast? = some last) {s : ℝ} (h1 : first ≤ s) (h2 : s ≤ last) :
    ∃ q, resampleOne times qs s = .ok [q] ∧
      (Spec.Snapped times qs s q ∨ Spec.Interpolated times qs s q ∧
        ∀ (k : ℕ) (tl tr : ℝ), times[k]? = some tl → times[k + 1]? = some tr → tl < s → s < tr →
          1e-16 + 1e-5 * |tr| < tr - s) := by
  rcases locate h hf hl h1 h2 with ⟨k, hk, rfl⟩ | ⟨k, hk, hk1, hk2⟩
  · refine ⟨qs[k], resampleOne_recorded h hlen hf hl hk h1 h2, Or.inr ⟨Or.inl ⟨k, ?_, ?_⟩, ?_⟩⟩
    · exact List.getElem?_eq_getElem hk
    · exact List.getElem?_eq_getElem (by omega)
    · intro j tl tr e1 e2 e3 e4
      exfalso
      obtain ⟨hj, rfl⟩ := List.getElem?_eq_some_iff.mp e1
      obtain ⟨hj', rfl⟩ := List.getElem?_eq_some_iff.mp e2
      have := (sorted_lt_iff h _ _).mp e3
      have := (sorted_lt_iff h _ _).mp e4
      omega
  · rw [resampleOne_between h hlen hf hl hk hk1 hk2 h1 h2]
    have habs : |s - times[k + 1]| = times[k + 1] - s := by rw [abs_sub_comm, abs_of_pos (by linarith)]
    rw [habs]
    split
    · next hc =>
      exact ⟨_, rfl, Or.inl ⟨k, times[k], times[k + 1], List.getElem?_eq_getElem _, List.getElem?_eq_getElem _,
        hk1, hk2, hc, List.getElem?_eq_getElem _⟩⟩
    · next hc =>
      have hsc := (scaled_mem (hk1.trans hk2) (t := s)).mpr ⟨hk1.le, hk2.le⟩
      obtain ⟨q, e1, e2⟩ := onArc_slerp (hu qs[k] (List.getElem_mem _)) (hu qs[k + 1] (List.getElem_mem _))
        hsc.1 hsc.2
      rw [e1]
      refine ⟨q, rfl, Or.inr ⟨Or.inr ⟨k, _, _, _, _, List.getElem?_eq_getElem _, List.getElem?_eq_getElem _,
        List.getElem?_eq_getElem _, List.getElem?_eq_getElem _, hk1, hk2, e2⟩, ?_⟩⟩
      intro j tl tr f1 f2 f3 f4
      obtain ⟨hj, rfl⟩ := List.getElem?_eq_some_iff.mp f1
      obtain ⟨hj', rfl⟩ := List.getElem?_eq_some_iff.mp f2
      have a1 := (sorted_lt_iff h _ _).mp (f3.trans hk2)
      have a2 := (sorted_lt_iff h _ _).mp (hk1.trans f4)
      have : j = k := by omega
      subst this
      exact not_le.mp hc

theorem flatten_singletons {α : Type} (l : List α) : (l.map fun a => [a]).flatten = l := by
  induction l with
  | nil => rfl
  | cons a l ih => simp [ih]

/-- Resampling never fails inside the recorded time range; for every sample the outcome is that of
`resampleOne_outcome`. -/
theorem resample_outcome {times : List ℝ} {qs : List Quat} {first last : ℝ} {samples : List ℝ}
    (h : times.Pairwise (· < ·)) (hlen : qs.length = times.length) (hu : ∀ q ∈ qs, q.norm = 1)
    (hf : times.head? = some first) (hl : times.getLast? = some last)
    (hs : ∀ s ∈ samples, first ≤ s ∧ s ≤ last) :
    ∃ rs, resampleQuaternionsFromSamples times qs samples = .ok rs ∧ List.Forall₂ (fun s q =>
      Spec.Snapped times qs s q ∨ Spec.Interpolated times qs s q ∧
        ∀ (k : ℕ) (tl tr : ℝ), times[k]? = some tl → times[k + 1]? = some tr → tl < s → s < tr →
          1e-16 + 1e-5 * |tr| < tr - s) samples rs := by
  have hex : ∀ s : ℝ, ∃ q, s ∈ samples → resampleOne times qs s = .ok [q] ∧
      (Spec.Snapped times qs s q ∨ Spec.Interpolated times qs s q ∧
        ∀ (k : ℕ) (tl tr : ℝ), times[k]? = some tl → times[k + 1]? = some tr → tl < s → s < tr →
          1e-16 + 1e-5 * |tr| < tr - s) := by
    intro s
    by_cases hm : s ∈ samples
    · obtain ⟨q, e1, e2⟩ := resampleOne_outcome h hlen hu hf hl (hs s hm).1 (hs s hm).2
      exact ⟨q, fun _ => ⟨e1, e2⟩⟩
    · exact ⟨⟨0, 0, 0, 1⟩, fun h => absurd h hm⟩
  choose g hg using hex
  refine ⟨samples.map g, ?_, ?_⟩
  · unfold resampleQuaternionsFromSamples
    have : samples.mapM (resampleOne times qs) = .ok ((samples.map g).map fun a => [a]) := by
      rw [List.map_map]
      exact Py.mapM_ok fun s hm => (hg s hm).1
    rw [this, Py.ok_bind, flatten_singletons, pyAssert_pos (List.length_map _), Py.ok_bind]
    rfl
  · rw [List.forall₂_map_right_iff, List.forall₂_same]
    exact fun s hm => (hg s hm).2

/-- C46, where it holds: if the next recorded time is always further away than 1e-16 + 1e-5 of its absolute
value, all samples are the orientations at their times.  `_partial`: see `C46_unix_refuted` for why the
hypothesis is needed. -/
theorem C46_resample_partial (times : List ℝ) (qs : List Quat) (first last : ℝ) (samples : List ℝ)
    (h : times.Pairwise (· < ·)) (hlen : qs.length = times.length) (hu : ∀ q ∈ qs, q.norm = 1)
    (hf : times.head? = some first) (hl : times.getLast? = some last)
    (hs : ∀ s ∈ samples, first ≤ s ∧ s ≤ last)
    (hfar : ∀ s ∈ samples, ∀ t ∈ times, s < t → 1e-16 + 1e-5 * |t| < t - s) :
    ∃ rs, resampleQuaternionsFromSamples times qs samples = .ok rs ∧
      List.Forall₂ (Spec.Interpolated times qs) samples rs := by
  obtain ⟨rs, h1, h2⟩ := resample_outcome h hlen hu hf hl hs
  refine ⟨rs, h1, ?_⟩
  rw [List.forall₂_iff_zip] at h2 ⊢
  refine ⟨h2.1, fun {s q} hsq => ?_⟩
  rcases h2.2 hsq with ⟨k, tl, tr, -, e2, -, e4, e5, -⟩ | e
  · have := hfar s (List.of_mem_zip hsq).1 tr (List.mem_of_getElem? e2) e4
    linarith
  · exact e.1

/-- C46: recorded times give the recorded orientations, without further conditions. -/
theorem C46_recorded (times : List ℝ) (qs : List Quat) (h : times.Pairwise (· < ·))
    (hlen : qs.length = times.length) : resampleQuaternionsFromSamples times qs times = .ok qs := by
  have hmap : times.mapM (resampleOne times qs) = .ok (qs.map fun a => [a]) := by
    rw [Py.mapM_eq_ok, List.forall₂_iff_get]
    refine ⟨by simp [hlen], ?_⟩
    intro k hk hk'
    simp only [List.get_eq_getElem, List.getElem_map]
    have hne : times ≠ [] := by rintro rfl; simp at hk
    apply resampleOne_recorded h hlen (List.head?_eq_some_head hne) (List.getLast?_eq_some_getLast hne)
    · rw [List.head_eq_getElem]
      by_contra hc
      have := (sorted_lt_iff h _ _).mp (not_le.mp hc)
      omega
    · rw [List.getLast_eq_getElem]
      by_contra hc
      have := (sorted_lt_iff h _ _).mp (not_le.mp hc)
      omega
  unfold resampleQuaternionsFromSamples
  rw [hmap, Py.ok_bind, flatten_singletons, pyAssert_pos hlen, Py.ok_bind]
  rfl

/-- C46: a sample outside the recorded range is refused. -/
theorem C46_out_of_range (times : List ℝ) (qs : List Quat) (first last s : ℝ) (hf : times.head? = some first)
    (hl : times.getLast? = some last) (hs : s < first ∨ last < s) :
    resampleQuaternionsFromSamples times qs [s] = .error .assertion := by
  have : resampleOne times qs s = .error .assertion := by
    unfold resampleOne
    rw [pyGet_last hl, Py.ok_bind]
    by_cases h : s ≤ last
    · rw [pyAssert_pos h, Py.ok_bind, pyGet_first hf, Py.ok_bind, pyAssert_neg]
      · rfl
      · rcases hs with hs | hs <;> linarith
    · rw [pyAssert_neg h]; rfl
  unfold resampleQuaternionsFromSamples
  rw [Py.mapM_cons, this]
  rfl

/-- C46 fails for absolute Unix times: every sample between two stamps gets the orientation of the later
stamp, however far apart the two orientations are (if the stamps are at most 10000 seconds apart). -/
theorem C46_unix_refuted (times : List ℝ) (qs : List Quat) (first last s tl tr : ℝ) (q : Quat) (k : ℕ)
    (h : times.Pairwise (· < ·)) (hlen : qs.length = times.length)
    (hf : times.head? = some first) (hl : times.getLast? = some last) (h1 : first ≤ s) (h2 : s ≤ last)
    (hk : times[k]? = some tl) (hk' : times[k + 1]? = some tr) (hq : qs[k + 1]? = some q) (h3 : tl < s)
    (h4 : s < tr) (hunix : 1e9 ≤ tr) (hgap : tr - tl ≤ 10000) :
    resampleQuaternionsFromSamples times qs [s] = .ok [q] := by
  obtain ⟨hj', rfl⟩ := List.getElem?_eq_some_iff.mp hk'
  obtain ⟨hj, rfl⟩ := List.getElem?_eq_some_iff.mp hk
  obtain ⟨hq', rfl⟩ := List.getElem?_eq_some_iff.mp hq
  have hone := resampleOne_between h hlen hf hl hj' h3 h4 h1 h2
  rw [if_pos] at hone
  · unfold resampleQuaternionsFromSamples
    rw [Py.mapM_cons, hone]
    rfl
  · rw [abs_sub_comm, abs_of_pos (by linarith), abs_of_pos (by linarith)]
    norm_num at *
    linarith

/-- C46 fails: two stamps of July 2017, two seconds apart, a half turn between them; in the middle, the result
is the orientation after the half turn and not the one after a quarter turn. -/
theorem C46_refuted : ∃ q, resampleQuaternionsFromSamples [1500000000, 1500000002] [⟨0, 0, 0, 1⟩, ⟨0, 0, 1, 0⟩]
      [1500000001] = .ok [q] ∧
    ¬ Spec.Interpolated [1500000000, 1500000002] [⟨0, 0, 0, 1⟩, ⟨0, 0, 1, 0⟩] 1500000001 q := by
  refine ⟨⟨0, 0, 1, 0⟩, C46_unix_refuted _ _ 1500000000 1500000002 1500000001 1500000000 1500000002 _ 0
    (by norm_num) rfl rfl rfl (by norm_num) (by norm_num) rfl rfl rfl (by norm_num) (by norm_num) (by norm_num)
    (by norm_num), ?_⟩
  rintro (⟨k, h1, -⟩ | ⟨k, tl, tr, ql, qr, h1, h2, h3, h4, -, -, h5, -⟩)
  · match k, h1 with
    | 0, h1 => norm_num at h1
    | 1, h1 => norm_num at h1
    | k + 2, h1 => simp at h1
  · match k, h1, h2, h3, h4 with
    | 0, h1, h2, h3, h4 =>
      simp only [List.getElem?_cons_zero, Option.some.injEq, zero_add, List.getElem?_cons_succ] at h1 h2 h3 h4
      subst h1 h2 h3 h4
      have hd : Real.cos (1 / 2 * (Real.pi / 2)) = 0 := by
        simp only [Quat.dot] at h5
        norm_num at h5
        exact h5.symm
      have := Real.cos_pos_of_mem_Ioo (x := 1 / 2 * (Real.pi / 2))
        ⟨by linarith [Real.pi_pos], by linarith [Real.pi_pos]⟩
      linarith
    | 1, _, h2, _, _ => simp at h2
    | k + 2, h1, _, _, _ => simp at h1

/-- The hypotheses of `C46_resample_partial` hold for the same motion with times counted from zero. -/
example : ∃ rs, resampleQuaternionsFromSamples [0, 2] [⟨0, 0, 0, 1⟩, ⟨0, 0, 1, 0⟩] [0, 1] = .ok rs ∧
    List.Forall₂ (Spec.Interpolated [0, 2] [⟨0, 0, 0, 1⟩, ⟨0, 0, 1, 0⟩]) [0, 1] rs := by
  apply C46_resample_partial _ _ 0 2 _ (by norm_num) rfl ?_ rfl rfl (by norm_num) ?_
  · intro q hq
    simp only [List.mem_cons, List.not_mem_nil, or_false] at hq
    rcases hq with rfl | rfl <;> rw [Quat.norm_eq_one] <;> norm_num [Quat.dot]
  · intro s hs t ht hlt
    simp only [List.mem_cons, List.not_mem_nil, or_false] at hs ht
    rcases hs with rfl | rfl <;> rcases ht with rfl | rfl <;> norm_num at hlt <;> norm_num

end HandEye
