import Verif.Props.Resample
import Verif.Props.TimeOffset
import Verif.Spec.AlignedTables

/-! # Property C47: aligned pose tables -/

namespace HandEye

theorem steps_eq : ∀ l : List ℝ, npDiff l = Spec.steps l
  | [] => rfl
  | [_] => rfl
  | a :: b :: l => by rw [npDiff_cons, steps_eq (b :: l)]; rfl

theorem npMedian_spec {l : List ℝ} (h : l ≠ []) : ∃ m, npMedian l = .ok m ∧ Spec.IsMedian l m := by
  unfold npMedian
  rw [if_neg h]
  have hp : (npSort l).Perm l := List.perm_insertionSort _ _
  have hl := hp.length_eq
  have h0 := List.length_pos_of_ne_nil h
  refine ⟨_, rfl, npSort l, (npSort l)[(l.length - 1) / 2]'(by omega), (npSort l)[l.length / 2]'(by omega), hp,
    List.pairwise_insertionSort _ _, ?_, ?_, ?_⟩
  · simp only [hl]; exact List.getElem?_eq_getElem _
  · simp only [hl]; exact List.getElem?_eq_getElem _
  · rw [getD_eq, getD_eq]

theorem near_bisect {high : List ℝ} (hh : high.Pairwise (· < ·)) (t : ℝ) :
    Spec.Near high t ↔ ∃ hr : bisectLeft high t + 1 < high.length,
      high[bisectLeft high t] = t ∨ ∃ h0 : 0 < bisectLeft high t,
        t - high[bisectLeft high t - 1] < 1 / 10 ∧ high[bisectLeft high t] - t ≤ 1 / 10 := by
  constructor
  · rintro (⟨k, h1, h2⟩ | ⟨k, l, r, h1, h2, h3, h4, h5, h6, h7⟩)
    · obtain ⟨hk, rfl⟩ := List.getElem?_eq_some_iff.mp h1
      have := bisect_recorded hh hk
      refine ⟨by omega, Or.inl ?_⟩
      simp only [this]
    · obtain ⟨hk, rfl⟩ := List.getElem?_eq_some_iff.mp h1
      obtain ⟨hk', rfl⟩ := List.getElem?_eq_some_iff.mp h2
      have := bisect_between hh hk' h4 h5.le
      refine ⟨by omega, Or.inr ⟨by omega, ?_⟩⟩
      simp only [this, Nat.add_sub_cancel]
      exact ⟨h6, h7⟩
  · rintro ⟨hr, h⟩
    obtain ⟨b0, b1, b2⟩ := bisectLeft_spec (sorted_le hh) t
    rcases (b2 _ (by omega) le_rfl).eq_or_lt with he | hlt
    · exact Or.inl ⟨_, by rw [List.getElem?_eq_getElem (by omega), ← he], hr⟩
    · rcases h with h | ⟨h0, h1, h2⟩
      · exact absurd h hlt.ne'
      · right
        refine ⟨bisectLeft high t - 1, _, _, List.getElem?_eq_getElem (by omega), ?_, by omega,
          b1 _ (by omega) (by omega), hlt, h1, h2⟩
        rw [show bisectLeft high t - 1 + 1 = bisectLeft high t by omega]
        exact List.getElem?_eq_getElem _

theorem bisect_mono {high : List ℝ} (hh : high.Pairwise (· < ·)) {s t : ℝ} (h : s ≤ t) :
    bisectLeft high s ≤ bisectLeft high t := by
  obtain ⟨a0, a1, a2⟩ := bisectLeft_spec (sorted_le hh) s
  obtain ⟨b0, b1, b2⟩ := bisectLeft_spec (sorted_le hh) t
  by_contra hc
  have h1 := a1 (bisectLeft high t) (by omega) (by omega)
  have h2 := b2 (bisectLeft high t) (by omega) le_rfl
  linarith

open Classical in
/-- The samples are exactly the supported times, in order. -/
theorem selectSamples_eq {high : List ℝ} (hh : high.Pairwise (· < ·)) {first start : ℝ}
    (hf : high.head? = some first) (hfs : first ≤ start) (low : List ℝ) (hl : low.Pairwise (· < ·)) :
    selectSamples high start low = .ok (low.filter fun t => decide (start ≤ t ∧ Spec.Near high t)) := by
  induction low with
  | nil => rfl
  | cons t low ih =>
    have ih := ih hl.of_cons
    rw [selectSamples]
    by_cases hts : t < start
    · rw [if_pos hts, ih, List.filter_cons_of_neg]
      simp [hts]
    rw [if_neg hts]
    have hts := not_lt.mp hts
    have hnear := near_bisect hh t
    by_cases hend : (bisectLeft high t : ℤ) ≥ (high.length : ℤ) - 1
    · rw [if_pos hend]
      congr 1
      symm
      rw [List.filter_eq_nil_iff]
      intro s hs
      have hst : t ≤ s := by
        rcases List.mem_cons.mp hs with rfl | hs
        · exact le_rfl
        · exact (List.rel_of_pairwise_cons hl hs).le
      have := bisect_mono hh hst
      simp only [decide_eq_true_eq, not_and]
      intro _ hn
      obtain ⟨hr, -⟩ := (near_bisect hh s).mp hn
      omega
    rw [if_neg hend]
    have hr : bisectLeft high t + 1 < high.length := by omega
    rw [pyAt_ok (by omega), Py.ok_bind]
    obtain ⟨b0, b1, b2⟩ := bisectLeft_spec (sorted_le hh) t
    by_cases heq : t = high[bisectLeft high t]
    · rw [if_pos heq, ih, Py.ok_bind, List.filter_cons_of_pos]
      · rfl
      · rw [decide_eq_true_iff]
        exact ⟨hts, hnear.mpr ⟨hr, Or.inl heq.symm⟩⟩
    rw [if_neg heq]
    have h0 : 0 < bisectLeft high t := by
      by_contra hc
      have hz : bisectLeft high t = 0 := by omega
      apply heq
      have h1 := b2 0 (by omega) (by omega)
      rw [List.head?_eq_getElem?, List.getElem?_eq_getElem (by omega), Option.some.injEq] at hf
      simp only [hz]
      apply le_antisymm h1
      rw [hf]
      exact hfs.trans hts
    have hlt := b1 (bisectLeft high t - 1) (by omega) (by omega)
    have hc : (bisectLeft high t : ℤ) - 1 = ((bisectLeft high t - 1 : ℕ) : ℤ) := by omega
    rw [hc, pyGet_natCast (by omega), Py.ok_bind, if_neg (not_lt.mpr hlt.le)]
    by_cases hgap : t - high[bisectLeft high t - 1] < 0.1 ∧ high[bisectLeft high t] - t ≤ 0.1
    · rw [if_pos hgap, ih, Py.ok_bind, List.filter_cons_of_pos]
      · rfl
      · rw [decide_eq_true_iff]
        refine ⟨hts, hnear.mpr ⟨hr, Or.inr ⟨h0, ?_⟩⟩⟩
        norm_num only at hgap ⊢
        exact hgap
    · rw [if_neg hgap, ih, List.filter_cons_of_neg]
      simp only [decide_eq_true_eq, not_and]
      intro _ hn
      obtain ⟨_, h | ⟨_, h⟩⟩ := hnear.mp hn
      · exact heq h.symm
      · apply hgap
        norm_num only
        exact h

theorem near_range {high : List ℝ} (hh : high.Pairwise (· < ·)) {first last : ℝ} (hf : high.head? = some first)
    (hl : high.getLast? = some last) {t : ℝ} (h : Spec.Near high t) : first ≤ t ∧ t ≤ last := by
  rw [List.head?_eq_getElem?] at hf
  rw [List.getLast?_eq_getElem?] at hl
  obtain ⟨h0, rfl⟩ := List.getElem?_eq_some_iff.mp hf
  obtain ⟨h1, rfl⟩ := List.getElem?_eq_some_iff.mp hl
  have mono : ∀ {i j : ℕ} (hi : i < high.length) (hj : j < high.length), i ≤ j → high[i] ≤ high[j] := by
    intro i j hi hj hij
    rcases hij.eq_or_lt with rfl | hlt
    · exact le_rfl
    · exact ((sorted_lt_iff hh hi hj).mpr hlt).le
  rcases h with ⟨k, e1, e2⟩ | ⟨k, l, r, e1, e2, e3, e4, e5, -⟩
  · obtain ⟨hk, rfl⟩ := List.getElem?_eq_some_iff.mp e1
    exact ⟨mono _ _ (by omega), mono _ _ (by omega)⟩
  · obtain ⟨hk, rfl⟩ := List.getElem?_eq_some_iff.mp e1
    obtain ⟨hk', rfl⟩ := List.getElem?_eq_some_iff.mp e2
    exact ⟨(mono h0 hk (by omega)).trans e4.le, e5.le.trans (mono hk' h1 (by omega))⟩

theorem mem_range {l : List ℝ} (hh : l.Pairwise (· < ·)) {first last : ℝ} (hf : l.head? = some first)
    (hl : l.getLast? = some last) {t : ℝ} (h : t ∈ l) : first ≤ t ∧ t ≤ last := by
  obtain ⟨k, hk, rfl⟩ := List.mem_iff_getElem.mp h
  rw [List.head?_eq_getElem?] at hf
  rw [List.getLast?_eq_getElem?] at hl
  obtain ⟨h0, rfl⟩ := List.getElem?_eq_some_iff.mp hf
  obtain ⟨h1, rfl⟩ := List.getElem?_eq_some_iff.mp hl
  have mono : ∀ {i j : ℕ} (hi : i < l.length) (hj : j < l.length), i ≤ j → l[i] ≤ l[j] := by
    intro i j hi hj hij
    rcases hij.eq_or_lt with rfl | hlt
    · exact le_rfl
    · exact ((sorted_lt_iff hh hi hj).mpr hlt).le
  exact ⟨mono _ _ (by omega), mono _ _ (by omega)⟩

/-- The interpolation at times inside the recorded range: one row for every sample. -/
theorem interpolate_outcome {poses : List StampedPose} {first last : ℝ} {samples : List ℝ}
    (h : (poses.map StampedPose.t).Pairwise (· < ·)) (hu : ∀ p ∈ poses, p.pose.q.norm = 1)
    (hf : (poses.map StampedPose.t).head? = some first) (hl : (poses.map StampedPose.t).getLast? = some last)
    (hs : ∀ s ∈ samples, first ≤ s ∧ s ≤ last) :
    ∃ rows, interpolatePosesFromSamples poses samples = .ok rows ∧ rows.map StampedPose.t = samples ∧
      ∀ r ∈ rows,
        (Spec.Snapped (poses.map StampedPose.t) (poses.map fun p => p.pose.q) r.t r.pose.q ∨
          Spec.Interpolated (poses.map StampedPose.t) (poses.map fun p => p.pose.q) r.t r.pose.q ∧
          ∀ (k : ℕ) (tl tr : ℝ), (poses.map StampedPose.t)[k]? = some tl →
            (poses.map StampedPose.t)[k + 1]? = some tr → tl < r.t → r.t < tr → 1e-16 + 1e-5 * |tr| < tr - r.t) ∧
        r.pose.pos = ⟨npInterp (poses.map StampedPose.t) (poses.map fun p => p.pose.pos.x) r.t,
          npInterp (poses.map StampedPose.t) (poses.map fun p => p.pose.pos.y) r.t,
          npInterp (poses.map StampedPose.t) (poses.map fun p => p.pose.pos.z) r.t⟩ := by
  obtain ⟨qs, e1, e2⟩ := resample_outcome (qs := poses.map fun p => p.pose.q) h (by simp) (by simpa using hu) hf hl hs
  have hne : poses.length ≠ 0 := by
    rintro h0
    rw [List.length_eq_zero_iff] at h0
    subst h0
    cases hf
  refine ⟨List.zipWith (fun s q => ⟨s, ⟨⟨npInterp (poses.map StampedPose.t) (poses.map fun p => p.pose.pos.x) s,
    npInterp (poses.map StampedPose.t) (poses.map fun p => p.pose.pos.y) s,
    npInterp (poses.map StampedPose.t) (poses.map fun p => p.pose.pos.z) s⟩, q⟩⟩) samples qs, ?_, ?_, ?_⟩
  · unfold interpolatePosesFromSamples
    dsimp only
    rw [e1, Py.ok_bind, pyRequire_pos hne, Py.ok_bind]
    rfl
  · have : ∀ (ss : List ℝ) (rs : List Quat) (f : ℝ → Quat → Pose), ss.length = rs.length →
        (List.zipWith (fun s q => (⟨s, f s q⟩ : StampedPose)) ss rs).map StampedPose.t = ss := by
      intro ss
      induction ss with
      | nil => intros; rfl
      | cons s ss ih =>
        intro rs f hl
        cases rs with
        | nil => cases hl
        | cons r rs =>
          rw [List.zipWith_cons_cons, List.map_cons, ih rs f (by simpa using hl)]
    exact this samples qs (fun s q => ⟨⟨npInterp (poses.map StampedPose.t) (poses.map fun p => p.pose.pos.x) s,
      npInterp (poses.map StampedPose.t) (poses.map fun p => p.pose.pos.y) s,
      npInterp (poses.map StampedPose.t) (poses.map fun p => p.pose.pos.z) s⟩, q⟩) e2.length_eq
  · intro r hr
    rw [List.forall₂_iff_zip] at e2
    rw [← List.map_uncurry_zip_eq_zipWith, List.mem_map] at hr
    obtain ⟨⟨s, q⟩, hm, rfl⟩ := hr
    exact ⟨e2.2 hm, rfl⟩

theorem shiftTimes_t (c : ℝ) (poses : List StampedPose) :
    (shiftTimes c poses).map StampedPose.t = (poses.map StampedPose.t).map (· + c) := by
  simp [shiftTimes, Function.comp_def]

open Classical in
/-- All of `compute_aligned_poses` on sorted tables. -/
theorem aligned_outcome {A B : List StampedPose} {c : ℝ} {a0 a1 b0 b1 : ℝ}
    (hA : (A.map StampedPose.t).Pairwise (· < ·)) (hB : (B.map StampedPose.t).Pairwise (· < ·))
    (hA2 : 2 ≤ A.length) (hB2 : 2 ≤ B.length)
    (hAu : ∀ p ∈ A, p.pose.q.norm = 1) (hBu : ∀ p ∈ B, p.pose.q.norm = 1)
    (hA0 : ((A.map StampedPose.t).map (· + c)).head? = some a0)
    (hA1 : ((A.map StampedPose.t).map (· + c)).getLast? = some a1)
    (hB0 : (B.map StampedPose.t).head? = some b0) (hB1 : (B.map StampedPose.t).getLast? = some b1) :
    ∃ (RA RB : List StampedPose) (low high : List ℝ) (mlow mhigh : ℝ),
      computeAlignedPoses A B c = .ok (RA, RB) ∧
      (low = (A.map StampedPose.t).map (· + c) ∧ high = B.map StampedPose.t ∨
        low = B.map StampedPose.t ∧ high = (A.map StampedPose.t).map (· + c) ∧ mhigh < mlow) ∧
      Spec.IsMedian (Spec.steps low) mlow ∧ Spec.IsMedian (Spec.steps high) mhigh ∧ mhigh ≤ mlow ∧
      RA.map StampedPose.t = low.filter (fun t => decide (max a0 b0 ≤ t ∧ Spec.Near high t)) ∧
      RB.map StampedPose.t = low.filter (fun t => decide (max a0 b0 ≤ t ∧ Spec.Near high t)) ∧
      interpolatePosesFromSamples (shiftTimes c A) (RA.map StampedPose.t) = .ok RA ∧
      interpolatePosesFromSamples B (RA.map StampedPose.t) = .ok RB ∧
      ∀ t ∈ RA.map StampedPose.t, a0 ≤ t ∧ t ≤ a1 ∧ b0 ≤ t ∧ t ≤ b1 := by
  have hA' : ((A.map StampedPose.t).map (· + c)).Pairwise (· < ·) :=
    hA.map _ fun a b h => by simpa using h
  have hlA : ((A.map StampedPose.t).map (· + c)).length = A.length := by simp
  have hlB : (B.map StampedPose.t).length = B.length := by simp
  have hSu : ∀ p ∈ shiftTimes c A, p.pose.q.norm = 1 := by
    intro p hp
    obtain ⟨p', hp', rfl⟩ := List.mem_map.mp hp
    exact hAu p' hp'
  have hSt := shiftTimes_t c A
  set tA := (A.map StampedPose.t).map (· + c) with htA
  set tB := B.map StampedPose.t with htB
  obtain ⟨mA, hmA, hmA'⟩ := npMedian_spec (l := npDiff tA) (by
    intro h; have := npDiff_length tA; rw [h] at this; simp at this; omega)
  obtain ⟨mB, hmB, hmB'⟩ := npMedian_spec (l := npDiff tB) (by
    intro h; have := npDiff_length tB; rw [h] at this; simp at this; omega)
  rw [steps_eq] at hmA' hmB'
  have key : ∃ (low high : List ℝ) (mlow mhigh : ℝ),
      selectFrom mA mB tA tB (max a0 b0) =
        .ok (low.filter fun t => decide (max a0 b0 ≤ t ∧ Spec.Near high t)) ∧
      (low = tA ∧ high = tB ∨ low = tB ∧ high = tA ∧ mhigh < mlow) ∧
      Spec.IsMedian (Spec.steps low) mlow ∧ Spec.IsMedian (Spec.steps high) mhigh ∧ mhigh ≤ mlow ∧
      low.Pairwise (· < ·) ∧
      ∀ t ∈ low.filter (fun t => decide (max a0 b0 ≤ t ∧ Spec.Near high t)), a0 ≤ t ∧ t ≤ a1 ∧ b0 ≤ t ∧ t ≤ b1 := by
    by_cases hm : mA ≥ mB
    · refine ⟨tA, tB, mA, mB, ?_, Or.inl ⟨rfl, rfl⟩, hmA', hmB', hm, hA', ?_⟩
      · rw [selectFrom, if_pos hm]
        exact selectSamples_eq hB hB0 (le_max_right _ _) tA hA'
      · intro t ht
        obtain ⟨h1, h2⟩ := List.mem_filter.mp ht
        obtain ⟨-, h3⟩ := of_decide_eq_true h2
        have e1 := mem_range hA' hA0 hA1 h1
        have e2 := near_range hB hB0 hB1 h3
        exact ⟨e1.1, e1.2, e2.1, e2.2⟩
    · refine ⟨tB, tA, mB, mA, ?_, Or.inr ⟨rfl, rfl, not_le.mp hm⟩, hmB', hmA', (not_le.mp hm).le, hB, ?_⟩
      · rw [selectFrom, if_neg hm]
        exact selectSamples_eq hA' hA0 (le_max_left _ _) tB hB
      · intro t ht
        obtain ⟨h1, h2⟩ := List.mem_filter.mp ht
        obtain ⟨-, h3⟩ := of_decide_eq_true h2
        have e1 := mem_range hB hB0 hB1 h1
        have e2 := near_range hA' hA0 hA1 h3
        exact ⟨e2.1, e2.2, e1.1, e1.2⟩
  obtain ⟨low, high, mlow, mhigh, k1, k2, k3, k4, k5, k6, k7⟩ := key
  obtain ⟨RA, r1, r2, -⟩ := interpolate_outcome (poses := shiftTimes c A) (hSt ▸ hA') hSu (hSt ▸ hA0) (hSt ▸ hA1)
    fun s hs => ⟨(k7 s hs).1, (k7 s hs).2.1⟩
  obtain ⟨RB, r3, r4, -⟩ := interpolate_outcome hB hBu hB0 hB1
    fun s hs => ⟨(k7 s hs).2.2.1, (k7 s hs).2.2.2⟩
  refine ⟨RA, RB, low, high, mlow, mhigh, ?_, k2, k3, k4, k5, r2, r4, r2.symm ▸ r1, r2.symm ▸ r3, r2.symm ▸ k7⟩
  have g0 : pyAt tA 0 = .ok a0 := by
    rw [List.head?_eq_getElem?] at hA0
    obtain ⟨h0, rfl⟩ := List.getElem?_eq_some_iff.mp hA0
    exact pyAt_ok _
  have g1 : pyAt tB 0 = .ok b0 := by
    rw [List.head?_eq_getElem?] at hB0
    obtain ⟨h0, rfl⟩ := List.getElem?_eq_some_iff.mp hB0
    exact pyAt_ok _
  have hlen : RA.length = RB.length := by
    rw [← List.length_map (f := StampedPose.t), r2, ← r4, List.length_map]
  unfold computeAlignedPoses
  simp only [hSt, ← htB, g0, g1, hmA, hmB, k1, r1, r3, Py.ok_bind]
  rw [pyAssert_pos hlen, Py.ok_bind, pyAssert_pos, Py.ok_bind]
  · rfl
  · intro p hp
    have : p.1.t = p.2.t := by
      have h1 : (p.1.t, p.2.t) ∈ (RA.map StampedPose.t).zip (RB.map StampedPose.t) := by
        rw [List.zip_map]
        exact List.mem_map.mpr ⟨p, hp, rfl⟩
      rw [r2, r4] at h1
      rw [List.zip_eq_zipWith, List.zipWith_self] at h1
      obtain ⟨x, -, hx⟩ := List.mem_map.mp h1
      have e1 := congrArg Prod.fst hx
      have e2 := congrArg Prod.snd hx
      exact e1.symm.trans e2
    rw [npIsclose, this, sub_self, abs_zero]
    positivity

/-- C47: on sorted tables, `compute_aligned_poses` succeeds; both results have the same, increasing time
column; the times are exactly those stamps of the table with the larger median step (`A`, shifted, if equal)
which are not before the start of either table and have support in the other; all lie in both ranges. -/
theorem C47_rows (A B : List StampedPose) (c a0 a1 b0 b1 : ℝ)
    (hA : (A.map StampedPose.t).Pairwise (· < ·)) (hB : (B.map StampedPose.t).Pairwise (· < ·))
    (hA2 : 2 ≤ A.length) (hB2 : 2 ≤ B.length)
    (hAu : ∀ p ∈ A, p.pose.q.norm = 1) (hBu : ∀ p ∈ B, p.pose.q.norm = 1)
    (hA0 : ((A.map StampedPose.t).map (· + c)).head? = some a0)
    (hA1 : ((A.map StampedPose.t).map (· + c)).getLast? = some a1)
    (hB0 : (B.map StampedPose.t).head? = some b0) (hB1 : (B.map StampedPose.t).getLast? = some b1) :
    ∃ (RA RB : List StampedPose) (low high : List ℝ) (mlow mhigh : ℝ),
      computeAlignedPoses A B c = .ok (RA, RB) ∧
      RA.map StampedPose.t = RB.map StampedPose.t ∧ (RA.map StampedPose.t).Pairwise (· < ·) ∧
      (low = (A.map StampedPose.t).map (· + c) ∧ high = B.map StampedPose.t ∨
        low = B.map StampedPose.t ∧ high = (A.map StampedPose.t).map (· + c) ∧ mhigh < mlow) ∧
      Spec.IsMedian (Spec.steps low) mlow ∧ Spec.IsMedian (Spec.steps high) mhigh ∧ mhigh ≤ mlow ∧
      (∀ t, t ∈ RA.map StampedPose.t ↔ t ∈ low ∧ a0 ≤ t ∧ b0 ≤ t ∧ Spec.Near high t) ∧
      ∀ t ∈ RA.map StampedPose.t, a0 ≤ t ∧ t ≤ a1 ∧ b0 ≤ t ∧ t ≤ b1 := by
  obtain ⟨RA, RB, low, high, mlow, mhigh, h1, h2, h3, h4, h5, h6, h7, -, -, h8⟩ :=
    aligned_outcome hA hB hA2 hB2 hAu hBu hA0 hA1 hB0 hB1
  refine ⟨RA, RB, low, high, mlow, mhigh, h1, h6.trans h7.symm, ?_, h2, h3, h4, h5, fun t => ?_, h8⟩
  · rw [h6]
    apply List.Pairwise.filter
    rcases h2 with ⟨rfl, -⟩ | ⟨rfl, -⟩
    · exact hA.map _ fun a b h => by simpa using h
    · exact hB
  · classical rw [h6, List.mem_filter, decide_eq_true_iff, max_le_iff, and_assoc]

/-- The hypotheses of `C47_rows` are satisfiable and some row is returned: two tables of three rows. -/
example : ∃ RA RB, computeAlignedPoses
    [⟨0, ⟨⟨0, 0, 0⟩, ⟨0, 0, 0, 1⟩⟩⟩, ⟨1 / 20, ⟨⟨1, 0, 0⟩, ⟨0, 0, 1, 0⟩⟩⟩, ⟨1 / 10, ⟨⟨2, 0, 0⟩, ⟨0, 0, 0, 1⟩⟩⟩]
    [⟨1, ⟨⟨0, 0, 0⟩, ⟨0, 0, 0, 1⟩⟩⟩, ⟨26 / 25, ⟨⟨1, 0, 0⟩, ⟨0, 0, 1, 0⟩⟩⟩, ⟨27 / 25, ⟨⟨2, 0, 0⟩, ⟨0, 0, 0, 1⟩⟩⟩] 1
      = .ok (RA, RB) ∧ (1 : ℝ) ∈ RA.map StampedPose.t := by
  have hq : (⟨0, 0, 0, 1⟩ : Quat).norm = 1 ∧ (⟨0, 0, 1, 0⟩ : Quat).norm = 1 := by
    constructor <;> simp [Quat.norm, Quat.dot]
  obtain ⟨RA, RB, low, high, mlow, mhigh, h1, -, -, h4, h5, h6, h7, h8, -⟩ := C47_rows
    [⟨0, ⟨⟨0, 0, 0⟩, ⟨0, 0, 0, 1⟩⟩⟩, ⟨1 / 20, ⟨⟨1, 0, 0⟩, ⟨0, 0, 1, 0⟩⟩⟩, ⟨1 / 10, ⟨⟨2, 0, 0⟩, ⟨0, 0, 0, 1⟩⟩⟩]
    [⟨1, ⟨⟨0, 0, 0⟩, ⟨0, 0, 0, 1⟩⟩⟩, ⟨26 / 25, ⟨⟨1, 0, 0⟩, ⟨0, 0, 1, 0⟩⟩⟩, ⟨27 / 25, ⟨⟨2, 0, 0⟩, ⟨0, 0, 0, 1⟩⟩⟩] 1
    1 (11 / 10) 1 (27 / 25) (by norm_num) (by norm_num) (by simp) (by simp) (by simp [hq]) (by simp [hq])
    (by norm_num) (by norm_num) (by norm_num) (by norm_num)
  refine ⟨RA, RB, h1, (h8 1).mpr ⟨?_, le_rfl, le_rfl, Or.inl ⟨0, ?_, ?_⟩⟩⟩ <;>
    rcases h4 with ⟨rfl, rfl⟩ | ⟨rfl, rfl, -⟩ <;> norm_num

/-! ## C62: no supported stamp is lost -/

/-- C62, where it holds: every stamp of the lower-rate table that is not before the start of either table and is
supported by stamps of the other not counting its last one gives a row.  `_partial`: see `C62_refuted` for
the last stamp. -/
theorem C62_kept_partial (A B : List StampedPose) (c a0 a1 b0 b1 : ℝ)
    (hA : (A.map StampedPose.t).Pairwise (· < ·)) (hB : (B.map StampedPose.t).Pairwise (· < ·))
    (hA2 : 2 ≤ A.length) (hB2 : 2 ≤ B.length)
    (hAu : ∀ p ∈ A, p.pose.q.norm = 1) (hBu : ∀ p ∈ B, p.pose.q.norm = 1)
    (hA0 : ((A.map StampedPose.t).map (· + c)).head? = some a0)
    (hA1 : ((A.map StampedPose.t).map (· + c)).getLast? = some a1)
    (hB0 : (B.map StampedPose.t).head? = some b0) (hB1 : (B.map StampedPose.t).getLast? = some b1) :
    ∃ (RA RB : List StampedPose) (low high : List ℝ),
      computeAlignedPoses A B c = .ok (RA, RB) ∧
      (low = (A.map StampedPose.t).map (· + c) ∧ high = B.map StampedPose.t ∨
        low = B.map StampedPose.t ∧ high = (A.map StampedPose.t).map (· + c)) ∧
      (∀ t ∈ low, a0 ≤ t → b0 ≤ t → ∀ l r, l ∈ high.dropLast → r ∈ high.dropLast → l ≤ t → t ≤ r →
        t - l < 1 / 10 → r - t ≤ 1 / 10 → t ∈ RA.map StampedPose.t) ∧
      ∀ t ∈ low, (∀ r ∈ high.dropLast, r < t) → t ∉ RA.map StampedPose.t := by
  obtain ⟨RA, RB, low, high, mlow, mhigh, h1, h2, h3, h4, h5, h6, h7, h8, h9⟩ :=
    C47_rows A B c a0 a1 b0 b1 hA hB hA2 hB2 hAu hBu hA0 hA1 hB0 hB1
  have hA' : ((A.map StampedPose.t).map (· + c)).Pairwise (· < ·) :=
    hA.map _ fun a b h => by simpa using h
  have hh : high.Pairwise (· < ·) := by
    rcases h4 with ⟨-, rfl⟩ | ⟨-, rfl, -⟩
    · exact hB
    · exact hA'
  refine ⟨RA, RB, low, high, h1, ?_, ?_, ?_⟩
  · rcases h4 with h | ⟨h, h', -⟩
    · exact Or.inl h
    · exact Or.inr ⟨h, h'⟩
  · intro t ht ha hb l r hl hr hlt htr hd1 hd2
    refine (h8 t).mpr ⟨ht, ha, hb, (near_bisect hh t).mpr ?_⟩
    obtain ⟨i, hi, rfl⟩ := List.mem_iff_getElem.mp hl
    obtain ⟨j, hj, rfl⟩ := List.mem_iff_getElem.mp hr
    rw [List.getElem_dropLast] at hlt htr hd1 hd2
    rw [List.length_dropLast] at hi hj
    obtain ⟨e0, e1, e2⟩ := bisectLeft_spec (sorted_le hh) t
    have hle : bisectLeft high t ≤ j := by
      by_contra hc
      exact absurd (e1 j (by omega) (by omega)) (not_lt.mpr htr)
    have mono : ∀ {i j : ℕ} (hi : i < high.length) (hj : j < high.length), i ≤ j → high[i] ≤ high[j] := by
      intro i j hi hj hij
      rcases hij.eq_or_lt with rfl | hlt
      · exact le_rfl
      · exact ((sorted_lt_iff hh hi hj).mpr hlt).le
    refine ⟨by omega, ?_⟩
    rcases (e2 _ (by omega) le_rfl).eq_or_lt with he | hlt'
    · exact Or.inl he.symm
    · right
      have hib : i < bisectLeft high t := by
        by_contra hc
        have := mono (i := bisectLeft high t) (j := i) (by omega) (by omega) (by omega)
        linarith
      refine ⟨by omega, ?_, ?_⟩
      · have := mono (i := i) (j := bisectLeft high t - 1) (by omega) (by omega) (by omega)
        linarith
      · have := mono (i := bisectLeft high t) (j := j) (by omega) (by omega) hle
        linarith
  · intro t ht hlast hm
    obtain ⟨-, -, -, hn⟩ := (h8 t).mp hm
    have drop : ∀ (k : ℕ) (r : ℝ), high[k]? = some r → k + 1 < high.length → r < t := by
      intro k r e1 e2
      apply hlast
      obtain ⟨hk, rfl⟩ := List.getElem?_eq_some_iff.mp e1
      exact List.mem_iff_getElem.mpr ⟨k, by simp; omega, by simp⟩
    rcases hn with ⟨k, e1, e2⟩ | ⟨k, l, r, -, e2, e3, -, e5, -⟩
    · exact lt_irrefl _ (drop k t e1 e2)
    · exact lt_irrefl _ (e5.trans (drop (k + 1) r e2 (by omega)))

/-- C62 is false at the end of the tables: for two equal tables the last stamp, which occurs in both, is lost. -/
theorem C62_refuted (p q : StampedPose) (h : p.t < q.t) (hp : p.pose.q.norm = 1) (hq : q.pose.q.norm = 1) :
    ∃ RA RB, computeAlignedPoses [p, q] [p, q] 0 = .ok (RA, RB) ∧
      RA.map StampedPose.t = [p.t] ∧ RB.map StampedPose.t = [p.t] := by
  classical
  obtain ⟨RA, RB, low, high, mlow, mhigh, h1, h2, -, -, -, h6, h7, -⟩ :=
    aligned_outcome (A := [p, q]) (B := [p, q]) (c := 0) (a0 := p.t) (a1 := q.t) (b0 := p.t) (b1 := q.t)
      (by simp [h]) (by simp [h]) (by simp) (by simp) (by simp [hp, hq]) (by simp [hp, hq])
      (by simp) (by simp) (by simp) (by simp)
  have hl : low = [p.t, q.t] ∧ high = [p.t, q.t] := by
    rcases h2 with ⟨rfl, rfl⟩ | ⟨rfl, rfl, -⟩ <;> simp
  obtain ⟨rfl, rfl⟩ := hl
  have hn : Spec.Near [p.t, q.t] p.t := Or.inl ⟨0, rfl, by simp⟩
  have hn' : ¬ Spec.Near [p.t, q.t] q.t := by
    rintro (⟨k, e1, e2⟩ | ⟨k, l, r, -, -, e3, -⟩)
    · have : k = 0 := by simp at e2; omega
      subst this
      simp at e1
      exact h.ne e1
    · simp at e3
  have hf : ([p.t, q.t].filter fun t => decide (max p.t p.t ≤ t ∧ Spec.Near [p.t, q.t] t)) = [p.t] := by
    rw [List.filter_cons_of_pos (by simpa using hn), List.filter_cons_of_neg (by simpa using fun _ => hn')]
    rfl
  refine ⟨RA, RB, h1, ?_, ?_⟩
  · rw [h6, ← hf]
  · rw [h7, ← hf]

/-- Such tables exist. -/
example : ∃ p q : StampedPose, p.t < q.t ∧ p.pose.q.norm = 1 ∧ q.pose.q.norm = 1 :=
  ⟨⟨0, ⟨⟨0, 0, 0⟩, ⟨0, 0, 0, 1⟩⟩⟩, ⟨1, ⟨⟨0, 0, 0⟩, ⟨0, 0, 0, 1⟩⟩⟩, by norm_num, by simp [Quat.norm, Quat.dot],
    by simp [Quat.norm, Quat.dot]⟩

end HandEye
