import Verif.Model.RoundedAlign
import Verif.Props.AlignedPoses
import Verif.Props.RoundedPoses
import Verif.Props.SampleCount2

/-! # Property C113: the alignment of pose tables in floating-point arithmetic -/

namespace HandEye

/-- Time `t` has support in the times `high` (see `Spec.Near`), with the distance `d` instead of 0.1 s. -/
def Spec.HasSupport (d : ℝ) (high : List ℝ) (t : ℝ) : Prop :=
  (∃ k : ℕ, high[k]? = some t ∧ k + 1 < high.length) ∨
  ∃ (k : ℕ) (l r : ℝ), high[k]? = some l ∧ high[k + 1]? = some r ∧ k + 2 < high.length ∧ l < t ∧ t < r ∧ t - l < d ∧ r - t ≤ d

/-- What the loop tests. -/
def supportedFl (A : Arith) (high : List ℝ) (t : ℝ) : Prop :=
  (∃ k : ℕ, high[k]? = some t ∧ k + 1 < high.length) ∨
  ∃ (k : ℕ) (l r : ℝ), high[k]? = some l ∧ high[k + 1]? = some r ∧ k + 2 < high.length ∧ l < t ∧ t < r ∧ A.fl (t - l) < 1 / 10 ∧
    A.fl (r - t) ≤ 1 / 10

theorem supportedFl_bisect (A : Arith) {high : List ℝ} (hh : high.Pairwise (· < ·)) (t : ℝ) :
    supportedFl A high t ↔ ∃ hr : bisectLeft high t + 1 < high.length,
      high[bisectLeft high t] = t ∨ ∃ h0 : 0 < bisectLeft high t,
        A.fl (t - high[bisectLeft high t - 1]) < 1 / 10 ∧ A.fl (high[bisectLeft high t] - t) ≤ 1 / 10 := by
  constructor
  · rintro (⟨k, h1, h2⟩ | ⟨k, l, r, h1, h2, h3, h4, h5, h6, h7⟩)
    · obtain ⟨hk, rfl⟩ := List.getElem?_eq_some_iff.mp h1
      have := bisect_recorded hh hk
      refine ⟨by omega, Or.inl ?_⟩
      simp only [this]
    · obtain ⟨hk, rfl⟩ := List.getElem?_eq_some_iff.mp h1
      obtain ⟨hk', rfl⟩ := List.getElem?_eq_some_iff.mp h2
      have := bisect_between hh hk' h4 h5.le
      refine ⟨by omega, Or.inr ⟨by omega, ?_⟩⟩
      simp only [this, Nat.add_sub_cancel]
      exact ⟨h6, h7⟩
  · rintro ⟨hr, h⟩
    obtain ⟨b0, b1, b2⟩ := bisectLeft_spec (sorted_le hh) t
    rcases (b2 _ (by omega) le_rfl).eq_or_lt with he | hlt
    · exact Or.inl ⟨_, by rw [List.getElem?_eq_getElem (by omega), ← he], hr⟩
    · rcases h with h | ⟨h0, h1, h2⟩
      · exact absurd h hlt.ne'
      · right
        refine ⟨bisectLeft high t - 1, _, _, List.getElem?_eq_getElem (by omega), ?_, by omega,
          b1 _ (by omega) (by omega), hlt, h1, h2⟩
        rw [show bisectLeft high t - 1 + 1 = bisectLeft high t by omega]
        exact List.getElem?_eq_getElem _

open Classical in
/-- The samples are exactly the times that pass the test, in order. -/
theorem selectRounded_eq (A : Arith) {high : List ℝ} (hh : high.Pairwise (· < ·)) {first start : ℝ}
    (hf : high.head? = some first) (hfs : first ≤ start) (low : List ℝ) (hl : low.Pairwise (· < ·)) :
    A.selectSamples high start low = .ok (low.filter fun t => decide (start ≤ t ∧ supportedFl A high t)) := by
  induction low with
  | nil => rfl
  | cons t low ih =>
    have ih := ih hl.of_cons
    rw [Arith.selectSamples]
    by_cases hts : t < start
    · rw [if_pos hts, ih, List.filter_cons_of_neg]
      simp [hts]
    rw [if_neg hts]
    have hts := not_lt.mp hts
    have hnear := supportedFl_bisect A hh t
    by_cases hend : (bisectLeft high t : ℤ) ≥ (high.length : ℤ) - 1
    · rw [if_pos hend]
      congr 1
      symm
      rw [List.filter_eq_nil_iff]
      intro s hs
      have hst : t ≤ s := by
        rcases List.mem_cons.mp hs with rfl | hs
        · exact le_rfl
        · exact (List.rel_of_pairwise_cons hl hs).le
      have := bisect_mono hh hst
      simp only [decide_eq_true_eq, not_and]
      intro _ hn
      obtain ⟨hr, -⟩ := (supportedFl_bisect A hh s).mp hn
      omega
    rw [if_neg hend]
    have hr : bisectLeft high t + 1 < high.length := by omega
    rw [pyAt_ok (by omega), Py.ok_bind]
    obtain ⟨b0, b1, b2⟩ := bisectLeft_spec (sorted_le hh) t
    by_cases heq : t = high[bisectLeft high t]
    · rw [if_pos heq, ih, Py.ok_bind, List.filter_cons_of_pos]
      · rfl
      · rw [decide_eq_true_iff]
        exact ⟨hts, hnear.mpr ⟨hr, Or.inl heq.symm⟩⟩
    rw [if_neg heq]
    have h0 : 0 < bisectLeft high t := by
      by_contra hc
      have hz : bisectLeft high t = 0 := by omega
      apply heq
      have h1 := b2 0 (by omega) (by omega)
      rw [List.head?_eq_getElem?, List.getElem?_eq_getElem (by omega), Option.some.injEq] at hf
      simp only [hz]
      apply le_antisymm h1
      rw [hf]
      exact hfs.trans hts
    have hlt := b1 (bisectLeft high t - 1) (by omega) (by omega)
    have hc : (bisectLeft high t : ℤ) - 1 = ((bisectLeft high t - 1 : ℕ) : ℤ) := by omega
    rw [hc, pyGet_natCast (by omega), Py.ok_bind, if_neg (not_lt.mpr hlt.le)]
    by_cases hgap : A.fl (t - high[bisectLeft high t - 1]) < 0.1 ∧ A.fl (high[bisectLeft high t] - t) ≤ 0.1
    · rw [if_pos hgap, ih, Py.ok_bind, List.filter_cons_of_pos]
      · rfl
      · rw [decide_eq_true_iff]
        refine ⟨hts, hnear.mpr ⟨hr, Or.inr ⟨h0, ?_⟩⟩⟩
        norm_num only at hgap ⊢
        exact hgap
    · rw [if_neg hgap, ih, List.filter_cons_of_neg]
      simp only [decide_eq_true_eq, not_and]
      intro _ hn
      obtain ⟨_, h | ⟨_, h⟩⟩ := hnear.mp hn
      · exact heq h.symm
      · apply hgap
        norm_num only
        exact h

theorem supportedFl_of {u : ℝ} {A : Arith} (h : Spec.Machine u A) {high : List ℝ} {t : ℝ} (ht : Spec.HasSupport (1 / 10 * (1 - u)) high t) :
    supportedFl A high t := by
  rcases ht with ht | ⟨k, l, r, h1, h2, h3, h4, h5, h6, h7⟩
  · exact Or.inl ht
  · have h0 := h.nonneg
    refine Or.inr ⟨k, l, r, h1, h2, h3, h4, h5, ?_, ?_⟩
    · have e := (abs_le.mp (h.rounds (t - l))).2
      rw [abs_of_pos (by linarith)] at e
      nlinarith [mul_le_mul_of_nonneg_left h6.le h0]
    · have e := (abs_le.mp (h.rounds (r - t))).2
      rw [abs_of_pos (by linarith)] at e
      nlinarith [mul_le_mul_of_nonneg_left h7 h0]

theorem of_supportedFl {u : ℝ} {A : Arith} (h : Spec.Machine u A) {high : List ℝ} {t : ℝ} (ht : supportedFl A high t) :
    Spec.HasSupport (1 / 10 * (1 + 2 * u)) high t := by
  rcases ht with ht | ⟨k, l, r, h1, h2, h3, h4, h5, h6, h7⟩
  · exact Or.inl ht
  · have h0 := h.nonneg
    have hs := h.small
    refine Or.inr ⟨k, l, r, h1, h2, h3, h4, h5, ?_, ?_⟩
    · have e := (abs_le.mp (h.rounds (t - l))).1
      rw [abs_of_pos (by linarith)] at e
      nlinarith
    · have e := (abs_le.mp (h.rounds (r - t))).1
      rw [abs_of_pos (by linarith)] at e
      nlinarith

theorem supportedFl_range (A : Arith) {high : List ℝ} (hh : high.Pairwise (· < ·)) {first last : ℝ} (hf : high.head? = some first)
    (hl : high.getLast? = some last) {t : ℝ} (h : supportedFl A high t) : first ≤ t ∧ t ≤ last := by
  have key : ∀ x ∈ high, first ≤ x ∧ x ≤ last := fun x hx => mem_range hh hf hl hx
  rcases h with ⟨k, e1, -⟩ | ⟨k, l, r, e1, e2, -, e4, e5, -⟩
  · exact key t (List.mem_of_getElem? e1)
  · exact ⟨(key l (List.mem_of_getElem? e1)).1.trans e4.le, e5.le.trans (key r (List.mem_of_getElem? e2)).2⟩

theorem npSort_fl {A : Arith} (ho : Spec.Ordered A) (l : List ℝ) : npSort (l.map A.fl) = (npSort l).map A.fl := by
  apply List.Perm.eq_of_pairwise' (r := (· ≤ ·))
  · exact List.pairwise_insertionSort _ _
  · exact (List.pairwise_insertionSort (· ≤ ·) l).map _ fun a b hab => ho.mono a b hab
  · exact (List.perm_insertionSort _ _).trans ((List.perm_insertionSort _ _).symm.map _)

/-- The rounded median of rounded positive numbers. -/
theorem median_rounded {u : ℝ} {A : Arith} (h : Spec.Machine u A) (ho : Spec.Ordered A) {l : List ℝ} (hl : l ≠ []) (hp : ∀ x ∈ l, 0 < x) :
    ∃ m m', A.median (l.map A.fl) = .ok m' ∧ Spec.IsMedian l m ∧ 0 < m ∧ |m' - m| ≤ 4 * u * m := by
  have h0 := h.nonneg
  have hs := h.small
  have hperm : (npSort l).Perm l := List.perm_insertionSort _ _
  have hlen := hperm.length_eq
  have hl0 := List.length_pos_of_ne_nil hl
  have e1 : (npSort l)[(l.length - 1) / 2]? = some ((npSort l)[(l.length - 1) / 2]'(by omega)) := List.getElem?_eq_getElem _
  have e2 : (npSort l)[l.length / 2]? = some ((npSort l)[l.length / 2]'(by omega)) := List.getElem?_eq_getElem _
  have pa : 0 < (npSort l)[(l.length - 1) / 2]'(by omega) := hp _ (hperm.mem_iff.mp (List.getElem_mem _))
  have pb : 0 < (npSort l)[l.length / 2]'(by omega) := hp _ (hperm.mem_iff.mp (List.getElem_mem _))
  have d1 : (npSort (l.map A.fl)).getD ((l.length - 1) / 2) 0 = A.fl ((npSort l)[(l.length - 1) / 2]'(by omega)) := by
    rw [npSort_fl ho, getD_eq (by simp; omega), List.getElem_map]
  have d2 : (npSort (l.map A.fl)).getD (l.length / 2) 0 = A.fl ((npSort l)[l.length / 2]'(by omega)) := by
    rw [npSort_fl ho, getD_eq (by simp; omega), List.getElem_map]
  have hodd : l.length % 2 = 1 → (npSort l)[(l.length - 1) / 2]'(by omega) = (npSort l)[l.length / 2]'(by omega) := by
    intro hc
    have : (l.length - 1) / 2 = l.length / 2 := by omega
    simp only [this]
  generalize (npSort l)[(l.length - 1) / 2]'(by omega) = a at *
  generalize (npSort l)[l.length / 2]'(by omega) = b at *
  have ra := abs_le.mp (h.rounds a)
  have rb := abs_le.mp (h.rounds b)
  rw [abs_of_pos pa] at ra
  rw [abs_of_pos pb] at rb
  have hm : Spec.IsMedian l ((a + b) / 2) :=
    ⟨npSort l, a, b, hperm, List.pairwise_insertionSort _ _, by rw [hlen]; exact e1, by rw [hlen]; exact e2, rfl⟩
  unfold Arith.median
  rw [if_neg (by simpa using hl), List.length_map, d1, d2]
  by_cases hc : l.length % 2 = 1
  · rw [if_pos hc]
    have := hodd hc
    subst this
    refine ⟨_, _, rfl, hm, by linarith, ?_⟩
    rw [abs_le]
    constructor <;> nlinarith
  · rw [if_neg hc]
    refine ⟨_, _, rfl, hm, by linarith, ?_⟩
    have uab : u * a ≤ 1 / 1000 * a := mul_le_mul_of_nonneg_right hs pa.le
    have ubb : u * b ≤ 1 / 1000 * b := mul_le_mul_of_nonneg_right hs pb.le
    have ua0 : 0 ≤ u * a := mul_nonneg h0 pa.le
    have ub0 : 0 ≤ u * b := mul_nonneg h0 pb.le
    have rs := abs_le.mp (h.rounds (A.fl a + A.fl b))
    rw [abs_of_pos (by linarith)] at rs
    have k1 : u * (A.fl a + A.fl b) ≤ u * (1.001 * (a + b)) := mul_le_mul_of_nonneg_left (by norm_num; linarith) h0
    norm_num at k1
    generalize A.fl (A.fl a + A.fl b) = s at *
    have sp : 0 < s := by linarith
    have su : s ≤ 1.01 * (a + b) := by norm_num; linarith
    have rm := abs_le.mp (h.rounds (s / 2))
    rw [abs_of_pos (by linarith)] at rm
    have k2 : u * (s / 2) ≤ u * (1.01 * (a + b) / 2) := mul_le_mul_of_nonneg_left (by linarith) h0
    norm_num at k2
    rw [abs_le]
    constructor <;> linarith

theorem pairwise_shift {u : ℝ} {A : Arith} (h : Spec.Machine u A) {c T : ℝ} {l : List StampedPose} (hT : ∀ p ∈ l, |p.t + c| ≤ T)
    (hl : (l.map StampedPose.t).Pairwise fun s t => 2 * u * T < t - s) : ((A.shiftTimes c l).map StampedPose.t).Pairwise (· < ·) := by
  have h0 := h.nonneg
  unfold Arith.shiftTimes
  rw [List.map_map, List.pairwise_map]
  rw [List.pairwise_map] at hl
  refine hl.imp_of_mem ?_
  intro p q hp hq hpq
  have e1 := (abs_le.mp (h.rounds (p.t + c))).2
  have e2 := (abs_le.mp (h.rounds (q.t + c))).1
  have k1 := mul_le_mul_of_nonneg_left (hT p hp) h0
  have k2 := mul_le_mul_of_nonneg_left (hT q hq) h0
  simp only [Function.comp_apply]
  linarith

/-- `r` is, up to rounding errors, the row of the table `poses`, with the stamps `times`, at the time of `r`. -/
def Spec.RowOf (k bq bp : ℝ) (times : List ℝ) (poses : List StampedPose) (r : StampedPose) : Prop :=
  Spec.Resampled k bq times (poses.map fun p => p.pose.q) r.t r.pose.q ∧
  Spec.Positioned bp times (poses.map fun p => p.pose.pos.x) r.t r.pose.pos.x ∧
  Spec.Positioned bp times (poses.map fun p => p.pose.pos.y) r.t r.pose.pos.y ∧
  Spec.Positioned bp times (poses.map fun p => p.pose.pos.z) r.t r.pose.pos.z

/-- The rows at the samples. -/
theorem rows_rounded {u : ℝ} {A : Arith} (h : Spec.Machine u A) (ho : Spec.Ordered A) {e : ℝ} {cos sin : ℝ → ℝ}
    (hfun : Spec.Functions e A.acos cos sin) {δ : ℝ} (hδ : 10 * u ≤ δ) (hδ1 : δ ≤ 4e-6) {poses : List StampedPose} {M first last : ℝ}
    {samples : List ℝ} (hs : (poses.map StampedPose.t).Pairwise (· < ·)) (hu : ∀ p ∈ poses, |Spec.len p.pose.q - 1| ≤ δ)
    (hM : ∀ p ∈ poses, |p.pose.pos.x| ≤ M ∧ |p.pose.pos.y| ≤ M ∧ |p.pose.pos.z| ≤ M)
    (hf : (poses.map StampedPose.t).head? = some first) (hl : (poses.map StampedPose.t).getLast? = some last)
    (hin : ∀ s ∈ samples, first ≤ s ∧ s ≤ last) :
    ∃ rows, A.interpolatePoses cos sin poses samples = .ok rows ∧ rows.map StampedPose.t = samples ∧
      ∀ r ∈ rows, Spec.RowOf (3 * δ) (21 * Real.sqrt δ + 3e-7 + 10 * e) (13 * u * M) (poses.map StampedPose.t) poses r := by
  obtain ⟨rows, e1, e2⟩ := C110_poses h ho e cos sin hfun δ hδ hδ1 poses M first last samples hs hu hM hf hl hin
  refine ⟨rows, e1, ?_, ?_⟩
  · clear e1 hin
    induction e2 with
    | nil => rfl
    | cons hr _ ih => rw [List.map_cons, ih, hr.1]
  · clear e1 hin
    induction e2 with
    | nil => intro r hr; cases hr
    | cons hr _ ih =>
      intro r hm
      rcases List.mem_cons.mp hm with rfl | hm
      · obtain ⟨rfl, hr⟩ := hr
        exact hr
      · exact ih r hm

/-- **C113**: `compute_aligned_poses` in floating-point arithmetic.  If the stamps of both tables increase, those of the first so much that the rounding of their shift
(by `c`) keeps them apart, it never fails because of rounding.  Both results have the same increasing time column.  It consists of shifted stamps of the
first table or of stamps of the second table, whichever has the larger median time step up to a relative error of `9 u`; every such time has support in
the other table with distances of 0.1 s up to a relative error of `2 u`, and all times with a little more support are used.  All rows are those of the tables at their times,
up to rounding errors. -/
theorem C113_rows {u : ℝ} {A : Arith} (h : Spec.Machine u A) (ho : Spec.Ordered A) (e : ℝ) (cos sin : ℝ → ℝ)
    (hfun : Spec.Functions e A.acos cos sin) (δ : ℝ) (hδ : 10 * u ≤ δ) (hδ1 : δ ≤ 4e-6) (PA PB : List StampedPose) (c T M : ℝ)
    (hT : ∀ p ∈ PA, |p.t + c| ≤ T) (hA : (PA.map StampedPose.t).Pairwise fun s t => 2 * u * T < t - s)
    (hB : (PB.map StampedPose.t).Pairwise (· < ·)) (hA2 : 2 ≤ PA.length) (hB2 : 2 ≤ PB.length)
    (hq : ∀ p ∈ PA ++ PB, |Spec.len p.pose.q - 1| ≤ δ)
    (hM : ∀ p ∈ PA ++ PB, |p.pose.pos.x| ≤ M ∧ |p.pose.pos.y| ≤ M ∧ |p.pose.pos.z| ≤ M) :
    ∃ (RA RB : List StampedPose) (tA low high : List ℝ) (mlow mhigh a0 b0 : ℝ),
      A.alignedPoses cos sin PA PB c = .ok (RA, RB) ∧
      RA.map StampedPose.t = RB.map StampedPose.t ∧ (RA.map StampedPose.t).Pairwise (· < ·) ∧
      List.Forall₂ (fun p t => |t - (p.t + c)| ≤ u * T) PA tA ∧
      (low = tA ∧ high = PB.map StampedPose.t ∨ low = PB.map StampedPose.t ∧ high = tA) ∧
      Spec.IsMedian (Spec.steps low) mlow ∧ Spec.IsMedian (Spec.steps high) mhigh ∧ mhigh ≤ (1 + 9 * u) * mlow ∧
      tA.head? = some a0 ∧ (PB.map StampedPose.t).head? = some b0 ∧
      (∀ t ∈ RA.map StampedPose.t, t ∈ low ∧ a0 ≤ t ∧ b0 ≤ t ∧ Spec.HasSupport (1 / 10 * (1 + 2 * u)) high t) ∧
      (∀ t ∈ low, a0 ≤ t → b0 ≤ t → Spec.HasSupport (1 / 10 * (1 - u)) high t → t ∈ RA.map StampedPose.t) ∧
      (∀ r ∈ RA, Spec.RowOf (3 * δ) (21 * Real.sqrt δ + 3e-7 + 10 * e) (13 * u * M) tA PA r) ∧
      ∀ r ∈ RB, Spec.RowOf (3 * δ) (21 * Real.sqrt δ + 3e-7 + 10 * e) (13 * u * M) (PB.map StampedPose.t) PB r := by
  classical
  have h0 := h.nonneg
  have hsm := h.small
  have hA' := pairwise_shift h hT hA
  have hlA : ((A.shiftTimes c PA).map StampedPose.t).length = PA.length := by simp [Arith.shiftTimes]
  have hlB : (PB.map StampedPose.t).length = PB.length := by simp
  have hforall : List.Forall₂ (fun p t => |t - (p.t + c)| ≤ u * T) PA ((A.shiftTimes c PA).map StampedPose.t) := by
    unfold Arith.shiftTimes
    rw [List.map_map, List.forall₂_map_right_iff, List.forall₂_same]
    exact fun p hp => (h.rounds _).trans (mul_le_mul_of_nonneg_left (hT p hp) h0)
  have hAq : (A.shiftTimes c PA).map (fun p => p.pose) = PA.map fun p => p.pose := by simp [Arith.shiftTimes, Function.comp_def]
  have hmemA : ∀ p ∈ A.shiftTimes c PA, ∃ p' ∈ PA ++ PB, p.pose = p'.pose := by
    intro p hp
    obtain ⟨p', hp', rfl⟩ := List.mem_map.mp hp
    exact ⟨p', List.mem_append_left _ hp', rfl⟩
  have hnA : (A.shiftTimes c PA).map StampedPose.t ≠ [] := by
    intro e'
    rw [e'] at hlA
    simp at hlA
    omega
  have hnB : PB.map StampedPose.t ≠ [] := by
    intro e'
    rw [e'] at hlB
    simp at hlB
    omega
  have hA0 := List.head?_eq_some_head hnA
  have hA1 := List.getLast?_eq_some_getLast hnA
  have hB0 := List.head?_eq_some_head hnB
  have hB1 := List.getLast?_eq_some_getLast hnB
  have hrow : ∀ (k bq bp : ℝ) (times : List ℝ) (r : StampedPose), Spec.RowOf k bq bp times (A.shiftTimes c PA) r → Spec.RowOf k bq bp times PA r := by
    intro k bq bp times r hr
    have hg : ∀ {β : Type} (g : Pose → β), ((A.shiftTimes c PA).map fun p => g p.pose) = PA.map fun p => g p.pose := by
      intro β g
      simp [Arith.shiftTimes, Function.comp_def]
    unfold Spec.RowOf at hr ⊢
    rw [hg fun p => p.q, hg fun p => p.pos.x, hg fun p => p.pos.y, hg fun p => p.pos.z] at hr
    exact hr
  generalize htA : (A.shiftTimes c PA).map StampedPose.t = tA at *
  generalize htB : PB.map StampedPose.t = tB at *
  generalize tA.head hnA = a0 at *
  generalize tA.getLast hnA = a1 at *
  generalize tB.head hnB = b0 at *
  generalize tB.getLast hnB = b1 at *
  obtain ⟨mA, mA', hmA, hmA1, hmA2, hmA3⟩ := median_rounded h ho (l := npDiff tA) (by
    intro hc; have := npDiff_length tA; rw [hc] at this; simp at this; omega) (npDiff_positive hA')
  obtain ⟨mB, mB', hmB, hmB1, hmB2, hmB3⟩ := median_rounded h ho (l := npDiff tB) (by
    intro hc; have := npDiff_length tB; rw [hc] at this; simp at this; omega) (npDiff_positive hB)
  rw [steps_eq] at hmA1 hmB1
  have hcmp : ∀ {x x' y y' : ℝ}, 0 < x → 0 < y → |x' - x| ≤ 4 * u * x → |y' - y| ≤ 4 * u * y → y' ≤ x' → y ≤ (1 + 9 * u) * x := by
    intro x x' y y' px py hx hy hle
    have e1 := (abs_le.mp hx).2
    have e2 := (abs_le.mp hy).1
    have k1 : (1 - 4 * u) * y ≤ (1 + 4 * u) * x := by linarith
    have k2 : 0 < 1 - 4 * u := by linarith
    have k3 : (1 + 4 * u) * x ≤ (1 - 4 * u) * ((1 + 9 * u) * x) := by
      have : 0 ≤ u * (1 - 36 * u) * x := by
        have : 0 ≤ 1 - 36 * u := by linarith
        positivity
      nlinarith
    exact le_of_mul_le_mul_left (k1.trans k3) k2
  have key : ∃ (low high : List ℝ) (mlow mhigh : ℝ),
      A.selectFrom mA' mB' tA tB (max a0 b0) = .ok (low.filter fun t => decide (max a0 b0 ≤ t ∧ supportedFl A high t)) ∧
      (low = tA ∧ high = tB ∨ low = tB ∧ high = tA) ∧
      Spec.IsMedian (Spec.steps low) mlow ∧ Spec.IsMedian (Spec.steps high) mhigh ∧ mhigh ≤ (1 + 9 * u) * mlow ∧
      low.Pairwise (· < ·) ∧
      ∀ t ∈ low.filter (fun t => decide (max a0 b0 ≤ t ∧ supportedFl A high t)), a0 ≤ t ∧ t ≤ a1 ∧ b0 ≤ t ∧ t ≤ b1 := by
    by_cases hm : mA' ≥ mB'
    · refine ⟨tA, tB, mA, mB, ?_, Or.inl ⟨rfl, rfl⟩, hmA1, hmB1, hcmp hmA2 hmB2 hmA3 hmB3 hm, hA', ?_⟩
      · rw [Arith.selectFrom, if_pos hm]
        exact selectRounded_eq A hB hB0 (le_max_right _ _) tA hA'
      · intro t ht
        obtain ⟨h1, h2⟩ := List.mem_filter.mp ht
        obtain ⟨-, h3⟩ := of_decide_eq_true h2
        have e1 := mem_range hA' hA0 hA1 h1
        have e2 := supportedFl_range A hB hB0 hB1 h3
        exact ⟨e1.1, e1.2, e2.1, e2.2⟩
    · refine ⟨tB, tA, mB, mA, ?_, Or.inr ⟨rfl, rfl⟩, hmB1, hmA1, hcmp hmB2 hmA2 hmB3 hmA3 (not_le.mp hm).le, hB, ?_⟩
      · rw [Arith.selectFrom, if_neg hm]
        exact selectRounded_eq A hA' hA0 (le_max_left _ _) tB hB
      · intro t ht
        obtain ⟨h1, h2⟩ := List.mem_filter.mp ht
        obtain ⟨-, h3⟩ := of_decide_eq_true h2
        have e1 := mem_range hB hB0 hB1 h1
        have e2 := supportedFl_range A hA' hA0 hA1 h3
        exact ⟨e2.1, e2.2, e1.1, e1.2⟩
  obtain ⟨low, high, mlow, mhigh, k1, k2, k3, k4, k5, k6, k7⟩ := key
  obtain ⟨RA, r1, r2, r3⟩ := rows_rounded h ho hfun hδ hδ1 (poses := A.shiftTimes c PA) (M := M) (htA ▸ hA') (by
      intro p hp
      obtain ⟨p', hp', e'⟩ := hmemA p hp
      rw [e']
      exact hq p' hp') (by
      intro p hp
      obtain ⟨p', hp', e'⟩ := hmemA p hp
      rw [e']
      exact hM p' hp') (htA ▸ hA0) (htA ▸ hA1)
    fun s hs => ⟨(k7 s hs).1, (k7 s hs).2.1⟩
  obtain ⟨RB, r4, r5, r6⟩ := rows_rounded h ho hfun hδ hδ1 (poses := PB) (M := M) (htB ▸ hB)
    (fun p hp => hq p (List.mem_append_right _ hp)) (fun p hp => hM p (List.mem_append_right _ hp)) (htB ▸ hB0) (htB ▸ hB1)
    fun s hs => ⟨(k7 s hs).2.2.1, (k7 s hs).2.2.2⟩
  rw [htA] at r3
  rw [htB] at r6
  refine ⟨RA, RB, tA, low, high, mlow, mhigh, a0, b0, ?_, r2.trans r5.symm, ?_, hforall, k2, k3, k4, k5, hA0, hB0, ?_, ?_, fun r hr => hrow _ _ _ _ _ (r3 r hr), r6⟩
  · have g0 : pyAt tA 0 = .ok a0 := by
      rw [List.head?_eq_getElem?] at hA0
      obtain ⟨h0, rfl⟩ := List.getElem?_eq_some_iff.mp hA0
      exact pyAt_ok _
    have g1 : pyAt tB 0 = .ok b0 := by
      rw [List.head?_eq_getElem?] at hB0
      obtain ⟨h0, rfl⟩ := List.getElem?_eq_some_iff.mp hB0
      exact pyAt_ok _
    have hlen : RA.length = RB.length := by
      rw [← List.length_map (f := StampedPose.t), r2, ← r5, List.length_map]
    unfold Arith.alignedPoses
    simp only [htA, htB, g0, g1, hmA, hmB, k1, r1, r4, Py.ok_bind]
    rw [pyAssert_pos hlen, Py.ok_bind, pyAssert_pos, Py.ok_bind]
    · rfl
    · intro p hp
      have : p.1.t = p.2.t := by
        have h1 : (p.1.t, p.2.t) ∈ (RA.map StampedPose.t).zip (RB.map StampedPose.t) := by
          rw [List.zip_map]
          exact List.mem_map.mpr ⟨p, hp, rfl⟩
        rw [r2, r5] at h1
        rw [List.zip_eq_zipWith, List.zipWith_self] at h1
        obtain ⟨x, -, hx⟩ := List.mem_map.mp h1
        have e1 := congrArg Prod.fst hx
        have e2 := congrArg Prod.snd hx
        exact e1.symm.trans e2
      rw [npIsclose, this, sub_self, abs_zero]
      positivity
  · rw [r2]
    exact k6.filter _
  · intro t ht
    rw [r2] at ht
    obtain ⟨h1, h2⟩ := List.mem_filter.mp ht
    obtain ⟨h2, h3⟩ := of_decide_eq_true h2
    exact ⟨h1, (le_max_left _ _).trans h2, (le_max_right _ _).trans h2, of_supportedFl h h3⟩
  · intro t ht ha hb hsup
    rw [r2]
    exact List.mem_filter.mpr ⟨ht, decide_eq_true ⟨max_le ha hb, supportedFl_of h hsup⟩⟩

/-- Two short tables, the first shifted by one second: some row results. -/
example : ∃ RA RB, (doubleArith Real.arccos).alignedPoses Real.cos Real.sin
    [⟨0, ⟨⟨1, 2, 3⟩, ⟨0, 0, 0, 1⟩⟩⟩, ⟨0.06, ⟨⟨2, 2, 3⟩, ⟨0, 0, 0.6, 0.8⟩⟩⟩, ⟨0.12, ⟨⟨2, 1, 3⟩, ⟨0, 0, 0.6, 0.8⟩⟩⟩]
    [⟨1, ⟨⟨1, 1, 1⟩, ⟨0, 0, 0, 1⟩⟩⟩, ⟨1.04, ⟨⟨1, 1, 2⟩, ⟨0, 0, 0.8, 0.6⟩⟩⟩, ⟨1.08, ⟨⟨1, 1, 3⟩, ⟨0, 0, 0, 1⟩⟩⟩, ⟨1.2, ⟨⟨1, 1, 3⟩, ⟨0, 0, 0, 1⟩⟩⟩] 1 =
    .ok (RA, RB) ∧ RA ≠ [] ∧ RA.length = RB.length := by
  obtain ⟨RA, RB, tA, low, high, mlow, mhigh, a0, b0, e1, e2, -, e4, e5, -, -, -, e9, e10, -, e12, -⟩ := C113_rows
    (machine_double Real.arccos) (C110_ordered _) 0 _ _ functions_exact (10 * 2⁻¹ ^ 53) le_rfl (by norm_num)
    [⟨0, ⟨⟨1, 2, 3⟩, ⟨0, 0, 0, 1⟩⟩⟩, ⟨0.06, ⟨⟨2, 2, 3⟩, ⟨0, 0, 0.6, 0.8⟩⟩⟩, ⟨0.12, ⟨⟨2, 1, 3⟩, ⟨0, 0, 0.6, 0.8⟩⟩⟩]
    [⟨1, ⟨⟨1, 1, 1⟩, ⟨0, 0, 0, 1⟩⟩⟩, ⟨1.04, ⟨⟨1, 1, 2⟩, ⟨0, 0, 0.8, 0.6⟩⟩⟩, ⟨1.08, ⟨⟨1, 1, 3⟩, ⟨0, 0, 0, 1⟩⟩⟩, ⟨1.2, ⟨⟨1, 1, 3⟩, ⟨0, 0, 0, 1⟩⟩⟩]
    1 2 3 (by
      intro p hp
      simp only [List.mem_cons, List.not_mem_nil, or_false] at hp
      rcases hp with rfl | rfl | rfl <;> rw [abs_le] <;> norm_num) (by norm_num) (by norm_num) (by simp) (by simp) (by
      intro p hp
      have : Spec.len p.pose.q = 1 := by
        simp only [List.cons_append, List.nil_append, List.mem_cons, List.not_mem_nil, or_false] at hp
        rcases hp with rfl | rfl | rfl | rfl | rfl | rfl | rfl <;> unfold Spec.len <;> norm_num
      rw [this, sub_self, abs_zero]
      positivity) (by
      intro p hp
      simp only [List.cons_append, List.nil_append, List.mem_cons, List.not_mem_nil, or_false] at hp
      rcases hp with rfl | rfl | rfl | rfl | rfl | rfl | rfl <;> norm_num)
  refine ⟨RA, RB, e1, ?_, by simpa using congrArg List.length e2⟩
  obtain ⟨x, l1, hx, h1, rfl⟩ := List.forall₂_cons_left_iff.mp e4
  obtain ⟨y, l2, hy, h2, rfl⟩ := List.forall₂_cons_left_iff.mp h1
  obtain ⟨z, l3, hz, h3, rfl⟩ := List.forall₂_cons_left_iff.mp h2
  rw [List.forall₂_nil_left_iff.mp h3] at *
  obtain ⟨x1, x2⟩ := abs_le.mp hx
  obtain ⟨y1, y2⟩ := abs_le.mp hy
  obtain ⟨z1, z2⟩ := abs_le.mp hz
  norm_num at x1 x2 y1 y2 z1 z2
  simp only [List.head?_cons, List.map_cons, Option.some.injEq] at e9 e10
  subst e9 e10
  rintro rfl
  simp only [List.map_nil, List.not_mem_nil, imp_false] at e12
  rcases e5 with ⟨rfl, rfl⟩ | ⟨rfl, rfl⟩
  · refine e12 y (by simp) (by linarith) (by linarith) (Or.inr ⟨1, 1.04, 1.08, by simp, by simp, by simp, ?_, ?_, ?_, ?_⟩) <;> norm_num <;> linarith
  · refine e12 1.04 (by simp) (by norm_num; linarith) (by norm_num) (Or.inr ⟨0, x, y, by simp, by simp, by simp, ?_, ?_, ?_, ?_⟩) <;> norm_num <;> linarith

end HandEye
