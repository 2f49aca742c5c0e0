import Verif.Lemmas.RoundedTables
import Verif.Lemmas.RoundedOutliers2
import Verif.Spec.RoundedOutliers

/-! # Lemmas: tables with outliers in floating-point arithmetic -/

namespace HandEye

/-- The pair `q'` is the pair `q` seen from the pair `a`, up to the signs. -/
def RebasedFrom (a q q' : DQuat × DQuat) : Prop :=
  (q'.1 = a.1.conj * q.1 ∨ q'.1 = -(a.1.conj * q.1)) ∧ (q'.2 = a.2.conj * q.2 ∨ q'.2 = -(a.2.conj * q.2))

theorem conj_rebased {a b c : DQuat} (ha : Spec.IsUnit a) : (a.conj * b).conj * (a.conj * c) = b.conj * c := by
  rw [DQuat.conj_mul_rev, show a.conj.conj = a by apply DQuat.ext' <;> simp, mul_assoc, ← mul_assoc a, DQuat.mul_conj_unit ha, one_mul]

theorem rebasedFrom_unit {a b m : DQuat} (ha : Spec.IsUnit a) (hb : Spec.IsUnit b) (hm : m = a.conj * b ∨ m = -(a.conj * b)) : Spec.IsUnit m := by
  rcases hm with rfl | rfl
  · exact DQuat.isUnit_mul (DQuat.isUnit_conj ha) hb
  · exact DQuat.isUnit_neg (DQuat.isUnit_mul (DQuat.isUnit_conj ha) hb)

theorem rebasedFrom_fits {g X : DQuat} (hg : Spec.IsUnit g) (hX : Spec.IsUnit X) {a q q' : DQuat × DQuat} (ha : Spec.IsUnit a.1) (ha' : Spec.IsUnit a.2)
    (hq : Spec.IsUnit q.1) (hq' : Spec.IsUnit q.2) (h : RebasedFrom a q q') :
    Spec.FitsMotion (a.2.conj * g * a.1) X q' ↔ Spec.FitsMotion g X q := by
  have hc := DQuat.isUnit_conj ha'
  rw [fitsMotion_iff (DQuat.isUnit_mul (DQuat.isUnit_mul hc hg) ha) hX (rebasedFrom_unit ha hq h.1) (rebasedFrom_unit ha' hq' h.2), fitsMotion_iff hg hX hq hq']
  have e : a.2.conj * g * a.1 * (a.1.conj * q.1) * X = a.2.conj * (g * q.1 * X) := by
    have : a.2.conj * g * a.1 * (a.1.conj * q.1) * X = a.2.conj * g * (a.1 * a.1.conj) * q.1 * X := by simp only [mul_assoc]
    rw [this, DQuat.mul_conj_unit ha, mul_one]
    simp only [mul_assoc]
  have cancel : ∀ x y : DQuat, a.2.conj * x = a.2.conj * y ↔ x = y := by
    intro x y
    refine ⟨fun h => ?_, fun h => by rw [h]⟩
    have := congrArg (a.2 * ·) h
    rwa [← mul_assoc, ← mul_assoc, DQuat.mul_conj_unit ha', one_mul, one_mul] at this
  have neg_cancel : ∀ x y : DQuat, a.2.conj * x = -(a.2.conj * y) ↔ x = -y := by
    intro x y
    rw [← mul_neg, cancel]
  have nn : ∀ x y : DQuat, -x = y ↔ x = -y := fun x y => ⟨fun h => by rw [← h, neg_neg], fun h => by rw [h, neg_neg]⟩
  rcases h.1 with h1 | h1 <;> rcases h.2 with h2 | h2 <;> rw [h1, h2]
  · rw [e, cancel, neg_cancel]
  · rw [e, neg_inj, cancel, nn, neg_cancel, or_comm]
  · rw [mul_neg, neg_mul, e, neg_neg, cancel, neg_cancel, or_comm]
  · rw [mul_neg, neg_mul, e, neg_neg, neg_inj, nn, cancel, neg_cancel]

theorem rebasedFrom_corresponds {tol : ℝ} {a p p' q q' : DQuat × DQuat} (ha : Spec.IsUnit a.1) (ha' : Spec.IsUnit a.2) (h : RebasedFrom a p p') (h' : RebasedFrom a q q')
    (hw : (p.1.conj * q.1).rot.w ≠ 0) (hw' : (p.2.conj * q.2).rot.w ≠ 0) : Spec.Corresponds tol p' q' ↔ Spec.Corresponds tol p q := by
  unfold Spec.Corresponds
  rw [scalarParts_signs h.1 h'.1 (by rw [conj_rebased ha]; exact hw), scalarParts_signs h.2 h'.2 (by rw [conj_rebased ha']; exact hw'),
    conj_rebased ha, conj_rebased ha']

/-- The aligned paths of a recording with visible outliers are a recording with visible outliers. -/
theorem aligned_visible {A : Arith} {u δ θ D η tol D' : ℝ} {m : ℕ} (h : Spec.Machine u A) (hδ0 : 0 ≤ δ) (hδ : δ ≤ 1 / 100) (hθ : 0 ≤ θ) (hD0 : 0 ≤ D)
    (hη : 0 ≤ η) (hD' : D' = 2 * D) {g X : DQuat} (hg : Spec.IsUnit g) (hX : Spec.IsUnit X) {v w : List DQuat} (hl : w.length = v.length)
    {L₀ : List (DQuat × DQuat)} (hrec : List.Forall₂ (Spec.RecordedPair δ θ D) (v.zip w) L₀) (hand : ∀ p ∈ L₀, ∀ q ∈ L₀, η < Spec.cosHalf p.1.rot q.1.rot)
    (eye : ∀ p ∈ L₀, ∀ q ∈ L₀, η < Spec.cosHalf p.2.rot q.2.rot)
    (visible : ∀ p ∈ L₀, Spec.FitsMotion g X p → ∀ q ∈ L₀, Spec.Corresponds (Spec.testedTolerance u η D' tol) p q → Spec.FitsMotion g X q)
    (few : ∀ p ∈ L₀, ¬ Spec.FitsMotion g X p → Spec.number (Spec.Corresponds (Spec.testedTolerance u η D' tol) p) L₀ < m) {bs ws : List DQuat}
    (hb : A.alignPaths v 0 true = .ok bs) (hw : A.alignPaths w 0 true = .ok ws) :
    bs.length = v.length ∧ ws.length = v.length ∧ ∃ g' L₁, Spec.IsUnit g' ∧
      Spec.VisibleOutliers u (Spec.relativeError u δ θ D) (Spec.relativeError u δ θ D) D' η tol m g' X bs ws L₁ := by
  have hη' := relativeError_nonneg (D := D) h.nonneg hδ0 hθ hD0
  obtain ⟨k, a, i1, hk, hka, hi1, rfl⟩ := alignPaths_ok hb
  obtain ⟨k', c, i2, hk', hkc, hi2, rfl⟩ := alignPaths_ok hw
  have hunit : ∀ p ∈ L₀, Spec.IsUnit p.1 ∧ Spec.IsUnit p.2 := by
    intro p hp
    obtain ⟨j, hj, rfl⟩ := List.getElem_of_mem hp
    have hj2 : j < (v.zip w).length := by rw [hrec.length_eq]; exact hj
    have r := List.Forall₂.get hrec hj2 hj
    exact ⟨r.1.unit, r.2.unit⟩
  cases v with
  | nil => rw [List.getElem?_nil] at hka; cases hka
  | cons a' v =>
  cases w with
  | nil => simp at hl
  | cons c' w =>
  have k0 : k = 0 := by
    simp [pyPos] at hk
    omega
  have k0' : k' = 0 := by
    simp [pyPos] at hk'
    omega
  subst k0
  subst k0'
  obtain rfl : a' = a := Option.some.inj hka
  obtain rfl : c' = c := Option.some.inj hkc
  rw [List.drop_zero, List.take_zero, List.append_nil, List.drop_zero, List.take_zero, List.append_nil]
  refine ⟨by rw [List.length_map], by rw [List.length_map, hl], ?_⟩
  obtain ⟨p₀, hp₀, rp⟩ : ∃ p₀ ∈ L₀, Spec.RecordedPair δ θ D (a', c') p₀ := by
    rw [List.zip_cons_cons] at hrec
    cases hrec with
    | cons r _ => exact ⟨_, by simp, r⟩
  have key : ∀ {l : List (DQuat × DQuat)} {M : List (DQuat × DQuat)}, List.Forall₂ (Spec.RecordedPair δ θ D) l M →
      ∃ M₁, List.Forall₂ (Spec.RecordedPair (Spec.relativeError u δ θ D) (Spec.relativeError u δ θ D) D')
        (l.map fun q => (A.rebase i1 true q.1, A.rebase i2 true q.2)) M₁ ∧ List.Forall₂ (RebasedFrom p₀) M M₁ := by
    intro l M hM
    induction hM with
    | nil => exact ⟨[], .nil, .nil⟩
    | cons rq _ ih =>
      obtain ⟨M₁, e1, e2⟩ := ih
      obtain ⟨b₀, hb₀, nb⟩ := rebase_near h hδ rp.1 rq.1 hi1
      obtain ⟨w₀, hw₀, nw⟩ := rebase_near h hδ rp.2 rq.2 hi2
      have sp1 := rp.1.size
      have sp2 := rp.2.size
      have sq1 := rq.1.size
      have sq2 := rq.2.size
      rw [len_eq] at sp1 sp2 sq1 sq2
      obtain ⟨_, v2⟩ := relative_bounds rp.1.unit rq.1.unit sp1 sq1 hb₀
      obtain ⟨_, v4⟩ := relative_bounds rp.2.unit rq.2.unit sp2 sq2 hw₀
      obtain ⟨nb1, nb2⟩ := nearDQ_parts hη' nb
      obtain ⟨nw1, nw2⟩ := nearDQ_parts hη' nw
      refine ⟨(b₀, w₀) :: M₁, .cons ⟨⟨rebasedFrom_unit rp.1.unit rq.1.unit hb₀, ?_, ?_, ?_⟩, ⟨rebasedFrom_unit rp.2.unit rq.2.unit hw₀, ?_, ?_, ?_⟩⟩ e1,
        .cons ⟨hb₀, hw₀⟩ e2⟩
      · rw [gap_eq]; exact nb1
      · rw [gap_eq]; exact nb2
      · rw [len_eq, hD']; exact v2
      · rw [gap_eq]; exact nw1
      · rw [gap_eq]; exact nw2
      · rw [len_eq, hD']; exact v4
  obtain ⟨L₁, r1, r2⟩ := key hrec
  obtain ⟨ua, ua'⟩ := hunit p₀ hp₀
  have hback : ∀ p' ∈ L₁, ∃ p ∈ L₀, RebasedFrom p₀ p p' := by
    intro p' hp'
    obtain ⟨j, hj, rfl⟩ := List.getElem_of_mem hp'
    have hj2 : j < L₀.length := by rw [r2.length_eq]; exact hj
    exact ⟨_, List.getElem_mem hj2, List.Forall₂.get r2 hj2 hj⟩
  have hw1 : ∀ p ∈ L₀, ∀ q ∈ L₀, (p.1.conj * q.1).rot.w ≠ 0 ∧ (p.2.conj * q.2).rot.w ≠ 0 := by
    intro p hp q hq
    have h1 := hand p hp q hq
    have h2 := eye p hp q hq
    rw [cosHalf_relative (hunit p hp).1 (hunit q hq).1] at h1
    rw [cosHalf_relative (hunit p hp).2 (hunit q hq).2] at h2
    constructor
    · intro e; rw [e, abs_zero] at h1; linarith
    · intro e; rw [e, abs_zero] at h2; linarith
  have hfit : ∀ {p p'}, p ∈ L₀ → RebasedFrom p₀ p p' → (Spec.FitsMotion (p₀.2.conj * g * p₀.1) X p' ↔ Spec.FitsMotion g X p) := fun hp hs =>
    rebasedFrom_fits hg hX ua ua' (hunit _ hp).1 (hunit _ hp).2 hs
  refine ⟨p₀.2.conj * g * p₀.1, L₁, DQuat.isUnit_mul (DQuat.isUnit_mul (DQuat.isUnit_conj ua') hg) ua, ?_, ?_, ?_, ?_, ?_⟩
  · rw [List.zip_map]
    exact r1
  · intro p' hp' q' hq'
    obtain ⟨p, hp, e⟩ := hback p' hp'
    obtain ⟨q, hq, e'⟩ := hback q' hq'
    rw [cosHalf_aligned ua (hunit p hp).1 (hunit q hq).1 e.1 e'.1]
    exact hand p hp q hq
  · intro p' hp' q' hq'
    obtain ⟨p, hp, e⟩ := hback p' hp'
    obtain ⟨q, hq, e'⟩ := hback q' hq'
    rw [cosHalf_aligned ua' (hunit p hp).2 (hunit q hq).2 e.2 e'.2]
    exact eye p hp q hq
  · intro p' hp' hf q' hq' hc
    obtain ⟨p, hp, e⟩ := hback p' hp'
    obtain ⟨q, hq, e'⟩ := hback q' hq'
    obtain ⟨n1, n2⟩ := hw1 p hp q hq
    exact (hfit hq e').mpr (visible p hp ((hfit hp e).mp hf) q hq ((rebasedFrom_corresponds ua ua' e e' n1 n2).mp hc))
  · intro p' hp' hf
    obtain ⟨p, hp, e⟩ := hback p' hp'
    rw [← number_eq (P := Spec.Corresponds (Spec.testedTolerance u η D' tol) p)]
    · exact few p hp (fun hc => hf ((hfit hp e).mpr hc))
    · rw [List.forall₂_iff_zip] at r2 ⊢
      refine ⟨r2.1, fun hm => ?_⟩
      obtain ⟨n1, n2⟩ := hw1 p hp _ (List.of_mem_zip hm).1
      exact (rebasedFrom_corresponds ua ua' e (r2.2 hm) n1 n2).symm

end HandEye
