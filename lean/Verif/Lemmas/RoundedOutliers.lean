import Verif.Lemmas.RoundedRansac
import Verif.Lemmas.RoundedComplete
import Verif.Props.Ransac8
import Verif.Spec.RoundedOutliers

/-! # Lemmas: recorded pairs of poses with outliers, in floating-point arithmetic -/

open Quaternion

namespace HandEye

/-- The motion `a` is within `η` of that of the two dual quaternions of the motion `h` whose scalar part is positive; it is larger than `τ`. -/
def NearPositive (τ η D : ℝ) (h a : DQuat) : Prop :=
  ∃ c, (c = h ∨ c = -h) ∧ τ < c.rot.w ∧ Spec.NearDQ η a c ∧ ‖c.rot.toH‖ = 1 ∧ ‖c.dual.toH‖ ≤ 2 * D

theorem NearPositive.mono {τ η η' D : ℝ} {h a : DQuat} (hη : 0 ≤ η) (hle : η ≤ η') (hn : NearPositive τ η D h a) : NearPositive τ η' D h a := by
  obtain ⟨c, c1, c2, c3, c4⟩ := hn
  exact ⟨c, c1, c2, nearDQ_mono hη hle c3, c4⟩

theorem cosHalf_relative {a b : DQuat} (ha : Spec.IsUnit a) (hb : Spec.IsUnit b) : Spec.cosHalf a.rot b.rot = |(a.conj * b).rot.w| := by
  have u1 := DQuat.IsUnit.rot ha
  have u2 := DQuat.IsUnit.rot hb
  simp only [Quat.dot] at u1 u2
  unfold Spec.cosHalf
  rw [show a.rot.x ^ 2 + a.rot.y ^ 2 + a.rot.z ^ 2 + a.rot.w ^ 2 = 1 by linarith, show b.rot.x ^ 2 + b.rot.y ^ 2 + b.rot.z ^ 2 + b.rot.w ^ 2 = 1 by linarith,
    Real.sqrt_one, mul_one, div_one]
  congr 1
  simp [Quat.conj]
  ring

/-- A recorded pose after the alignment. -/
theorem rebase_positive {A : Arith} {u δ θ D τ : ℝ} (h : Spec.Machine u A) (hδ0 : 0 ≤ δ) (hδ : δ ≤ 1 / 100) (hθ : 0 ≤ θ) (hD : 0 ≤ D) {a a₀ b b₀ inv : DQuat}
    (ha : Spec.RecordedPose δ θ D a a₀) (hb : Spec.RecordedPose δ θ D b b₀) (hi : A.dqInverse a = .ok inv)
    (hτ : Spec.relativeError u δ θ D ≤ τ) (ht : τ < Spec.cosHalf a₀.rot b₀.rot) :
    NearPositive τ (Spec.relativeError u δ θ D) D (a₀.conj * b₀) (A.rebase inv true b) := by
  obtain ⟨c, hc, hn⟩ := rebase_near h hδ ha hb hi
  have s1 := ha.size
  have s2 := hb.size
  rw [len_eq] at s1 s2
  obtain ⟨v1, v2⟩ := relative_bounds ha.unit hb.unit s1 s2 hc
  refine ⟨c, hc, ?_, hn, v1, v2⟩
  rw [cosHalf_relative ha.unit hb.unit] at ht
  have hw : |c.rot.w| = |(a₀.conj * b₀).rot.w| := by
    rcases hc with rfl | rfl
    · rfl
    · rw [DQuat.neg_rot, Quat.neg_w, abs_neg]
  rw [← hw] at ht
  have hp := Arith.rebase_w_nonneg A inv b
  have hd := (nearDQ_parts (relativeError_nonneg h.nonneg hδ0 hθ hD) hn).1
  have hcw := (Arith.abs_component ((A.rebase inv true b).rot - c.rot)).2.2.2
  rw [Quat.toH_sub, Quat.sub_w] at hcw
  have := (abs_le.mp (hcw.trans hd)).2
  rcases lt_abs.mp ht with h | h <;> linarith

theorem NearPositive.normalise {A : Arith} {u τ η D : ℝ} (h : Spec.Machine u A) (hη : 0 ≤ η) (hη1 : η ≤ 1 / 10) (hD : 0 ≤ D) {m a b : DQuat}
    (hn : NearPositive τ η D m a) (hb : A.dqNormalize a = .ok b) : NearPositive τ (Spec.normalisedError u η D) D m b := by
  obtain ⟨c, c1, c2, c3, c4, c5⟩ := hn
  exact ⟨c, c1, c2, normalise_near h hη hη1 hD c4 c5 c3 hb, c4, c5⟩

/-- The scalar parts of such a motion, and those that the machine computes. -/
theorem NearPositive.scalar {A : Arith} {u τ η D : ℝ} (h : Spec.Machine u A) (hτ : 0 ≤ τ) (hη : 0 ≤ η) (hD : 0 ≤ D) {m a s : DQuat} (hn : NearPositive τ η D m a)
    (hs : A.scalar a = .ok s) :
    |s.rot.w - (Spec.scalarParts m).1| ≤ η + 2.01 * u * (1 + 2 * D + η) ∧ |s.dual.w - (Spec.scalarParts m).2| ≤ η + 2.01 * u * (1 + 2 * D + η) := by
  have hu := h.nonneg
  obtain ⟨c, c1, c2, c3, c4, c5⟩ := hn
  obtain ⟨r, d, e, e1, e2⟩ := scalar_near h a
  obtain rfl := Except.ok.inj (hs.symm.trans e)
  have hsp : Spec.scalarParts m = (c.rot.w, c.dual.w) := by
    unfold Spec.scalarParts
    rcases c1 with rfl | rfl
    · rw [if_neg (by linarith)]
    · rw [DQuat.neg_rot, Quat.neg_w] at c2 ⊢
      rw [if_pos (by linarith)]
      rfl
  rw [hsp]
  obtain ⟨n1, n2⟩ := nearDQ_parts hη c3
  have k1 := (Arith.abs_component (a.rot - c.rot)).2.2.2
  have k2 := (Arith.abs_component (a.dual - c.dual)).2.2.2
  rw [Quat.toH_sub, Quat.sub_w] at k1 k2
  have m1 := (Arith.abs_component c.rot).2.2.2
  have m2 := (Arith.abs_component c.dual).2.2.2
  rw [c4] at m1
  have key : ∀ x y z : ℝ, |x - y| ≤ 2.01 * u * |y| → |y - z| ≤ η → |z| ≤ 1 + 2 * D → |x - z| ≤ η + 2.01 * u * (1 + 2 * D + η) := by
    intro x y z l1 l2 l3
    have l4 := abs_sub_le x y z
    have l5 := abs_sub_abs_le_abs_sub y z
    have l6 : 2.01 * u * |y| ≤ 2.01 * u * (1 + 2 * D + η) := mul_le_mul_of_nonneg_left (by linarith) (by positivity)
    linarith
  exact ⟨key _ _ _ e1 (k1.trans n1) (by linarith), key _ _ _ e2 (k2.trans n2) (by linarith)⟩

/-- Motions that the machine takes for corresponding do so up to the errors. -/
theorem match_corresponds {A : Arith} {u τ η D tol : ℝ} (h : Spec.Machine u A) (hτ : 0 ≤ τ) (hη : 0 ≤ η) (hD : 0 ≤ D) {p q : DQuat × DQuat} {b w : DQuat}
    (hb : NearPositive τ η D (p.1.conj * q.1) b) (hw : NearPositive τ η D (p.2.conj * q.2) w) (hm : A.scalarMatch tol w b = .ok true) :
    Spec.Corresponds (Spec.testedTolerance u η D tol) p q := by
  have hu := h.nonneg
  obtain ⟨sw, sb, e1, e2, hc⟩ := scalarMatch_true hm
  obtain ⟨b1, b2⟩ := hb.scalar h hτ hη hD e2
  obtain ⟨w1, w2⟩ := hw.scalar h hτ hη hD e1
  obtain ⟨⟨_, _, _, k1⟩, _, _, _, k2⟩ := hc
  have hS : 0 ≤ u * (1 + 2 * D + η) := by positivity
  have key : ∀ x y x' y' : ℝ, |x - x'| ≤ η + 2.01 * u * (1 + 2 * D + η) → |y - y'| ≤ η + 2.01 * u * (1 + 2 * D + η) → |x - y| ≤ tol + 1e-5 * |y| →
      |x' - y'| ≤ Spec.testedTolerance u η D tol + 1e-5 * |y'| := by
    intro x y x' y' l1 l2 l3
    have l4 := abs_sub_le x' x y'
    have l5 := abs_sub_le x y y'
    have l6 := abs_sub_abs_le_abs_sub y y'
    rw [abs_sub_comm x' x] at l4
    unfold Spec.testedTolerance
    rw [mul_assoc] at l1 l2 ⊢
    norm_num at l3 ⊢
    linarith
  exact ⟨key _ _ _ _ w1 b1 k1, key _ _ _ _ w2 b2 k2⟩

/-- Pairs that fit are good pairs. -/
theorem good_of_near {τ η D : ℝ} {g X : DQuat} (hg : Spec.IsUnit g) (hX : Spec.IsUnit X) {p q : DQuat × DQuat} (hp1 : Spec.IsUnit p.1) (hp2 : Spec.IsUnit p.2)
    (hq1 : Spec.IsUnit q.1) (hq2 : Spec.IsUnit q.2) (hp : Spec.FitsMotion g X p) (hq : Spec.FitsMotion g X q) {s : DQuat × DQuat}
    (hb : NearPositive τ η D (p.1.conj * q.1) s.1) (hw : NearPositive τ η D (p.2.conj * q.2) s.2) : GoodPair τ η D X s := by
  obtain ⟨b, b1, b2, b3, b4, b5⟩ := hb
  obtain ⟨w, w1, w2, w3, w4, w5⟩ := hw
  have hr := relative_fits hg hX hp1 hp2 hq1 hq2 hp hq
  have hex : b * X = X * w ∨ b * X = X * -w := by
    rcases b1 with e1 | e1 <;> rcases w1 with e2 | e2 <;> rcases hr with e3 | e3 <;> rw [e1, e2] <;>
      simp only [neg_mul, mul_neg, neg_neg, e3, true_or, or_true]
  have ht : τ < |b.rot.w| := lt_of_lt_of_le b2 (le_abs_self _)
  rcases hex with e | e
  · exact ⟨b, w, handEyeEq_iff.mpr e, b3, .inl w3, ht, b4, b5, w4, w5⟩
  · refine ⟨b, -w, handEyeEq_iff.mpr e, b3, .inr ⟨rfl, ?_⟩, ht, b4, b5, ?_, ?_⟩
    · unfold Spec.NearDQ at w3
      refine le_trans (le_of_eq (Finset.sum_congr rfl fun j _ => ?_)) w3
      rw [vec8_neg]
      ring
    · rw [DQuat.neg_rot, Quat.toH_neg, norm_neg]; exact w4
    · rw [DQuat.neg_dual, Quat.toH_neg, norm_neg]; exact w5

/-- A pair of aligned motions and the true pair, seen from `p`. -/
def SeenFrom (τ η D : ℝ) (p : DQuat × DQuat) (s q : DQuat × DQuat) : Prop :=
  Spec.IsUnit q.1 ∧ Spec.IsUnit q.2 ∧ NearPositive τ η D (p.1.conj * q.1) s.1 ∧ NearPositive τ η D (p.2.conj * q.2) s.2

/-- All recorded pairs after the alignment at one of them. -/
theorem aligned_seen_at {A : Arith} {u δ θ D τ : ℝ} (h : Spec.Machine u A) (hδ0 : 0 ≤ δ) (hδ : δ ≤ 1 / 100) (hθ : 0 ≤ θ) (hD : 0 ≤ D)
    {L L₀ : List (DQuat × DQuat)} (hrec : List.Forall₂ (Spec.RecordedPair δ θ D) L L₀) (hτ : Spec.relativeError u δ θ D ≤ τ)
    (h1 : ∀ p ∈ L₀, ∀ q ∈ L₀, τ < Spec.cosHalf p.1.rot q.1.rot) (h2 : ∀ p ∈ L₀, ∀ q ∈ L₀, τ < Spec.cosHalf p.2.rot q.2.rot) {k : ℕ} {p₀ : DQuat × DQuat}
    (hk₀ : L₀[k]? = some p₀) {bs ws : List DQuat}
    (hb : A.alignPaths (L.map Prod.fst) k true = .ok bs) (hw : A.alignPaths (L.map Prod.snd) k true = .ok ws) :
    bs.length = L.length ∧ ws.length = L.length ∧
      List.Forall₂ (SeenFrom τ (Spec.relativeError u δ θ D) D p₀) (bs.zip ws) (L₀.drop k ++ L₀.take k) := by
  obtain ⟨j, a, i1, hj, hka, hi1, rfl⟩ := alignPaths_ok hb
  obtain ⟨j', c, i2, hj', hkc, hi2, rfl⟩ := alignPaths_ok hw
  refine ⟨by simp; omega, by simp; omega, ?_⟩
  have hk0 : k < L₀.length := (List.getElem?_eq_some_iff.mp hk₀).1
  have hkl : k < L.length := by rw [hrec.length_eq]; exact hk0
  rw [pyPos_natCast (by rw [List.length_map]; exact hkl)] at hj hj'
  obtain rfl := Option.some.inj hj
  obtain rfl := Option.some.inj hj'
  rw [List.getElem?_map] at hka hkc
  obtain ⟨p, hp, rfl⟩ := Option.map_eq_some_iff.mp hka
  rw [hp] at hkc
  obtain rfl : p.2 = c := Option.some.inj hkc
  have hmem : List.Forall₂ (fun q q₀ => Spec.RecordedPair δ θ D q q₀ ∧ q₀ ∈ L₀) L L₀ := by
    rw [List.forall₂_iff_zip] at hrec ⊢
    exact ⟨hrec.1, fun hm => ⟨hrec.2 hm, (List.of_mem_zip hm).2⟩⟩
  have hp₀ := List.mem_of_getElem? hk₀
  have rp := List.Forall₂.get hrec hkl hk0
  simp only [List.get_eq_getElem, (List.getElem?_eq_some_iff.mp hp).2, (List.getElem?_eq_some_iff.mp hk₀).2] at rp
  rw [← List.map_drop, ← List.map_take, ← List.map_drop, ← List.map_take, ← List.map_append, ← List.map_append, List.map_map, List.map_map,
    List.zip_map', List.forall₂_map_left_iff]
  refine (List.rel_append (List.forall₂_drop k hmem) (List.forall₂_take k hmem)).imp ?_
  rintro q q₀ ⟨rq, hq₀⟩
  exact ⟨rq.1.unit, rq.2.unit, rebase_positive h hδ0 hδ hθ hD rp.1 rq.1 hi1 hτ (h1 _ hp₀ _ hq₀), rebase_positive h hδ0 hδ hθ hD rp.2 rq.2 hi2 hτ (h2 _ hp₀ _ hq₀)⟩

/-- All recorded pairs after the alignment. -/
theorem aligned_seen {A : Arith} {u δ θ D τ : ℝ} (h : Spec.Machine u A) (hδ0 : 0 ≤ δ) (hδ : δ ≤ 1 / 100) (hθ : 0 ≤ θ) (hD : 0 ≤ D)
    {L L₀ : List (DQuat × DQuat)} (hrec : List.Forall₂ (Spec.RecordedPair δ θ D) L L₀) (hτ : Spec.relativeError u δ θ D ≤ τ)
    (h1 : ∀ p ∈ L₀, ∀ q ∈ L₀, τ < Spec.cosHalf p.1.rot q.1.rot) (h2 : ∀ p ∈ L₀, ∀ q ∈ L₀, τ < Spec.cosHalf p.2.rot q.2.rot) {k : ℕ} {bs ws : List DQuat}
    (hb : A.alignPaths (L.map Prod.fst) k true = .ok bs) (hw : A.alignPaths (L.map Prod.snd) k true = .ok ws) :
    bs.length = L.length ∧ ws.length = L.length ∧ ∃ p ∈ L₀, Spec.IsUnit p.1 ∧ Spec.IsUnit p.2 ∧
      ∃ L', L'.Perm L₀ ∧ List.Forall₂ (SeenFrom τ (Spec.relativeError u δ θ D) D p) (bs.zip ws) L' := by
  have hkl : k < L.length := by
    by_contra hn
    obtain ⟨j, a, _, hj, hv, _, _⟩ := alignPaths_ok hb
    have hjl := (List.getElem?_eq_some_iff.mp hv).1
    unfold pyPos at hj
    rw [if_pos (Int.natCast_nonneg k), Int.toNat_natCast, List.length_map, if_neg hn] at hj
    cases hj
  have hk0 : k < L₀.length := by rw [← hrec.length_eq]; exact hkl
  obtain ⟨l1, l2, hL⟩ := aligned_seen_at h hδ0 hδ hθ hD hrec hτ h1 h2 (List.getElem?_eq_getElem hk0) hb hw
  have rp := List.Forall₂.get hrec hkl hk0
  refine ⟨l1, l2, L₀[k], List.getElem_mem _, rp.1.unit, rp.2.unit, _, ?_, hL⟩
  exact (List.perm_append_comm).trans (List.Perm.of_eq (List.take_append_drop k L₀))

theorem compress_zip_eq {α β : Type} : ∀ (l : List α) (m : List β) (fl : List Bool), (compress l fl).zip (compress m fl) = compress (l.zip m) fl
  | [], m, fl => by simp [compress]
  | _ :: _, [], fl => by cases fl <;> simp [compress]
  | _ :: _, _ :: _, [] => by simp [compress]
  | a :: l, b :: m, f :: fl => by
    have := compress_zip_eq l m fl
    cases f <;> simp [compress, this]

theorem compress_forall₂ {α β : Type} {R : α → β → Prop} {l : List α} {m : List β} (h : List.Forall₂ R l m) :
    ∀ fl : List Bool, List.Forall₂ R (compress l fl) (compress m fl) := by
  induction h with
  | nil => intro fl; cases fl <;> exact .nil
  | cons h1 _ ih =>
    intro fl
    cases fl with
    | nil => exact .nil
    | cons f fl =>
      cases f with
      | false => simpa [compress] using ih fl
      | true => simpa [compress] using ⟨h1, ih fl⟩

theorem flags_match {A : Arith} {tol : ℝ} : ∀ {l : List (DQuat × DQuat)} {fl : List Bool}, l.mapM (fun p => A.scalarMatch tol p.1 p.2) = .ok fl →
    ∀ s ∈ compress l fl, A.scalarMatch tol s.1 s.2 = .ok true := by
  intro l
  induction l with
  | nil => intro fl h; cases h; simp [compress]
  | cons a l ih =>
    intro fl h
    rw [List.mapM_cons] at h
    obtain ⟨f, h1, h⟩ := Py.bind_eq_ok.mp h
    obtain ⟨fl', h2, h⟩ := Py.bind_eq_ok.mp h
    cases h
    intro s hs
    cases f with
    | false => exact ih h2 s (by simpa [compress] using hs)
    | true =>
      simp only [compress, if_true, List.mem_cons] at hs
      rcases hs with rfl | hs
      · exact h1
      · exact ih h2 s hs

theorem allMatch_all {A : Arith} {tol : ℝ} : ∀ {ws bs : List DQuat}, A.allMatch tol ws bs = .ok true → ∀ s ∈ ws.zip bs, A.scalarMatch tol s.1 s.2 = .ok true
  | [], _, _ => by simp
  | _ :: _, [], _ => by simp
  | w :: ws, b :: bs, h => by
    rw [Arith.allMatch] at h
    obtain ⟨f, h1, h⟩ := Py.bind_eq_ok.mp h
    cases f with
    | false => cases h
    | true =>
      simp only [if_true] at h
      intro s hs
      rw [List.zip_cons_cons, List.mem_cons] at hs
      rcases hs with rfl | hs
      · exact h1
      · exact allMatch_all h s hs

theorem seen_normalise {A : Arith} {u τ η D : ℝ} (h : Spec.Machine u A) (hη : 0 ≤ η) (hη1 : η ≤ 1 / 10) (hD : 0 ≤ D) {p : DQuat × DQuat} {bs bs' : List DQuat}
    (hn : List.Forall₂ (fun b b' => A.dqNormalize b = .ok b') bs bs') : ∀ {ws : List DQuat} {L : List (DQuat × DQuat)},
      List.Forall₂ (SeenFrom τ η D p) (bs.zip ws) L → List.Forall₂ (SeenFrom τ (Spec.normalisedError u η D) D p) (bs'.zip ws) L := by
  have hle := le_normalisedError (D := D) h.nonneg hη hD
  induction hn with
  | nil => intro ws L hL; cases hL; exact .nil
  | cons h1 _ ih =>
    intro ws L hL
    cases ws with
    | nil => cases hL; exact .nil
    | cons w ws =>
      cases hL with
      | cons r hL => exact .cons ⟨r.1, r.2.1, r.2.2.1.normalise h hη hη1 hD h1, r.2.2.2.mono hη hle⟩ (ih hL)

/-- What the classification returns. -/
theorem classify_seen {A : Arith} {u η τ D : ℝ} (h : Spec.Machine u A) (hη : 0 ≤ η) (hη1 : η ≤ 1 / 10) (hD : 0 ≤ D) {svd : Svd} {cfg : HandEyeConfig}
    {sb sw ab aw : List DQuat} {p : DQuat × DQuat} {L : List (DQuat × DQuat)} (ha : List.Forall₂ (SeenFrom τ η D p) (ab.zip aw) L) {k : Classified}
    (hk : A.classify svd cfg sb sw ab aw = .ok (some k)) :
    k.aligned_dq_B_H.length = ab.length ∧ List.Forall₂ (SeenFrom τ (Spec.normalisedError u η D) D p) (k.aligned_dq_B_H.zip aw) L ∧
    (∀ s ∈ (compress aw k.inlier_flags).zip (compress k.aligned_dq_B_H k.inlier_flags),
      A.scalarMatch cfg.ransac_sample_rejection_scalar_part_equality_tolerance s.1 s.2 = .ok true) ∧
    (k.initial = none ∨ cfg.ransac_inlier_classification = .rmseThreshold) := by
  have hle := le_normalisedError (D := D) h.nonneg hη hD
  unfold Arith.classify at hk
  cases hc : cfg.ransac_inlier_classification with
  | other => rw [hc] at hk; cases hk
  | scalarPartEquality =>
    rw [hc] at hk
    dsimp only at hk
    unfold Arith.classifyByScalar at hk
    obtain ⟨fl, hf, hk⟩ := Py.bind_eq_ok.mp hk
    cases hk
    refine ⟨rfl, ha.imp fun _ _ r => ⟨r.1, r.2.1, r.2.2.1.mono hη hle, r.2.2.2.mono hη hle⟩, ?_, .inl rfl⟩
    rw [compress_zip_eq]
    exact flags_match hf
  | rmseThreshold =>
    rw [hc] at hk
    dsimp only at hk
    unfold Arith.classifyByRmse at hk
    obtain ⟨_, a1, hk⟩ := Py.bind_eq_ok.mp hk
    cases ht : A.tryCalibrate svd cfg.hand_eye_calibration_scalar_part_equality_tolerance sb sw with
    | none => rw [ht] at hk; cases hk
    | some c =>
      rw [ht] at hk
      dsimp only at hk
      obtain ⟨⟨p1, p2⟩, _, hk⟩ := Py.bind_eq_ok.mp hk
      obtain ⟨ab', m1, hk⟩ := Py.bind_eq_ok.mp hk
      obtain ⟨⟨_, _, fl⟩, _, hk⟩ := Py.bind_eq_ok.mp hk
      obtain ⟨f0, _, hk⟩ := Py.bind_eq_ok.mp hk
      obtain ⟨_, _, hk⟩ := Py.bind_eq_ok.mp hk
      obtain ⟨ok, hok, hk⟩ := Py.bind_eq_ok.mp hk
      cases ok with
      | false => cases hk
      | true =>
        cases hk
        have hn := Py.mapM_eq_ok.mp m1
        exact ⟨hn.length_eq.symm, seen_normalise h hη hη1 hD hn ha, allMatch_all hok, .inr rfl⟩

/-- A candidate from the inliers. -/
theorem buildCandidate_inliers {A : Arith} {svd : Svd} {cfg : HandEyeConfig} {is : List ℕ} {k : Classified} {aw : List DQuat} {c : FloatCandidate}
    (h : A.buildCandidate svd cfg is k aw = .ok (some c)) (hi : k.initial = none ∨ cfg.ransac_model_refinement = true) :
    (compress k.aligned_dq_B_H k.inlier_flags).length = (compress aw k.inlier_flags).length ∧
    cfg.min_num_inliers ≤ (compress k.aligned_dq_B_H k.inlier_flags).length ∧
    A.tryCalibrate svd cfg.hand_eye_calibration_scalar_part_equality_tolerance (compress k.aligned_dq_B_H k.inlier_flags) (compress aw k.inlier_flags) =
      some c.calibration := by
  unfold Arith.buildCandidate at h
  obtain ⟨_, a1, h⟩ := Py.bind_eq_ok.mp h
  have hl := pyAssert_eq_ok.mp a1
  split at h
  · cases h
  rename_i hm
  refine ⟨hl, not_lt.mp hm, ?_⟩
  cases hr : A.refine svd cfg k.initial (compress k.aligned_dq_B_H k.inlier_flags) (compress aw k.inlier_flags) with
  | none => simp only [hr] at h; cases h
  | some c' =>
    simp only [hr] at h
    obtain ⟨⟨p1, p2⟩, _, h⟩ := Py.bind_eq_ok.mp h
    obtain ⟨⟨rp, ro, _⟩, _, h⟩ := Py.bind_eq_ok.mp h
    cases h
    unfold Arith.refine at hr
    split at hr
    · rename_i e1 e2
      rcases hi with e | e
      · rw [e] at e2; cases e2
      · rw [e] at e1; cases e1
    · exact hr

/-- Enough inliers fit, and so they are good pairs. -/
theorem inliers_good {A : Arith} {u δ θ D η tol : ℝ} {m : ℕ} (h : Spec.Machine u A) (hη : 0 ≤ η) (hD : 0 ≤ D) {g X : DQuat} (hg : Spec.IsUnit g)
    (hX : Spec.IsUnit X) {bs ws : List DQuat} {L₀ L' : List (DQuat × DQuat)} (hout : Spec.VisibleOutliers u δ θ D η tol m g X bs ws L₀) {p : DQuat × DQuat}
    (hp : p ∈ L₀) (u1 : Spec.IsUnit p.1) (u2 : Spec.IsUnit p.2) (hperm : L'.Perm L₀) {ab aw : List DQuat}
    (hL : List.Forall₂ (SeenFrom η η D p) (ab.zip aw) L') {fl : List Bool} (hl : (compress ab fl).length = (compress aw fl).length)
    (hm : ∀ s ∈ (compress aw fl).zip (compress ab fl), A.scalarMatch tol s.1 s.2 = .ok true) (hn : m ≤ (compress ab fl).length) :
    (compress ab fl).length ≤ L₀.length ∧ ∀ s ∈ (compress ab fl).zip (compress aw fl), GoodPair η η D X s := by
  set bi := compress ab fl
  set wi := compress aw fl
  have q5 : List.Forall₂ (SeenFrom η η D p) (bi.zip wi) (compress L' fl) := by
    rw [compress_zip_eq]
    exact compress_forall₂ hL fl
  have hcor : ∀ q ∈ compress L' fl, Spec.Corresponds (Spec.testedTolerance u η D tol) p q := by
    intro q hq
    obtain ⟨j, hj, rfl⟩ := List.getElem_of_mem hq
    have hjl : j < (bi.zip wi).length := by rw [q5.length_eq]; exact hj
    have hr := List.Forall₂.get q5 hjl hj
    have hz : (wi[j]'(by rw [List.length_zip] at hjl; omega), bi[j]'(by rw [List.length_zip] at hjl; omega)) ∈ wi.zip bi := by
      rw [← List.getElem_zip (h := by rw [List.length_zip] at hjl ⊢; omega)]
      exact List.getElem_mem _
    have hmt := hm _ hz
    simp only [List.get_eq_getElem, List.getElem_zip] at hr
    exact match_corresponds h hη hη hD hr.2.2.1 hr.2.2.2 hmt
  have hsub : (compress L' fl).Sublist L' := compress_sublist _ _
  have hnum : (compress L' fl).length ≤ Spec.number (Spec.Corresponds (Spec.testedTolerance u η D tol) p) L₀ := by
    unfold Spec.number
    rw [← hperm.countP_eq]
    refine le_trans (le_of_eq ?_) hsub.countP_le
    exact (List.countP_eq_length.mpr fun q hq => by simpa using hcor q hq).symm
  have hbl : (compress L' fl).length = bi.length := by
    rw [← q5.length_eq, List.length_zip, hl, min_self]
  have hfit : Spec.FitsMotion g X p := by
    by_contra hn
    have := hout.few p hp hn
    omega
  refine ⟨by rw [← hbl, ← hperm.length_eq]; exact hsub.length_le, ?_⟩
  intro s hs
  obtain ⟨j, hj, rfl⟩ := List.getElem_of_mem hs
  have hjl : j < (compress L' fl).length := by rw [← q5.length_eq]; exact hj
  have hr := List.Forall₂.get q5 hj hjl
  simp only [List.get_eq_getElem] at hr
  have hm : (compress L' fl)[j] ∈ compress L' fl := List.getElem_mem _
  exact good_of_near hg hX u1 u2 hr.1 hr.2.1 hfit (hout.visible p hp hfit _ (hperm.subset (hsub.subset hm)) (hcor _ hm)) hr.2.2.1 hr.2.2.2

/-- The inliers of a candidate fit. -/
theorem evaluateSample_outliers {A : Arith} {u δ θ D η : ℝ} (h : Spec.Machine u A) (hδ0 : 0 ≤ δ) (hδ : δ ≤ 1 / 100) (hθ : 0 ≤ θ) (hD : 0 ≤ D)
    (hη1 : Spec.relativeError u δ θ D ≤ 1 / 10) (hη : η = Spec.normalisedError u (Spec.relativeError u δ θ D) D) {g X : DQuat} (hg : Spec.IsUnit g)
    (hX : Spec.IsUnit X) {bs ws bf wf : List DQuat} (hlen : ws.length = bs.length) {L₀ : List (DQuat × DQuat)} {svd : Svd} {cfg : HandEyeConfig}
    (hout : Spec.VisibleOutliers u δ θ D η cfg.ransac_sample_rejection_scalar_part_equality_tolerance cfg.min_num_inliers g X bs ws L₀)
    (hmode : cfg.ransac_inlier_classification = .rmseThreshold → cfg.ransac_model_refinement = true) {is : List ℕ} {c : FloatCandidate}
    (hc : A.evaluateSample svd cfg bs ws bf wf is = .ok (.candidate c)) :
    CalibratedFrom A svd cfg.hand_eye_calibration_scalar_part_equality_tolerance η D X bs.length c.calibration := by
  have hη0 := relativeError_nonneg (D := D) h.nonneg hδ0 hθ hD
  have hle := le_normalisedError (D := D) h.nonneg hη0 hD
  rw [← hη] at hle
  have hηn := hη0.trans hle
  unfold Arith.evaluateSample at hc
  obtain ⟨⟨good, sb, sw⟩, h1, hc⟩ := Py.bind_eq_ok.mp hc
  dsimp only at hc
  cases good with
  | false => cases hc
  | true =>
    simp only [if_true] at hc
    obtain ⟨i0, _, hc⟩ := Py.bind_eq_ok.mp hc
    obtain ⟨ab, b1, hc⟩ := Py.bind_eq_ok.mp hc
    obtain ⟨aw, w1, hc⟩ := Py.bind_eq_ok.mp hc
    obtain ⟨ok, k1, hc⟩ := Py.bind_eq_ok.mp hc
    cases ok with
    | none => cases hc
    | some k =>
      dsimp only at hc
      obtain ⟨oc, k2, hc⟩ := Py.bind_eq_ok.mp hc
      cases oc with
      | none => cases hc
      | some c' =>
        cases hc
        have g1 : (bs.zip ws).map Prod.fst = bs := List.map_fst_zip (by omega)
        have g2 : (bs.zip ws).map Prod.snd = ws := List.map_snd_zip (by omega)
        obtain ⟨l1, l2, p, hp, u1, u2, L', hperm, hL⟩ := aligned_seen h hδ0 hδ hθ hD hout.recorded hle hout.hand hout.eye (by rw [g1]; exact b1)
          (by rw [g2]; exact w1)
        obtain ⟨q1, q2, q3, q4⟩ := classify_seen h hη0 hη1 hD hL k1
        rw [← hη] at q2
        obtain ⟨r1, r2, r3⟩ := buildCandidate_inliers k2 (q4.imp_right hmode)
        obtain ⟨e1, e2⟩ := inliers_good h hηn hD hg hX hout hp u1 u2 hperm q2 r1 q3 r2
        refine ⟨_, _, r3, r1, ?_, e2⟩
        rw [← hout.recorded.length_eq, List.length_zip] at e1
        omega

/-- The inliers of the baseline algorithm fit. -/
theorem firstInliers_outliers {A : Arith} {u δ θ D η : ℝ} (h : Spec.Machine u A) (hδ0 : 0 ≤ δ) (hδ : δ ≤ 1 / 100) (hθ : 0 ≤ θ) (hD : 0 ≤ D)
    (hη : η = Spec.relativeError u δ θ D) {g X : DQuat} (hg : Spec.IsUnit g) (hX : Spec.IsUnit X) {bs ws : List DQuat} (hlen : ws.length = bs.length)
    {L₀ : List (DQuat × DQuat)} {m : ℕ} (hout : Spec.VisibleOutliers u δ θ D η 1e-2 (m + 1) g X bs ws L₀) :
    ∀ {js : List ℕ} {r : ℕ × List DQuat × List DQuat}, A.firstInliers m bs ws js = .ok r →
      r.2.1.length = r.2.2.length ∧ r.2.1.length ≤ bs.length ∧ ∀ s ∈ r.2.1.zip r.2.2, GoodPair η η D X s := by
  have hη0 := relativeError_nonneg (D := D) h.nonneg hδ0 hθ hD
  rw [← hη] at hη0
  intro js
  induction js with
  | nil => intro r h; cases h
  | cons j js ih =>
    intro r hr
    rw [Arith.firstInliers] at hr
    obtain ⟨inl, h1, hr⟩ := Py.bind_eq_ok.mp hr
    obtain ⟨_, h2, hr⟩ := Py.bind_eq_ok.mp hr
    split at hr
    · rename_i hgt
      cases hr
      unfold Arith.inliersAt at h1
      obtain ⟨aw, w1, h1⟩ := Py.bind_eq_ok.mp h1
      obtain ⟨ab, b1, h1⟩ := Py.bind_eq_ok.mp h1
      obtain ⟨fl, hf, h1⟩ := Py.bind_eq_ok.mp h1
      cases h1
      have hl := pyAssert_eq_ok.mp h2
      dsimp only at hl hgt ⊢
      have g1 : (bs.zip ws).map Prod.fst = bs := List.map_fst_zip (by omega)
      have g2 : (bs.zip ws).map Prod.snd = ws := List.map_snd_zip (by omega)
      obtain ⟨l1, l2, p, hp, u1, u2, L', hperm, hL⟩ := aligned_seen h hδ0 hδ hθ hD hout.recorded hη.ge hout.hand hout.eye (by rw [g1]; exact b1)
        (by rw [g2]; exact w1)
      rw [← hη] at hL
      obtain ⟨e1, e2⟩ := inliers_good h hη0 hD hg hX hout hp u1 u2 hperm hL hl.symm (by rw [compress_zip_eq]; exact flags_match hf) (by omega)
      refine ⟨hl.symm, ?_, e2⟩
      rw [← hout.recorded.length_eq, List.length_zip] at e1
      omega
    · obtain ⟨_, _, hr⟩ := Py.bind_eq_ok.mp hr
      exact ih hr

end HandEye
