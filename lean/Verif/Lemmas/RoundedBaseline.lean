import Verif.Lemmas.RoundedRebase
import Verif.Lemmas.OutlierSigns
import Verif.Model.RoundedBaseline
import Verif.Spec.Recorded
import Verif.Props.RoundedSolver

/-! # Lemmas: recorded pairs of poses after the alignment -/

open Quaternion

namespace HandEye

theorem sum_vec8_sub (a b : DQuat) : ∑ j, (Spec.vec8 a j - Spec.vec8 b j) ^ 2 = ‖a.rot.toH - b.rot.toH‖ ^ 2 + ‖a.dual.toH - b.dual.toH‖ ^ 2 := by
  rw [← Quat.toH_sub, ← Quat.toH_sub, norm_sq_toH, norm_sq_toH, Fin.sum_univ_eight]
  simp [Spec.vec8]
  ring

theorem vec8_neg (a : DQuat) (j : Fin 8) : Spec.vec8 (-a) j = -Spec.vec8 a j := by
  fin_cases j <;> rfl

theorem nearDQ_of_parts {a b : DQuat} {x y : ℝ} (h1 : ‖a.rot.toH - b.rot.toH‖ ≤ x) (h2 : ‖a.dual.toH - b.dual.toH‖ ≤ y) : Spec.NearDQ (x + y) a b := by
  have hx : 0 ≤ x := (norm_nonneg _).trans h1
  have hy : 0 ≤ y := (norm_nonneg _).trans h2
  unfold Spec.NearDQ
  rw [sum_vec8_sub]
  have := pow_le_pow_left₀ (norm_nonneg _) h1 2
  have := pow_le_pow_left₀ (norm_nonneg _) h2 2
  nlinarith [mul_nonneg hx hy]

theorem nearDQ_neg_neg {a b : DQuat} {η : ℝ} (h : Spec.NearDQ η a b) : Spec.NearDQ η (-a) (-b) := by
  unfold Spec.NearDQ at h ⊢
  refine le_trans (le_of_eq ?_) h
  refine Finset.sum_congr rfl fun j _ => ?_
  rw [vec8_neg, vec8_neg]
  ring

/-- What `align_paths_at_index` returns, if it returns. -/
theorem alignPaths_ok {A : Arith} {v l : List DQuat} {i : ℤ} {enf : Bool} (h : A.alignPaths v i enf = .ok l) :
    ∃ k a inv, pyPos v.length i = some k ∧ v[k]? = some a ∧ A.dqInverse a = .ok inv ∧ l = (v.drop k ++ v.take k).map (A.rebase inv enf) := by
  have h' := h
  unfold Arith.alignPaths at h'
  obtain ⟨a, ha, h1⟩ := Py.bind_eq_ok.mp h'
  obtain ⟨inv, hi, _⟩ := Py.bind_eq_ok.mp h1
  unfold pyGet at ha
  cases hk : pyPos v.length i with
  | none => rw [hk] at ha; cases ha
  | some k =>
    rw [hk] at ha
    cases hv : v[k]? with
    | none => simp only [hv] at ha; cases ha
    | some b =>
      simp only [hv] at ha
      cases ha
      refine ⟨k, a, inv, rfl, hv, hi, ?_⟩
      rw [Arith.alignPaths_eq_assert hk hv hi] at h
      obtain ⟨_, _, h2⟩ := Py.bind_eq_ok.mp h
      exact (Except.ok.inj h2).symm

/-- The motions between two pairs of poses that fit. -/
theorem relative_fits {g X : DQuat} (hg : Spec.IsUnit g) (hX : Spec.IsUnit X) {p q : DQuat × DQuat} (hp1 : Spec.IsUnit p.1) (hp2 : Spec.IsUnit p.2)
    (hq1 : Spec.IsUnit q.1) (hq2 : Spec.IsUnit q.2) (hp : Spec.FitsMotion g X p) (hq : Spec.FitsMotion g X q) :
    (p.1.conj * q.1) * X = X * (p.2.conj * q.2) ∨ (p.1.conj * q.1) * X = -(X * (p.2.conj * q.2)) := by
  have key : X * ((g * p.1 * X).conj * (g * q.1 * X)) = p.1.conj * q.1 * X := by
    rw [DQuat.conj_mul_rev, DQuat.conj_mul_rev]
    have e : X * (X.conj * (p.1.conj * g.conj) * (g * q.1 * X)) = (X * X.conj) * p.1.conj * (g.conj * g) * q.1 * X := by
      simp only [mul_assoc]
    rw [e, DQuat.mul_conj_unit hX, DQuat.conj_mul_unit hg, one_mul, mul_one]
  have hn : ∀ a : DQuat, (-a).conj = -a.conj := by
    intro a
    apply DQuat.ext' <;> ext <;> simp
  rcases (fitsMotion_iff hg hX hp1 hp2).mp hp with h1 | h1 <;> rcases (fitsMotion_iff hg hX hq1 hq2).mp hq with h2 | h2 <;> rw [h1, h2]
  · exact .inl key.symm
  · right; rw [mul_neg, mul_neg, neg_neg]; exact key.symm
  · right; rw [hn, neg_mul, mul_neg, neg_neg]; exact key.symm
  · left; rw [hn, neg_mul_neg]; exact key.symm

/-- A recorded pose after the alignment. -/
theorem rebase_near {A : Arith} {u δ θ D : ℝ} (h : Spec.Machine u A) (hδ : δ ≤ 1 / 100) {a a₀ b b₀ inv : DQuat} (ha : Spec.RecordedPose δ θ D a a₀)
    (hb : Spec.RecordedPose δ θ D b b₀) (hi : A.dqInverse a = .ok inv) :
    ∃ c, (c = a₀.conj * b₀ ∨ c = -(a₀.conj * b₀)) ∧ Spec.NearDQ (Spec.relativeError u δ θ D) (A.rebase inv true b) c := by
  have ha1 := ha.rot
  have ha2 := ha.dual
  have ha4 := ha.size
  have hb1 := hb.rot
  have hb2 := hb.dual
  have hb4 := hb.size
  rw [gap_eq] at ha1 ha2 hb1 hb2
  rw [len_eq] at ha4 hb4
  obtain ⟨i, hi', i1, i2⟩ := Arith.dqInverse_near h ha.unit hδ ha4 ha1 ha2
  obtain rfl : inv = i := Except.ok.inj (hi.symm.trans hi')
  obtain ⟨r1, r2⟩ := Arith.relative_near h ha.unit hb.unit ((norm_nonneg _).trans ha1) hδ ha4 hb4 i1 i2 hb1 hb2
  have hn := nearDQ_of_parts r1 r2
  unfold Arith.rebase
  simp only [if_true]
  split_ifs
  · exact ⟨_, .inr rfl, nearDQ_neg_neg hn⟩
  · exact ⟨_, .inl rfl, hn⟩

/-- A recorded pair of poses after the alignment. -/
theorem pair_near {A : Arith} {u δ θ D : ℝ} (h : Spec.Machine u A) (hδ : δ ≤ 1 / 100) {g X : DQuat} (hg : Spec.IsUnit g) (hX : Spec.IsUnit X)
    {p p₀ q q₀ : DQuat × DQuat} (hp : Spec.RecordedPair δ θ D p p₀) (hq : Spec.RecordedPair δ θ D q q₀) (fp : Spec.FitsMotion g X p₀)
    (fq : Spec.FitsMotion g X q₀) {i1 i2 : DQuat} (h1 : A.dqInverse p.1 = .ok i1) (h2 : A.dqInverse p.2 = .ok i2) :
    ∃ b₀ w₀, Spec.HandEyeEq b₀ X w₀ ∧ (b₀ = p₀.1.conj * q₀.1 ∨ b₀ = -(p₀.1.conj * q₀.1)) ∧ (w₀ = p₀.2.conj * q₀.2 ∨ w₀ = -(p₀.2.conj * q₀.2)) ∧
      Spec.NearDQ (Spec.relativeError u δ θ D) (A.rebase i1 true q.1) b₀ ∧
      (Spec.NearDQ (Spec.relativeError u δ θ D) (A.rebase i2 true q.2) w₀ ∨
        (true = true ∧ ∑ j, (Spec.vec8 (A.rebase i2 true q.2) j + Spec.vec8 w₀ j) ^ 2 ≤ Spec.relativeError u δ θ D ^ 2)) := by
  obtain ⟨b₀, hb, nb⟩ := rebase_near h hδ hp.1 hq.1 h1
  obtain ⟨w, hw, nw⟩ := rebase_near h hδ hp.2 hq.2 h2
  have hflip : ∀ w' : DQuat, w = -w' → ∑ j, (Spec.vec8 (A.rebase i2 true q.2) j + Spec.vec8 w' j) ^ 2 ≤ Spec.relativeError u δ θ D ^ 2 := by
    intro w' e
    unfold Spec.NearDQ at nw
    refine le_trans (le_of_eq ?_) nw
    refine Finset.sum_congr rfl fun j _ => ?_
    rw [e, vec8_neg]
    ring
  have hr := relative_fits hg hX hp.1.unit hp.2.unit hq.1.unit hq.2.unit fp fq
  have hex : b₀ * X = X * w ∨ b₀ * X = X * -w := by
    rcases hb with e1 | e1 <;> rcases hw with e2 | e2 <;> rcases hr with e3 | e3 <;> rw [e1, e2] <;>
      simp only [neg_mul, mul_neg, neg_neg, e3, true_or, or_true]
  rcases hex with e | e
  · exact ⟨b₀, w, handEyeEq_iff.mpr e, hb, hw, nb, .inl nw⟩
  · refine ⟨b₀, -w, handEyeEq_iff.mpr e, hb, ?_, nb, .inr ⟨rfl, hflip _ (neg_neg w).symm⟩⟩
    rcases hw with e2 | e2
    · exact .inr (by rw [e2])
    · exact .inl (by rw [e2, neg_neg])

theorem relativeError_nonneg {u δ θ D : ℝ} (hu : 0 ≤ u) (hδ : 0 ≤ δ) (hθ : 0 ≤ θ) (hD : 0 ≤ D) : 0 ≤ Spec.relativeError u δ θ D := by
  unfold Spec.relativeError
  positivity

/-- How large a motion between two poses is. -/
theorem relative_bounds {a b m : DQuat} {D : ℝ} (ha : Spec.IsUnit a) (hb : Spec.IsUnit b) (hDa : ‖a.dual.toH‖ ≤ D) (hDb : ‖b.dual.toH‖ ≤ D)
    (hm : m = a.conj * b ∨ m = -(a.conj * b)) : ‖m.rot.toH‖ = 1 ∧ ‖m.dual.toH‖ ≤ 2 * D := by
  obtain ⟨ra, _⟩ := isUnit_norm ha
  obtain ⟨rb, _⟩ := isUnit_norm hb
  constructor
  · have : ‖(a.conj * b).rot.toH‖ = 1 := by rw [DQuat.mul_rot, DQuat.conj_rot, Quat.toH_mul, Quat.toH_conj, norm_mul, Quaternion.norm_star, ra, rb, one_mul]
    rcases hm with rfl | rfl
    · exact this
    · rw [DQuat.neg_rot, Quat.toH_neg, norm_neg]; exact this
  · have : ‖(a.conj * b).dual.toH‖ ≤ 2 * D := by
      rw [DQuat.mul_dual, DQuat.conj_rot, DQuat.conj_dual, Quat.toH_add, Quat.toH_mul, Quat.toH_mul, Quat.toH_conj, Quat.toH_conj]
      refine (norm_add_le _ _).trans ?_
      rw [norm_mul, norm_mul, Quaternion.norm_star, Quaternion.norm_star, ra, rb]
      linarith
    rcases hm with rfl | rfl
    · exact this
    · rw [DQuat.neg_dual, Quat.toH_neg, norm_neg]; exact this

theorem nearDQ_parts {a b : DQuat} {η : ℝ} (hη : 0 ≤ η) (h : Spec.NearDQ η a b) : ‖a.rot.toH - b.rot.toH‖ ≤ η ∧ ‖a.dual.toH - b.dual.toH‖ ≤ η := by
  unfold Spec.NearDQ at h
  rw [sum_vec8_sub] at h
  exact ⟨abs_le_of_sq_le_sq' (by nlinarith [sq_nonneg ‖a.dual.toH - b.dual.toH‖]) hη |>.2,
    abs_le_of_sq_le_sq' (by nlinarith [sq_nonneg ‖a.rot.toH - b.rot.toH‖]) hη |>.2⟩

theorem size_of_near {c m : DQuat} {η D : ℝ} (hD0 : 0 ≤ D) (hη : 0 ≤ η) (r1 : ‖m.rot.toH‖ = 1) (d1 : ‖m.dual.toH‖ ≤ 2 * D) (h : Spec.NearDQ η c m) :
    Spec.sumSq (Spec.vec8 c) ≤ (1 + 2 * D + η) ^ 2 := by
  obtain ⟨hx, hy⟩ := nearDQ_parts hη h
  unfold Spec.NearDQ at h
  rw [sum_vec8_sub] at h
  rw [sumSq_vec8]
  have n1 := norm_le_insert' c.rot.toH m.rot.toH
  have n2 := norm_le_insert' c.dual.toH m.dual.toH
  set x := ‖c.rot.toH - m.rot.toH‖
  set y := ‖c.dual.toH - m.dual.toH‖
  have hx0 : 0 ≤ x := norm_nonneg _
  have hy0 : 0 ≤ y := norm_nonneg _
  have p1 := pow_le_pow_left₀ (norm_nonneg c.rot.toH) (show ‖c.rot.toH‖ ≤ 1 + x by linarith) 2
  have p2 := pow_le_pow_left₀ (norm_nonneg c.dual.toH) (show ‖c.dual.toH‖ ≤ 2 * D + y by linarith) 2
  nlinarith [mul_le_mul_of_nonneg_left hy hD0]

/-- A pair of motions within `η` of an exact pair (the second up to its sign), where the exact motions have dual parts of at most `2 D` and the scalar part of the
first is larger than `τ`. -/
def GoodPair (τ η D : ℝ) (X : DQuat) (s : DQuat × DQuat) : Prop :=
  ∃ b₀ w₀, Spec.HandEyeEq b₀ X w₀ ∧ Spec.NearDQ η s.1 b₀ ∧
    (Spec.NearDQ η s.2 w₀ ∨ (true = true ∧ ∑ j, (Spec.vec8 s.2 j + Spec.vec8 w₀ j) ^ 2 ≤ η ^ 2)) ∧ τ < |b₀.rot.w| ∧
    ‖b₀.rot.toH‖ = 1 ∧ ‖b₀.dual.toH‖ ≤ 2 * D ∧ ‖w₀.rot.toH‖ = 1 ∧ ‖w₀.dual.toH‖ ≤ 2 * D

/-- The pairs after the alignment. -/
theorem aligned_pairs {A : Arith} {u δ θ D τ : ℝ} (h : Spec.Machine u A) (hδ : δ ≤ 1 / 100) {g X : DQuat}
    (hg : Spec.IsUnit g) (hX : Spec.IsUnit X) {L L₀ : List (DQuat × DQuat)} (hmem : ∀ q ∈ L, ∃ q₀ ∈ L₀, Spec.RecordedPair δ θ D q q₀)
    (hf : ∀ p ∈ L₀, Spec.FitsMotion g X p) (ht : ∀ p ∈ L₀, ∀ q ∈ L₀, τ < Spec.cosHalf p.1.rot q.1.rot) {i : ℤ} {bs ws : List DQuat}
    (hb : A.alignPaths (L.map Prod.fst) i true = .ok bs) (hw : A.alignPaths (L.map Prod.snd) i true = .ok ws) :
    bs.length = L.length ∧ ws.length = L.length ∧ ∀ s ∈ bs.zip ws, GoodPair τ (Spec.relativeError u δ θ D) D X s := by
  obtain ⟨k, a, i1, hk, hka, hi1, rfl⟩ := alignPaths_ok hb
  obtain ⟨k', c, i2, hk', hkc, hi2, rfl⟩ := alignPaths_ok hw
  refine ⟨by simp; omega, by simp; omega, ?_⟩
  rw [List.length_map] at hk hk'
  obtain rfl : k = k' := Option.some.inj (hk.symm.trans hk')
  rw [List.getElem?_map] at hka hkc
  obtain ⟨p, hp, rfl⟩ := Option.map_eq_some_iff.mp hka
  rw [hp] at hkc
  obtain rfl : p.2 = c := Option.some.inj hkc
  obtain ⟨p₀, hp₀, rp⟩ := hmem p (List.mem_of_getElem? hp)
  intro s hs
  obtain ⟨q, hq, rfl⟩ : ∃ q ∈ L, s = (A.rebase i1 true q.1, A.rebase i2 true q.2) := by
    rw [← List.map_drop, ← List.map_take, ← List.map_drop, ← List.map_take, ← List.map_append, ← List.map_append, List.map_map, List.map_map,
      List.zip_map', List.mem_map] at hs
    obtain ⟨q, hq, e⟩ := hs
    refine ⟨q, ?_, e.symm⟩
    rcases List.mem_append.mp hq with h | h
    · exact List.mem_of_mem_drop h
    · exact List.mem_of_mem_take h
  obtain ⟨q₀, hq₀, rq⟩ := hmem q hq
  obtain ⟨b₀, w₀, e, e1, e2, n1, n2⟩ := pair_near h hδ hg hX rp rq (hf _ hp₀) (hf _ hq₀) hi1 hi2
  have sp1 := rp.1.size
  have sp2 := rp.2.size
  have sq1 := rq.1.size
  have sq2 := rq.2.size
  rw [len_eq] at sp1 sp2 sq1 sq2
  obtain ⟨v1, v2⟩ := relative_bounds rp.1.unit rq.1.unit sp1 sq1 e1
  obtain ⟨v3, v4⟩ := relative_bounds rp.2.unit rq.2.unit sp2 sq2 e2
  refine ⟨b₀, w₀, e, n1, n2, ?_, v1, v2, v3, v4⟩
  have hc := ht _ hp₀ _ hq₀
  have w1 : |b₀.rot.w| = |(p₀.1.conj * q₀.1).rot.w| := by
    rcases e1 with rfl | rfl
    · rfl
    · rw [DQuat.neg_rot, Quat.neg_w, abs_neg]
  have u1 := DQuat.IsUnit.rot rp.1.unit
  have u2 := DQuat.IsUnit.rot rq.1.unit
  simp only [Quat.dot] at u1 u2
  have w2 : Spec.cosHalf p₀.1.rot q₀.1.rot = |(p₀.1.conj * q₀.1).rot.w| := by
    unfold Spec.cosHalf
    rw [show p₀.1.rot.x ^ 2 + p₀.1.rot.y ^ 2 + p₀.1.rot.z ^ 2 + p₀.1.rot.w ^ 2 = 1 by linarith,
      show q₀.1.rot.x ^ 2 + q₀.1.rot.y ^ 2 + q₀.1.rot.z ^ 2 + q₀.1.rot.w ^ 2 = 1 by linarith, Real.sqrt_one, mul_one, div_one]
    congr 1
    simp [Quat.conj]
    ring
  rw [w1, ← w2]
  exact hc

/-- The hypotheses of C115 for such pairs. -/
theorem measured_of_pairs {η D : ℝ} (hη : 0 ≤ η) (hD : 0 ≤ D) {X : DQuat} {S : List (DQuat × DQuat)} (hS : ∀ s ∈ S, GoodPair η η D X s) :
    ∃ bs₀ ws₀, Spec.Exact bs₀ ws₀ X ∧ Spec.Measured true η bs₀ ws₀ (S.map Prod.fst) (S.map Prod.snd) ∧
      (∀ b ∈ S.map Prod.fst, Spec.sumSq (Spec.vec8 b) ≤ (1 + 2 * D + η) ^ 2) ∧ ∀ w ∈ S.map Prod.snd, Spec.sumSq (Spec.vec8 w) ≤ (1 + 2 * D + η) ^ 2 := by
  induction S with
  | nil => exact ⟨[], [], .nil, ⟨.nil, .nil, by simp⟩, by simp, by simp⟩
  | cons s S ih =>
    obtain ⟨bs₀, ws₀, x1, x2, x3, x4⟩ := ih fun t ht => hS t (List.mem_cons_of_mem _ ht)
    obtain ⟨b₀, w₀, y1, y2, y3, y4, v1, v2, v3, v4⟩ := hS s List.mem_cons_self
    refine ⟨b₀ :: bs₀, w₀ :: ws₀, .cons y1 x1, ⟨.cons y2 x2.hand, .cons y3 x2.eye, ?_⟩, ?_, ?_⟩
    · intro _ b hb
      rcases List.mem_cons.mp hb with rfl | hb
      · exact y4
      · exact x2.turns rfl b hb
    · intro b hb
      rcases List.mem_cons.mp hb with rfl | hb
      · exact size_of_near hD hη v1 v2 y2
      · exact x3 b hb
    · intro b hb
      rcases List.mem_cons.mp hb with rfl | hb
      · rcases y3 with n2 | ⟨_, n2⟩
        · exact size_of_near hD hη v3 v4 n2
        · refine size_of_near (m := -w₀) hD hη ?_ ?_ ?_
          · rw [DQuat.neg_rot, Quat.toH_neg, norm_neg]; exact v3
          · rw [DQuat.neg_dual, Quat.toH_neg, norm_neg]; exact v4
          · unfold Spec.NearDQ
            refine le_trans (le_of_eq (Finset.sum_congr rfl fun j _ => ?_)) n2
            rw [vec8_neg]
            ring
      · exact x4 b hb

/-- The hypotheses of C115 for the pairs that any selection keeps after the alignment. -/
theorem selection_measured {A : Arith} {u δ θ D : ℝ} (h : Spec.Machine u A) (hδ0 : 0 ≤ δ) (hδ : δ ≤ 1 / 100) (hθ : 0 ≤ θ) (hD : 0 ≤ D) {g X : DQuat}
    (hg : Spec.IsUnit g) (hX : Spec.IsUnit X) {L L₀ : List (DQuat × DQuat)} (hmem : ∀ q ∈ L, ∃ q₀ ∈ L₀, Spec.RecordedPair δ θ D q q₀)
    (hf : ∀ p ∈ L₀, Spec.FitsMotion g X p) (ht : ∀ p ∈ L₀, ∀ q ∈ L₀, Spec.relativeError u δ θ D < Spec.cosHalf p.1.rot q.1.rot) {i : ℤ} {bs ws : List DQuat}
    (hb : A.alignPaths (L.map Prod.fst) i true = .ok bs) (hw : A.alignPaths (L.map Prod.snd) i true = .ok ws) (S : List (DQuat × DQuat))
    (hS : ∀ s ∈ S, s ∈ bs.zip ws) :
    ∃ bs₀ ws₀, Spec.Exact bs₀ ws₀ X ∧ Spec.Measured true (Spec.relativeError u δ θ D) bs₀ ws₀ (S.map Prod.fst) (S.map Prod.snd) ∧
      (∀ b ∈ S.map Prod.fst, Spec.sumSq (Spec.vec8 b) ≤ (1 + 2 * D + Spec.relativeError u δ θ D) ^ 2) ∧
      ∀ w ∈ S.map Prod.snd, Spec.sumSq (Spec.vec8 w) ≤ (1 + 2 * D + Spec.relativeError u δ θ D) ^ 2 :=
  measured_of_pairs (relativeError_nonneg h.nonneg hδ0 hθ hD) hD fun s hs => (aligned_pairs h hδ hg hX hmem hf ht hb hw).2.2 s (hS s hs)

end HandEye
