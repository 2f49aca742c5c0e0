import Verif.Props.Ransac4
import Verif.Props.Evaluate2
import Verif.Spec.Outliers

/-! # Lemmas: RANSAC's samples, when some of the measurements are outliers -/

namespace HandEye

theorem fits_iff {g X : DQuat} {p : DQuat × DQuat} : Spec.Fits g X p ↔ p.2 = g * p.1 * X := by
  have h := C12_agrees_with_dual_numbers
  unfold Spec.Fits
  rw [← (h g p.1 0).2.1, ← (h (g * p.1) X 0).2.1]
  exact ⟨fun e => (h p.2 (g * p.1 * X) 0).1 e, congrArg _⟩

theorem corresponds_iff {tol : ℝ} {p q : DQuat × DQuat} :
    Spec.Corresponds tol p q ↔ ScalarsClose tol (rebase p.2.conj true q.2) (rebase p.1.conj true q.1) := by
  have e : ∀ a b : DQuat, Spec.scalarParts (a * b) = ((rebase a true b).rot.w, (rebase a true b).dual.w) := by
    intro a b
    unfold Spec.scalarParts rebase
    dsimp only
    rw [if_pos rfl]
    split <;> rfl
  unfold Spec.Corresponds ScalarsClose
  rw [e, e]

theorem compress_map {α β : Type} (l : List α) (h : α → β) (f : α → Bool) :
    compress (l.map h) (l.map f) = (l.filter f).map h := by
  induction l with
  | nil => rfl
  | cons a l ih =>
    rw [List.map_cons, List.map_cons, compress, ih, List.filter_cons]
    split <;> rfl

/-- The measurements, starting at the k-th. -/
noncomputable def turned (bs ws : List DQuat) (k : ℕ) : List (DQuat × DQuat) := (bs.zip ws).rotate k

theorem turned_zip {bs ws : List DQuat} (hl : ws.length = bs.length) (k : ℕ) :
    (turned bs ws k).map Prod.fst = bs.rotate k ∧ (turned bs ws k).map Prod.snd = ws.rotate k := by
  unfold turned
  rw [List.map_rotate, List.map_rotate, List.map_fst_zip (by omega), List.map_snd_zip (by omega)]
  exact ⟨rfl, rfl⟩

/-- Aligning both trajectories at the k-th measurement. -/
theorem align_measurements {bs ws : List DQuat} (hl : ws.length = bs.length) (hb : ∀ a ∈ bs, Spec.IsUnit a)
    (hw : ∀ a ∈ ws, Spec.IsUnit a) {k : ℕ} {p : DQuat × DQuat} (hp : (bs.zip ws)[k]? = some p) :
    alignPathsAtIndex bs (k : ℕ) = .ok ((turned bs ws k).map fun q => rebase p.1.conj true q.1) ∧
    alignPathsAtIndex ws (k : ℕ) = .ok ((turned bs ws k).map fun q => rebase p.2.conj true q.2) := by
  obtain ⟨h1, h2⟩ := List.getElem?_zip_eq_some.mp hp
  obtain ⟨hk, e1⟩ := List.getElem?_eq_some_iff.mp h1
  obtain ⟨hk', e2⟩ := List.getElem?_eq_some_iff.mp h2
  obtain ⟨t1, t2⟩ := turned_zip hl k
  rw [align_unit (pyPos_natCast hk) hb true, align_unit (pyPos_natCast hk') hw true, e1, e2, ← t1, ← t2, List.map_map,
    List.map_map]
  exact ⟨rfl, rfl⟩

theorem mem_turned {bs ws : List DQuat} {k : ℕ} {q : DQuat × DQuat} : q ∈ turned bs ws k ↔ q ∈ bs.zip ws := List.mem_rotate

theorem head_turned {bs ws : List DQuat} {k : ℕ} {p : DQuat × DQuat} (hp : (bs.zip ws)[k]? = some p) :
    (turned bs ws k).head? = some p := by
  unfold turned
  rw [List.head?_rotate (List.getElem?_eq_some_iff.mp hp).1, hp]

open Classical in
/-- The measurements that agree with the k-th, seen from it. -/
noncomputable def agreeing (tol : ℝ) (bs ws : List DQuat) (k : ℕ) (p : DQuat × DQuat) : List (DQuat × DQuat) :=
  ((turned bs ws k).filter fun q => decide (Spec.Corresponds tol p q)).map fun q => (rebase p.1.conj true q.1, rebase p.2.conj true q.2)

theorem agreeing_length (tol : ℝ) (bs ws : List DQuat) (k : ℕ) (p : DQuat × DQuat) :
    (agreeing tol bs ws k p).length = Spec.number (Spec.Corresponds tol p) (bs.zip ws) := by
  unfold agreeing Spec.number turned
  rw [List.length_map, ← List.countP_eq_length_filter]
  exact (List.rotate_perm _ _).countP_eq _

open Classical in
/-- The classification by scalar parts, after aligning at the k-th measurement. -/
theorem classify_measurements {svd : Svd} {cfg : HandEyeConfig} (hmode : cfg.ransac_inlier_classification = .scalarPartEquality)
    {bs ws : List DQuat} {tol : ℝ} (ht : cfg.ransac_sample_rejection_scalar_part_equality_tolerance = tol) (htol : 0 ≤ tol)
    (k : ℕ) (p : DQuat × DQuat) (sB sW : List DQuat) :
    classify svd cfg sB sW ((turned bs ws k).map fun q => rebase p.1.conj true q.1)
      ((turned bs ws k).map fun q => rebase p.2.conj true q.2) = .ok (some ⟨none,
        (turned bs ws k).map fun q => rebase p.1.conj true q.1, (turned bs ws k).map fun q => decide (Spec.Corresponds tol p q)⟩) := by
  subst ht
  unfold classify
  rw [hmode]
  dsimp only
  unfold classifyByScalar
  have : (((turned bs ws k).map fun q => rebase p.2.conj true q.2).zip ((turned bs ws k).map fun q => rebase p.1.conj true q.1)).mapM
      (fun p => scalarPartsMatch cfg.ransac_sample_rejection_scalar_part_equality_tolerance p.1 p.2) =
      .ok ((turned bs ws k).map fun q => decide (Spec.Corresponds cfg.ransac_sample_rejection_scalar_part_equality_tolerance p q)) := by
    rw [Py.mapM_ok (g := fun q : DQuat × DQuat => decide (ScalarsClose cfg.ransac_sample_rejection_scalar_part_equality_tolerance q.1 q.2))]
    · rw [List.zip_map', List.map_map]
      congr 1
      apply List.map_congr_left
      intro q _
      simp only [Function.comp, corresponds_iff]
    · intro q _
      exact scalarPartsMatch_eq htol _ _
  rw [this, Py.ok_bind]
  rfl

theorem corresponds_self {tol : ℝ} (ht : 0 ≤ tol) {p : DQuat × DQuat} (h1 : Spec.IsUnit p.1) (h2 : Spec.IsUnit p.2) : Spec.Corresponds tol p p := by
  rw [corresponds_iff, rebase_self h1, rebase_self h2]
  exact ⟨npIsclose_self _ ht, npIsclose_self _ ht⟩

theorem agreeing_inliers (tol : ℝ) (bs ws : List DQuat) (k : ℕ) (p : DQuat × DQuat) :
    compress ((turned bs ws k).map fun q => rebase p.1.conj true q.1)
      ((turned bs ws k).map fun q => @decide (Spec.Corresponds tol p q) (Classical.propDecidable _)) =
        (agreeing tol bs ws k p).map Prod.fst ∧
    compress ((turned bs ws k).map fun q => rebase p.2.conj true q.2)
      ((turned bs ws k).map fun q => @decide (Spec.Corresponds tol p q) (Classical.propDecidable _)) =
        (agreeing tol bs ws k p).map Prod.snd := by
  unfold agreeing
  rw [compress_map, compress_map, List.map_map, List.map_map]
  exact ⟨rfl, rfl⟩

/-- The measurements that agree with one of them, if they all fit the same mounting, are exact data. -/
theorem agreeing_exact {tol : ℝ} (ht : 0 ≤ tol) {g X : DQuat} (hg : Spec.IsUnit g) (hX : Spec.IsUnit X) {bs ws : List DQuat}
    (hb : ∀ a ∈ bs, Spec.IsUnit a) (hw : ∀ a ∈ ws, Spec.IsUnit a) {k : ℕ} {p : DQuat × DQuat} (hp : (bs.zip ws)[k]? = some p)
    (hfit : ∀ q ∈ bs.zip ws, Spec.Corresponds tol p q → Spec.Fits g X q)
    (h2 : Spec.TurnsAboutTwoAxes (Spec.handsOf (Spec.Corresponds tol p) (bs.zip ws))) :
    Spec.Exact ((agreeing tol bs ws k p).map Prod.fst) ((agreeing tol bs ws k p).map Prod.snd) X ∧
      (∀ b ∈ (agreeing tol bs ws k p).map Prod.fst, Spec.IsUnit b) ∧
      (∀ b ∈ (agreeing tol bs ws k p).map Prod.snd, Spec.IsUnit b) ∧
      ((agreeing tol bs ws k p).map Prod.fst).head? = some DQuat.identity ∧
      Spec.TwoAxes ((agreeing tol bs ws k p).map Prod.fst) := by
  classical
  have hpm := List.mem_of_getElem? hp
  have hp1 := hb _ (List.of_mem_zip hpm).1
  have hp2 := hw _ (List.of_mem_zip hpm).2
  have hself := corresponds_self ht hp1 hp2
  have hpf := fits_iff.mp (hfit p hpm hself)
  have mem : ∀ q, q ∈ (turned bs ws k).filter (fun q => decide (Spec.Corresponds tol p q)) → q ∈ bs.zip ws ∧ Spec.Corresponds tol p q := by
    intro q hq
    obtain ⟨h1, h2⟩ := List.mem_filter.mp hq
    exact ⟨mem_turned.mp h1, of_decide_eq_true h2⟩
  refine ⟨?_, ?_, ?_, ?_, ?_⟩
  · unfold Spec.Exact agreeing
    rw [List.forall₂_map_left_iff, List.forall₂_map_right_iff, List.forall₂_map_left_iff, List.forall₂_map_right_iff]
    refine List.forall₂_same.mpr fun q hq => ?_
    obtain ⟨q1, q2⟩ := mem q hq
    have hqf := fits_iff.mp (hfit q q1 q2)
    have hm : Spec.Mounted g X [p.1, q.1] [p.2, q.2] := by
      rw [mounted_iff, hpf, hqf]
      rfl
    have hu : ∀ a ∈ [p.1, q.1], Spec.IsUnit a := by
      simp [hp1, hb _ (List.of_mem_zip q1).1]
    have hu' : ∀ a ∈ [p.2, q.2], Spec.IsUnit a := by
      simp [hp2, hw _ (List.of_mem_zip q1).2]
    obtain ⟨B, W, e1, e2, -, -, e5, -⟩ := mounted_align hg hX hu hm (k := 0) (by simp)
    rw [align_unit (pyPos_natCast (k := 0) (by simp)) hu true] at e1
    rw [align_unit (pyPos_natCast (k := 0) (by simp)) hu' true] at e2
    rw [← Except.ok.inj e1, ← Except.ok.inj e2] at e5
    simp only [List.rotate_zero, List.map_cons, List.map_nil, List.getElem_cons_zero] at e5
    cases e5 with
    | cons _ h => cases h with
      | cons h _ => exact h
  · intro b hb'
    obtain ⟨r, hr, rfl⟩ := List.mem_map.mp hb'
    obtain ⟨q, hq, rfl⟩ := List.mem_map.mp hr
    exact rebase_unit (DQuat.isUnit_conj hp1) (hb _ (List.of_mem_zip (mem q hq).1).1) true
  · intro b hb'
    obtain ⟨r, hr, rfl⟩ := List.mem_map.mp hb'
    obtain ⟨q, hq, rfl⟩ := List.mem_map.mp hr
    exact rebase_unit (DQuat.isUnit_conj hp2) (hw _ (List.of_mem_zip (mem q hq).1).2) true
  · obtain ⟨l, hl⟩ : ∃ l, turned bs ws k = p :: l := by
      have := head_turned hp
      cases h : turned bs ws k with
      | nil => rw [h] at this; cases this
      | cons a l =>
        rw [h] at this
        exact ⟨l, by rw [Option.some.inj this]⟩
    unfold agreeing
    rw [hl, List.filter_cons, if_pos (decide_eq_true hself), List.map_cons, List.map_cons, List.head?_cons, rebase_self hp1]
  · have hmem : p.1 ∈ Spec.handsOf (Spec.Corresponds tol p) (bs.zip ws) :=
      List.mem_map.mpr ⟨p, List.mem_filter.mpr ⟨hpm, decide_eq_true hself⟩, rfl⟩
    have hu : ∀ a ∈ Spec.handsOf (Spec.Corresponds tol p) (bs.zip ws), Spec.IsUnit a := by
      intro a ha
      obtain ⟨q, hq, rfl⟩ := List.mem_map.mp ha
      exact hb _ (List.of_mem_zip (List.mem_filter.mp hq).1).1
    obtain ⟨b₁, hb₁, b₂, hb₂, hne⟩ := twoAxes_any_base hu h2 hmem
    have tr : ∀ b, b ∈ (Spec.handsOf (Spec.Corresponds tol p) (bs.zip ws)).map (rebase p.1.conj true) →
        b ∈ (agreeing tol bs ws k p).map Prod.fst := by
      intro b hb
      obtain ⟨a, ha, rfl⟩ := List.mem_map.mp hb
      obtain ⟨q, hq, rfl⟩ := List.mem_map.mp ha
      obtain ⟨q1, q2⟩ := List.mem_filter.mp hq
      exact List.mem_map.mpr ⟨_, List.mem_map.mpr ⟨q, List.mem_filter.mpr ⟨mem_turned.mpr q1, q2⟩, rfl⟩, rfl⟩
    exact ⟨b₁, tr _ hb₁, b₂, tr _ hb₂, hne⟩

/-- For poses that are unit dual quaternions, the evaluation of a calibration returns. -/
theorem evaluation_ok {bs ws : List DQuat} {X : DQuat} (hb : ∀ a ∈ bs, Spec.IsUnit a) (hw : ∀ a ∈ ws, Spec.IsUnit a)
    (hl : ws.length = bs.length) (h0 : bs ≠ []) (hX : Spec.IsUnit X) (ot pt : ℝ) :
    ∃ pB pW rp ro fl, getAlignedPoses bs ws X = .ok (pB, pW) ∧ evaluateAlignment ot pt pB pW = .ok (rp, ro, fl) := by
  have hlen : 0 < bs.length := List.length_pos_iff.mpr h0
  obtain ⟨pB, pW, g1, g2, g3, g4, g5, -⟩ := getAlignedPoses_motion hb hw hl (List.getElem?_eq_getElem (by omega)) hX
  obtain ⟨rp, ro, fl, _, e1, -⟩ := C35_evaluation ot pt pB pW (by omega) (by rintro rfl; simp at g2; omega)
    (fun p hp => by rw [g4 p hp]; norm_num) (fun p hp => by rw [g5 p hp]; norm_num)
  exact ⟨pB, pW, rp, ro, fl, g1, e1⟩

/-- Aligned at a measurement with which too few agree, the data are rejected. -/
theorem build_few {svd : Svd} {cfg : HandEyeConfig} {bs ws : List DQuat} {tol : ℝ} {k : ℕ} {p : DQuat × DQuat}
    (hfew : Spec.number (Spec.Corresponds tol p) (bs.zip ws) < cfg.min_num_inliers) (s : List ℕ) :
    buildCandidate svd cfg s ⟨none, (turned bs ws k).map fun q => rebase p.1.conj true q.1,
      (turned bs ws k).map fun q => @decide (Spec.Corresponds tol p q) (Classical.propDecidable _)⟩
      ((turned bs ws k).map fun q => rebase p.2.conj true q.2) = .ok none := by
  obtain ⟨c1, c2⟩ := agreeing_inliers tol bs ws k p
  unfold buildCandidate
  dsimp only
  rw [c1, c2, pyAssert_pos (by simp), Py.ok_bind, if_pos (by rw [List.length_map, agreeing_length]; exact hfew)]
  rfl

/-- Aligned at a measurement with which enough others agree, all of which fit the same mounting. -/
theorem build_group {svd : Svd} (hsvd : ∀ T s V, svd T = .ok (s, V) → Spec.IsSVD T s V) {cfg : HandEyeConfig} {tol : ℝ} (ht : 0 ≤ tol)
    {g X : DQuat} (hg : Spec.IsUnit g) (hX : Spec.IsUnit X) (hXw : X.rot.w ≠ 0) {bs ws : List DQuat}
    (hb : ∀ a ∈ bs, Spec.IsUnit a) (hw : ∀ a ∈ ws, Spec.IsUnit a) {k : ℕ} {p : DQuat × DQuat} (hp : (bs.zip ws)[k]? = some p)
    (hfit : ∀ q ∈ bs.zip ws, Spec.Corresponds tol p q → Spec.Fits g X q)
    (h2 : Spec.TurnsAboutTwoAxes (Spec.handsOf (Spec.Corresponds tol p) (bs.zip ws)))
    (hmin : cfg.min_num_inliers ≤ Spec.number (Spec.Corresponds tol p) (bs.zip ws)) (s : List ℕ) :
    ∃ oc, buildCandidate svd cfg s ⟨none, (turned bs ws k).map fun q => rebase p.1.conj true q.1,
      (turned bs ws k).map fun q => @decide (Spec.Corresponds tol p q) (Classical.propDecidable _)⟩
      ((turned bs ws k).map fun q => rebase p.2.conj true q.2) = .ok oc ∧
      (∀ c, oc = some c → Spec.SameUpToSign c.dq_H_E X ∧ 0 ≤ c.dq_H_E.rot.w ∧
        c.num_inliers = Spec.number (Spec.Corresponds tol p) (bs.zip ws) ∧
        (cfg.ransac_evaluate_refined_model_on_inliers_only = true → c.rmse_position = 0 ∧ c.rmse_orientation = 0)) ∧
      ((∃ r, computeHandEyeCalibration svd ((agreeing tol bs ws k p).map Prod.fst) ((agreeing tol bs ws k p).map Prod.snd)
        cfg.hand_eye_calibration_scalar_part_equality_tolerance = .ok r) → ∃ c, oc = some c) := by
  obtain ⟨c1, c2⟩ := agreeing_inliers tol bs ws k p
  obtain ⟨a1, a2, a3, a4, a5⟩ := agreeing_exact ht hg hX hb hw hp hfit h2
  have hlen := agreeing_length tol bs ws k p
  unfold buildCandidate
  dsimp only
  rw [c1, c2, pyAssert_pos (by simp), Py.ok_bind, if_neg (by rw [List.length_map, hlen]; omega)]
  have href : refine svd cfg none ((agreeing tol bs ws k p).map Prod.fst) ((agreeing tol bs ws k p).map Prod.snd) =
      tryCalibration svd cfg.hand_eye_calibration_scalar_part_equality_tolerance ((agreeing tol bs ws k p).map Prod.fst)
        ((agreeing tol bs ws k p).map Prod.snd) := by
    unfold refine
    cases cfg.ransac_model_refinement <;> rfl
  rw [href]
  set IB := (agreeing tol bs ws k p).map Prod.fst with hIB
  set IW := (agreeing tol bs ws k p).map Prod.snd with hIW
  cases htry : tryCalibration svd cfg.hand_eye_calibration_scalar_part_equality_tolerance IB IW with
  | none =>
    refine ⟨none, rfl, ?_, fun h => ?_⟩
    · intro c hc; cases hc
    · exfalso
      obtain ⟨r, hr⟩ := h
      have hrec := (C27_exact_recovery svd hsvd IB IW X hX a1 a5 (Or.inl hXw) _ _ r hr).1
      have hru : Spec.IsUnit r.dq_H_E := by
        rcases sameUpToSign_iff.mp hrec with h | h <;> rw [h]
        · exact hX
        · exact DQuat.isUnit_neg hX
      unfold tryCalibration at htry
      rw [hr] at htry
      simp only [Py.ok_bind, normalize_of_unit hru, Py.pure_eq] at htry
      cases htry
  | some cal =>
    dsimp only
    obtain ⟨c0, hc0, hn, -, -⟩ := tryCalibration_some htry
    obtain ⟨hrec, hw0⟩ := C27_exact_recovery svd hsvd IB IW X hX a1 a5 (Or.inl hXw) _ _ c0 hc0
    have hXc : c0.dq_H_E = X ∨ c0.dq_H_E = -X := sameUpToSign_iff.mp hrec
    have hru : Spec.IsUnit c0.dq_H_E := by
      rcases hXc with h | h <;> rw [h]
      · exact hX
      · exact DQuat.isUnit_neg hX
    rw [normalize_of_unit hru] at hn
    have hcal : cal.dq_H_E = c0.dq_H_E := (Except.ok.inj hn).symm
    rw [hcal]
    by_cases hin : cfg.ransac_evaluate_refined_model_on_inliers_only = true
    · have hex : Spec.Exact IB IW c0.dq_H_E := by
        rcases hXc with h | h <;> rw [h]
        · exact a1
        · exact exact_neg a1
      obtain ⟨pB, pW, g1, g2, g3, -⟩ := C36_perfect_calibration IB IW c0.dq_H_E hru a2 hex a4
      have hne : pB ≠ [] := by
        rintro rfl
        rw [List.length_nil] at g2
        rw [List.length_eq_zero_iff.mp g2.symm] at a4
        cases a4
      obtain ⟨fl, hfl⟩ := evaluateAlignment_zero g3 hne cfg.ransac_orientation_error_threshold_deg
        cfg.ransac_position_error_threshold_m
      rw [if_pos hin, g1, Py.ok_bind]
      dsimp only
      rw [hfl, Py.ok_bind]
      refine ⟨_, rfl, ?_, fun _ => ⟨_, rfl⟩⟩
      intro c hc
      cases hc
      exact ⟨hrec, hw0, by rw [hIB, List.length_map, hlen], fun _ => ⟨rfl, rfl⟩⟩
    · have hpm := List.mem_of_getElem? hp
      have hp1 := hb _ (List.of_mem_zip hpm).1
      have hp2 := hw _ (List.of_mem_zip hpm).2
      obtain ⟨pB, pW, rp, ro, fl, e1, e2⟩ := evaluation_ok (X := c0.dq_H_E)
        (bs := (turned bs ws k).map fun q => rebase p.1.conj true q.1) (ws := (turned bs ws k).map fun q => rebase p.2.conj true q.2)
        (by
          intro a ha
          obtain ⟨q, hq, rfl⟩ := List.mem_map.mp ha
          exact rebase_unit (DQuat.isUnit_conj hp1) (hb _ (List.of_mem_zip (mem_turned.mp hq)).1) true)
        (by
          intro a ha
          obtain ⟨q, hq, rfl⟩ := List.mem_map.mp ha
          exact rebase_unit (DQuat.isUnit_conj hp2) (hw _ (List.of_mem_zip (mem_turned.mp hq)).2) true)
        (by simp)
        (by
          intro h
          have := head_turned hp
          rw [List.map_eq_nil_iff.mp h] at this
          cases this)
        hru cfg.ransac_orientation_error_threshold_deg cfg.ransac_position_error_threshold_m
      rw [if_neg hin, e1, Py.ok_bind]
      dsimp only
      rw [e2, Py.ok_bind]
      refine ⟨_, rfl, ?_, fun _ => ⟨_, rfl⟩⟩
      intro c hc
      cases hc
      exact ⟨hrec, hw0, by rw [hIB, List.length_map, hlen], fun h => absurd h hin⟩

end HandEye
