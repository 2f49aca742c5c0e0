import Verif.Props.Ransac5

/-! # Property C103: RANSAC with the classification by pose errors, on exact measurements with outliers -/

namespace HandEye

theorem compress_map_left {α β : Type} (l : List α) (h : α → β) (fl : List Bool) :
    compress (l.map h) fl = (compress l fl).map h := by
  induction l generalizing fl with
  | nil => cases fl <;> rfl
  | cons a l ih =>
    cases fl with
    | nil => rfl
    | cons f fl =>
      rw [List.map_cons, compress, compress, ih]
      cases f <;> rfl

theorem compress_sublist {α : Type} (l : List α) (fl : List Bool) : (compress l fl).Sublist l := by
  induction l generalizing fl with
  | nil => cases fl <;> exact List.Sublist.refl _
  | cons a l ih =>
    cases fl with
    | nil => exact List.nil_sublist _
    | cons f fl =>
      rw [compress]
      cases f with
      | true => exact (ih fl).cons_cons a
      | false => exact (ih fl).cons a

/-- A measurement seen from another one. -/
noncomputable def seen (p q : DQuat × DQuat) : DQuat × DQuat := (rebase p.1.conj true q.1, rebase p.2.conj true q.2)

/-- Measurements that fit the same mounting, seen from one of them, are exact data. -/
theorem group_exact {g X : DQuat} (hg : Spec.IsUnit g) (hX : Spec.IsUnit X) {p : DQuat × DQuat} {S : List (DQuat × DQuat)}
    (hu : ∀ q ∈ p :: S, Spec.IsUnit q.1 ∧ Spec.IsUnit q.2) (hfit : ∀ q ∈ p :: S, Spec.Fits g X q)
    (h2 : Spec.TurnsAboutTwoAxes ((p :: S).map Prod.fst)) :
    Spec.Exact (((p :: S).map (seen p)).map Prod.fst) (((p :: S).map (seen p)).map Prod.snd) X ∧
      (∀ b ∈ ((p :: S).map (seen p)).map Prod.fst, Spec.IsUnit b) ∧
      (∀ b ∈ ((p :: S).map (seen p)).map Prod.snd, Spec.IsUnit b) ∧
      (((p :: S).map (seen p)).map Prod.fst).head? = some DQuat.identity ∧
      Spec.TwoAxes (((p :: S).map (seen p)).map Prod.fst) := by
  obtain ⟨hp1, hp2⟩ := hu p List.mem_cons_self
  have hpf := fits_iff.mp (hfit p List.mem_cons_self)
  refine ⟨?_, ?_, ?_, ?_, ?_⟩
  · unfold Spec.Exact
    rw [List.forall₂_map_left_iff, List.forall₂_map_right_iff, List.forall₂_map_left_iff, List.forall₂_map_right_iff]
    refine List.forall₂_same.mpr fun q hq => ?_
    have hqf := fits_iff.mp (hfit q hq)
    have hm : Spec.Mounted g X [p.1, q.1] [p.2, q.2] := by
      rw [mounted_iff, hpf, hqf]
      rfl
    have hu1 : ∀ a ∈ [p.1, q.1], Spec.IsUnit a := by
      simp [hp1, (hu q hq).1]
    have hu2 : ∀ a ∈ [p.2, q.2], Spec.IsUnit a := by
      simp [hp2, (hu q hq).2]
    obtain ⟨B, W, e1, e2, -, -, e5, -⟩ := mounted_align hg hX hu1 hm (k := 0) (by simp)
    rw [align_unit (pyPos_natCast (k := 0) (by simp)) hu1 true] at e1
    rw [align_unit (pyPos_natCast (k := 0) (by simp)) hu2 true] at e2
    rw [← Except.ok.inj e1, ← Except.ok.inj e2] at e5
    simp only [List.rotate_zero, List.map_cons, List.map_nil, List.getElem_cons_zero] at e5
    cases e5 with
    | cons _ h => cases h with
      | cons h _ => exact h
  · intro b hb'
    obtain ⟨r, hr, rfl⟩ := List.mem_map.mp hb'
    obtain ⟨q, hq, rfl⟩ := List.mem_map.mp hr
    exact rebase_unit (DQuat.isUnit_conj hp1) (hu q hq).1 true
  · intro b hb'
    obtain ⟨r, hr, rfl⟩ := List.mem_map.mp hb'
    obtain ⟨q, hq, rfl⟩ := List.mem_map.mp hr
    exact rebase_unit (DQuat.isUnit_conj hp2) (hu q hq).2 true
  · rw [List.map_cons, List.map_cons, List.head?_cons]
    unfold seen
    rw [rebase_self hp1]
  · have := twoAxes_any_base (k := p.1) (fun a ha => by
      obtain ⟨q, hq, rfl⟩ := List.mem_map.mp ha
      exact (hu q hq).1) h2 (List.mem_map_of_mem List.mem_cons_self)
    rw [List.map_map] at this ⊢
    exact this

/-- What is left of the data after the classification by pose errors. -/
theorem classifyByRmse_some {svd : Svd} {cfg : HandEyeConfig} {tol : ℝ} (ht : cfg.ransac_sample_rejection_scalar_part_equality_tolerance = tol)
    (htol : 0 ≤ tol) {sB sW aB aW : List DQuat} {k : Classified} (hu : ∀ a ∈ aB, Spec.IsUnit a)
    (h : classifyByRmse svd cfg sB sW aB aW = .ok (some k)) :
    k.aligned_dq_B_H = aB ∧ k.inlier_flags[0]? = some true ∧
      (∀ m ∈ (compress aW k.inlier_flags).zip (compress aB k.inlier_flags), ScalarsClose tol m.1 m.2) ∧
      ∃ c pB pW rp ro, k.initial = some c ∧ tryCalibration svd cfg.hand_eye_calibration_scalar_part_equality_tolerance sB sW = some c ∧
        getAlignedPoses aB aW c.dq_H_E = .ok (pB, pW) ∧
        evaluateAlignment cfg.ransac_orientation_error_threshold_deg cfg.ransac_position_error_threshold_m pB pW =
          .ok (rp, ro, k.inlier_flags) := by
  classical
  subst ht
  unfold classifyByRmse at h
  obtain ⟨-, -, h⟩ := Py.bind_eq_ok.mp h
  split at h
  · cases h
  · next c hc =>
    obtain ⟨⟨pB, pW⟩, g1, h⟩ := Py.bind_eq_ok.mp h
    have hn : aB.mapM DQuat.normalize = .ok aB := by
      rw [Py.mapM_ok (f := DQuat.normalize) (g := fun a => a) fun a ha => normalize_of_unit (hu a ha), List.map_id']
    dsimp only at h
    rw [hn, Py.ok_bind] at h
    obtain ⟨⟨rp, ro, fl⟩, g2, h⟩ := Py.bind_eq_ok.mp h
    obtain ⟨f0, g3, h⟩ := Py.bind_eq_ok.mp h
    obtain ⟨_, g4, h⟩ := Py.bind_eq_ok.mp h
    dsimp only at h
    rw [samplesMatch_eq htol, Py.ok_bind] at h
    split at h
    · next hok =>
      cases h
      have hok' := of_decide_eq_true hok
      refine ⟨rfl, ?_, hok', c, pB, pW, rp, ro, rfl, hc, g1, g2⟩
      rw [pyAssert_eq_ok.mp g4] at g3
      exact pyAt_eq_ok.mp g3
    · cases h

/-- A group of measurements that all fit the same mounting, seen from the first of them, yields the mounting. -/
theorem build_selected {svd : Svd} (hsvd : ∀ T s V, svd T = .ok (s, V) → Spec.IsSVD T s V) {cfg : HandEyeConfig}
    (href : cfg.ransac_model_refinement = true) {g X : DQuat} (hg : Spec.IsUnit g) (hX : Spec.IsUnit X) (hXw : X.rot.w ≠ 0)
    {p : DQuat × DQuat} {S : List (DQuat × DQuat)} (hu : ∀ q ∈ p :: S, Spec.IsUnit q.1 ∧ Spec.IsUnit q.2)
    (hfit : ∀ q ∈ p :: S, Spec.Fits g X q) (h2 : Spec.TurnsAboutTwoAxes ((p :: S).map Prod.fst))
    {s : List ℕ} {k : Classified} {aW : List DQuat}
    (hB : compress k.aligned_dq_B_H k.inlier_flags = ((p :: S).map (seen p)).map Prod.fst)
    (hW : compress aW k.inlier_flags = ((p :: S).map (seen p)).map Prod.snd)
    {c : Candidate} (h : buildCandidate svd cfg s k aW = .ok (some c)) :
    Spec.SameUpToSign c.dq_H_E X ∧ 0 ≤ c.dq_H_E.rot.w ∧ c.num_inliers = (p :: S).length ∧
      (cfg.ransac_evaluate_refined_model_on_inliers_only = true → c.rmse_position = 0 ∧ c.rmse_orientation = 0) := by
  obtain ⟨a1, a2, a3, a4, a5⟩ := group_exact hg hX hu hfit h2
  obtain ⟨cal, pB, pW, fl, r1, r2, r3, -, r5, r6, -⟩ := buildCandidate_some h
  rw [hB, hW] at r1 r2
  rw [hB] at r6
  set IB := ((p :: S).map (seen p)).map Prod.fst with hIB
  set IW := ((p :: S).map (seen p)).map Prod.snd with hIW
  have r1' : tryCalibration svd cfg.hand_eye_calibration_scalar_part_equality_tolerance IB IW = some cal := by
    unfold refine at r1
    rw [href] at r1
    exact r1
  obtain ⟨c0, hc0, hn, -, -⟩ := tryCalibration_some r1'
  obtain ⟨hrec, hw0⟩ := C27_exact_recovery svd hsvd IB IW X hX a1 a5 (Or.inl hXw) _ _ c0 hc0
  have hXc : c0.dq_H_E = X ∨ c0.dq_H_E = -X := sameUpToSign_iff.mp hrec
  have hru : Spec.IsUnit c0.dq_H_E := by
    rcases hXc with h | h <;> rw [h]
    · exact hX
    · exact DQuat.isUnit_neg hX
  rw [normalize_of_unit hru] at hn
  have hcal : cal.dq_H_E = c0.dq_H_E := (Except.ok.inj hn).symm
  rw [r5, r6, hcal]
  refine ⟨hrec, hw0, by rw [hIB, List.length_map, List.length_map], fun hin => ?_⟩
  rw [if_pos hin, hcal] at r2
  have hex : Spec.Exact IB IW c0.dq_H_E := by
    rcases hXc with h | h <;> rw [h]
    · exact a1
    · exact exact_neg a1
  obtain ⟨qB, qW, g1, g2, g3, -⟩ := C36_perfect_calibration IB IW c0.dq_H_E hru a2 hex a4
  rw [g1] at r2
  cases r2
  have hne : pB ≠ [] := by
    rintro rfl
    rw [List.length_nil] at g2
    rw [List.length_eq_zero_iff.mp g2.symm] at a4
    cases a4
  obtain ⟨fl', hfl⟩ := evaluateAlignment_zero g3 hne cfg.ransac_orientation_error_threshold_deg cfg.ransac_position_error_threshold_m
  rw [hfl] at r3
  have r3 := Except.ok.inj r3
  exact ⟨(congrArg Prod.fst r3).symm, (congrArg (fun t => t.2.1) r3).symm⟩

/-- The measurements that the classification by pose errors keeps: the first one, and others that correspond to it. -/
theorem selected {svd : Svd} {cfg : HandEyeConfig} {tol : ℝ} (ht : cfg.ransac_sample_rejection_scalar_part_equality_tolerance = tol)
    (htol : 0 ≤ tol) {bs ws : List DQuat} (hb : ∀ a ∈ bs, Spec.IsUnit a)
    {n : ℕ} {p : DQuat × DQuat} (hp : (bs.zip ws)[n]? = some p) {sB sW : List DQuat} {k : Classified}
    (h : classifyByRmse svd cfg sB sW ((turned bs ws n).map fun q => rebase p.1.conj true q.1)
      ((turned bs ws n).map fun q => rebase p.2.conj true q.2) = .ok (some k)) :
    ∃ S, (p :: S).Subperm (bs.zip ws) ∧ (∀ q ∈ p :: S, Spec.Corresponds tol p q) ∧
      compress k.aligned_dq_B_H k.inlier_flags = ((p :: S).map (seen p)).map Prod.fst ∧
      compress ((turned bs ws n).map fun q => rebase p.2.conj true q.2) k.inlier_flags = ((p :: S).map (seen p)).map Prod.snd := by
  have hp1 := hb _ (List.of_mem_zip (List.mem_of_getElem? hp)).1
  obtain ⟨k1, k2, k3, -⟩ := classifyByRmse_some ht htol (by
    intro a ha
    obtain ⟨q, hq, rfl⟩ := List.mem_map.mp ha
    exact rebase_unit (DQuat.isUnit_conj hp1) (hb _ (List.of_mem_zip (mem_turned.mp hq)).1) true) h
  rw [k1]
  set T := turned bs ws n with hT
  obtain ⟨L, hL⟩ : ∃ L, T = p :: L := by
    have := head_turned hp
    cases h : turned bs ws n with
    | nil => rw [h] at this; cases this
    | cons a l =>
      rw [h] at this
      exact ⟨l, by rw [hT, h, Option.some.inj this]⟩
  obtain ⟨fl, hfl⟩ : ∃ fl, k.inlier_flags = true :: fl := by
    cases h : k.inlier_flags with
    | nil => rw [h] at k2; cases k2
    | cons a l =>
      rw [h] at k2
      exact ⟨l, by rw [Option.some.inj k2]⟩
  have hS : compress T k.inlier_flags = p :: compress L fl := by
    rw [hL, hfl, compress, if_pos rfl]
  have c1 : compress (T.map fun q => rebase p.1.conj true q.1) k.inlier_flags = ((p :: compress L fl).map (seen p)).map Prod.fst := by
    rw [compress_map_left, hS, List.map_map]
    rfl
  have c2 : compress (T.map fun q => rebase p.2.conj true q.2) k.inlier_flags = ((p :: compress L fl).map (seen p)).map Prod.snd := by
    rw [compress_map_left, hS, List.map_map]
    rfl
  refine ⟨compress L fl, ?_, ?_, c1, c2⟩
  · rw [← hS]
    exact (compress_sublist T _).subperm.trans (List.rotate_perm _ _).subperm
  · intro q hq
    rw [c1, c2, List.map_map, List.map_map, List.zip_map'] at k3
    exact corresponds_iff.mpr (k3 _ (List.mem_map_of_mem hq))

/-- Of a selection of the measurements, no more than there are. -/
theorem number_ge {P : DQuat × DQuat → Prop} {S ms : List (DQuat × DQuat)} (h : S.Subperm ms) (hP : ∀ q ∈ S, P q) :
    S.length ≤ Spec.number P ms := by
  classical
  unfold Spec.number
  rw [← List.countP_eq_length.mpr (fun q hq => decide_eq_true (hP q hq))]
  exact h.countP_le _

/-- C103: some of the measurements are exact, `w = g b X`, and the others are anything, with the conditions of `C91_outliers`: no outlier has
the scalar parts of a good measurement, seen from any good one, and seen from an outlier fewer than `min_num_inliers` measurements
have matching scalar parts.  If moreover any `min_num_inliers` good measurements turn about two axes, then every calibration
that RANSAC reports with the classification by pose errors is the true one, although the calibration computed from the
sample, with which the measurements are classified, may be wrong; whatever is drawn, with or without the prefilter,
for any thresholds and for any valid singular value decomposition. -/
theorem C103_outliers (svd : Svd) (hsvd : ∀ T s V, svd T = .ok (s, V) → Spec.IsSVD T s V)
    (rng : ℕ → List ℕ) (cfg : HandEyeConfig) (hmode : cfg.ransac_inlier_classification = .rmseThreshold)
    (href : cfg.ransac_model_refinement = true) (tol : ℝ)
    (ht : cfg.ransac_sample_rejection_scalar_part_equality_tolerance = tol) (htol : 0 ≤ tol)
    (g X : DQuat) (hg : Spec.IsUnit g) (hX : Spec.IsUnit X) (hXw : X.rot.w ≠ 0)
    (bs ws : List DQuat) (hb : ∀ a ∈ bs, Spec.IsUnit a) (hw : ∀ a ∈ ws, Spec.IsUnit a)
    (hvis : ∀ p ∈ bs.zip ws, Spec.Fits g X p → ∀ q ∈ bs.zip ws, Spec.Corresponds tol p q → Spec.Fits g X q)
    (hfew : ∀ p ∈ bs.zip ws, ¬ Spec.Fits g X p → Spec.number (Spec.Corresponds tol p) (bs.zip ws) < cfg.min_num_inliers)
    (h2 : ∀ S, List.Subperm S (bs.zip ws) → (∀ q ∈ S, Spec.Fits g X q) → cfg.min_num_inliers ≤ S.length →
      Spec.TurnsAboutTwoAxes (S.map Prod.fst))
    (fuel : ℕ) (r : CalibrationResult) (h : ransac svd rng cfg bs ws fuel = .ok (some r)) (hs : r.success = true) :
    ∃ dq, r.dq_H_E = some dq ∧ Spec.SameUpToSign dq X ∧ 0 ≤ dq.rot.w ∧
      cfg.min_num_inliers ≤ r.num_inliers ∧ r.num_inliers ≤ Spec.number (Spec.Fits g X) (bs.zip ws) ∧
      (cfg.ransac_evaluate_refined_model_on_inliers_only = true → r.rmse = some (0, 0)) := by
  obtain ⟨hl, -⟩ := ransac_some h
  obtain ⟨bf, wf, samples, outs, c, h1, hco, hc, e1, e2, e3, -⟩ :=
    C37_best_candidate svd rng cfg bs ws fuel r h hs
  obtain ⟨n, hn⟩ := List.getElem?_of_mem hc
  have hlt : n < outs.length := (List.getElem?_eq_some_iff.mp hn).1
  have hz := List.forall₂_iff_get.mp hco.outcomes
  have hsn : n < samples.length := by rw [hz.1]; exact hlt
  have hev := hz.2 n hsn hlt
  simp only [List.get_eq_getElem] at hev
  rw [(List.getElem?_eq_some_iff.mp hn).2] at hev
  obtain ⟨sB, sW, i0, aB, aW, k, -, -, a1, a2, a3, a4⟩ := evaluateSample_candidate hev
  have hi0 : i0 < bs.length := by
    by_contra hcon
    rw [align_index_error] at a1
    · cases a1
    · unfold pyPos
      rw [if_pos (by omega), if_neg (by simpa using hcon)]
  obtain ⟨p, hp⟩ : ∃ p, (bs.zip ws)[i0]? = some p := ⟨_, List.getElem?_eq_getElem (by rw [List.length_zip]; omega)⟩
  have hpm := List.mem_of_getElem? hp
  obtain ⟨b1, b2⟩ := align_measurements hl hb hw hp
  rw [a1] at b1
  rw [a2] at b2
  cases b1
  cases b2
  unfold classify at a3
  rw [hmode] at a3
  dsimp only at a3
  obtain ⟨S, s1, s2, s3, s4⟩ := selected ht htol hb hp a3
  obtain ⟨_, _, _, _, -, -, -, -, -, q6, q7, -⟩ := buildCandidate_some a4
  have hlen : c.num_inliers = (p :: S).length := by rw [q6, s3, List.length_map, List.length_map]
  by_cases hpf : Spec.Fits g X p
  · have hfit : ∀ q ∈ p :: S, Spec.Fits g X q := fun q hq => hvis p hpm hpf q (s1.subset hq) (s2 q hq)
    obtain ⟨p1, p2, p3, p4⟩ := build_selected hsvd href hg hX hXw
      (fun q hq => ⟨hb _ (List.of_mem_zip (s1.subset hq)).1, hw _ (List.of_mem_zip (s1.subset hq)).2⟩) hfit
      (h2 _ s1 hfit (by omega)) s3 s4 a4
    refine ⟨c.dq_H_E, e1, p1, p2, by omega, ?_, fun hin => ?_⟩
    · rw [e3, p3]
      exact number_ge s1 hfit
    · rw [e2, (p4 hin).1, (p4 hin).2]
  · exfalso
    have := hfew p hpm hpf
    have := number_ge s1 s2
    omega

end HandEye
