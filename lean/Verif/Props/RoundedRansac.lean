import Verif.Lemmas.RoundedRansac

/-! # Property C117: RANSAC in floating-point arithmetic -/

open Quaternion

namespace HandEye

theorem mapM_at_zip {α β : Type} {l : List α} {m : List β} : ∀ {is : List ℕ} {r : List α} {s : List β}, is.mapM (pyAt l) = .ok r → is.mapM (pyAt m) = .ok s →
    r.length = is.length ∧ s.length = is.length ∧ ∀ p ∈ r.zip s, p ∈ l.zip m := by
  intro is
  induction is with
  | nil => intro r s h1 h2; cases h1; cases h2; simp
  | cons i is ih =>
    intro r s h1 h2
    rw [List.mapM_cons] at h1 h2
    obtain ⟨a, a1, h1⟩ := Py.bind_eq_ok.mp h1
    obtain ⟨as, a2, h1⟩ := Py.bind_eq_ok.mp h1
    obtain ⟨b, b1, h2⟩ := Py.bind_eq_ok.mp h2
    obtain ⟨bs, b2, h2⟩ := Py.bind_eq_ok.mp h2
    cases h1
    cases h2
    obtain ⟨e1, e2, e3⟩ := ih a2 b2
    refine ⟨by simp [e1], by simp [e2], ?_⟩
    intro p hp
    rw [List.zip_cons_cons, List.mem_cons] at hp
    rcases hp with rfl | hp
    · refine List.mem_of_getElem? (i := i) ?_
      rw [List.getElem?_zip_eq_some]
      exact ⟨pyAt_eq_ok.mp a1, pyAt_eq_ok.mp b1⟩
    · exact e3 p hp

/-- The samples, if more than one is drawn. -/
theorem sampleTest_pairs {A : Arith} {u δ θ D τ : ℝ} (h : Spec.Machine u A) (hδ : δ ≤ 1 / 100) {g X : DQuat} (hg : Spec.IsUnit g) (hX : Spec.IsUnit X)
    {bf wf : List DQuat} {L₀ : List (DQuat × DQuat)} (hmem : ∀ q ∈ bf.zip wf, ∃ q₀ ∈ L₀, Spec.RecordedPair δ θ D q q₀)
    (hf : ∀ p ∈ L₀, Spec.FitsMotion g X p) (ht : ∀ p ∈ L₀, ∀ q ∈ L₀, τ < Spec.cosHalf p.1.rot q.1.rot) {cfg : HandEyeConfig}
    (h2 : 2 ≤ cfg.ransac_sample_size) {is : List ℕ} {good : Bool} {sb sw : List DQuat} (hs : A.sampleTest cfg bf wf is = .ok (good, sb, sw)) :
    sb.length = cfg.ransac_sample_size ∧ sw.length = cfg.ransac_sample_size ∧ ∀ s ∈ sb.zip sw, GoodPair τ (Spec.relativeError u δ θ D) D X s := by
  unfold Arith.sampleTest at hs
  obtain ⟨sw', w1, hs⟩ := Py.bind_eq_ok.mp hs
  obtain ⟨sb', b1, hs⟩ := Py.bind_eq_ok.mp hs
  obtain ⟨_, l1, hs⟩ := Py.bind_eq_ok.mp hs
  have hl := pyAssert_eq_ok.mp l1
  rw [if_pos (by omega)] at hs
  obtain ⟨ab, b2, hs⟩ := Py.bind_eq_ok.mp hs
  obtain ⟨aw, w2, hs⟩ := Py.bind_eq_ok.mp hs
  obtain ⟨gd, _, hs⟩ := Py.bind_eq_ok.mp hs
  cases hs
  obtain ⟨m1, m2, m3⟩ := mapM_at_zip b1 w1
  have g1 : (sb'.zip sw').map Prod.fst = sb' := List.map_fst_zip (by omega)
  have g2 : (sb'.zip sw').map Prod.snd = sw' := List.map_snd_zip (by omega)
  obtain ⟨k1, k2, k3⟩ := aligned_pairs h hδ hg hX (L := sb'.zip sw') (fun q hq => hmem q (m3 q hq)) hf ht (by rw [g1]; exact b2) (by rw [g2]; exact w2)
  have : (sb'.zip sw').length = sw'.length := by rw [List.length_zip]; omega
  exact ⟨by omega, by omega, k3⟩

/-- The classification returns pairs that are as good, up to one normalisation, and a calibration from the samples. -/
theorem classify_pairs {A : Arith} {u η τ D : ℝ} (h : Spec.Machine u A) (hη : 0 ≤ η) (hη1 : η ≤ 1 / 10) (hD : 0 ≤ D) {X : DQuat} {svd : Svd}
    {cfg : HandEyeConfig} {sb sw ab aw : List DQuat} (hs : 2 ≤ cfg.ransac_sample_size → sb.length = sw.length ∧ ∀ s ∈ sb.zip sw, GoodPair τ η D X s)
    (ha : ∀ s ∈ ab.zip aw, GoodPair τ η D X s) {k : Classified} (hk : A.classify svd cfg sb sw ab aw = .ok (some k)) :
    k.aligned_dq_B_H.length = ab.length ∧ (∀ s ∈ k.aligned_dq_B_H.zip aw, GoodPair τ (Spec.normalisedError u η D) D X s) ∧
    ∀ c, k.initial = some c → A.tryCalibrate svd cfg.hand_eye_calibration_scalar_part_equality_tolerance sb sw = some c ∧ sb.length = sw.length ∧
      ∀ s ∈ sb.zip sw, GoodPair τ (Spec.normalisedError u η D) D X s := by
  have hle := le_normalisedError (D := D) h.nonneg hη hD
  unfold Arith.classify at hk
  cases hc : cfg.ransac_inlier_classification with
  | other => rw [hc] at hk; cases hk
  | scalarPartEquality =>
    rw [hc] at hk
    dsimp only at hk
    unfold Arith.classifyByScalar at hk
    obtain ⟨fl, _, hk⟩ := Py.bind_eq_ok.mp hk
    cases hk
    exact ⟨rfl, fun s hs => (ha s hs).mono hη hle, fun c hc => (by cases hc)⟩
  | rmseThreshold =>
    rw [hc] at hk
    dsimp only at hk
    unfold Arith.classifyByRmse at hk
    obtain ⟨_, a1, hk⟩ := Py.bind_eq_ok.mp hk
    obtain ⟨s1, s2⟩ := hs (pyAssert_eq_ok.mp a1)
    cases ht : A.tryCalibrate svd cfg.hand_eye_calibration_scalar_part_equality_tolerance sb sw with
    | none => rw [ht] at hk; cases hk
    | some c =>
      rw [ht] at hk
      dsimp only at hk
      obtain ⟨⟨p1, p2⟩, _, hk⟩ := Py.bind_eq_ok.mp hk
      obtain ⟨ab', m1, hk⟩ := Py.bind_eq_ok.mp hk
      obtain ⟨⟨_, _, fl⟩, _, hk⟩ := Py.bind_eq_ok.mp hk
      obtain ⟨f0, _, hk⟩ := Py.bind_eq_ok.mp hk
      obtain ⟨_, _, hk⟩ := Py.bind_eq_ok.mp hk
      obtain ⟨ok, _, hk⟩ := Py.bind_eq_ok.mp hk
      cases ok with
      | false => cases hk
      | true =>
        cases hk
        obtain ⟨n1, n2⟩ := mapM_normalise (ws := aw) m1
        refine ⟨n1, ?_, ?_⟩
        · intro s hs
          obtain ⟨b, q1, q2⟩ := n2 s hs
          exact (ha _ q1).normalise h hη hη1 hD q2
        · intro c' hc'
          cases hc'
          exact ⟨rfl, s1, fun s hs => (s2 s hs).mono hη hle⟩

/-- A candidate is computed from the samples or from the inliers. -/
theorem buildCandidate_from {A : Arith} {svd : Svd} {cfg : HandEyeConfig} {is : List ℕ} {k : Classified} {aw : List DQuat} {c : FloatCandidate}
    (h : A.buildCandidate svd cfg is k aw = .ok (some c)) :
    k.initial = some c.calibration ∨ ∃ bi wi, bi.length = wi.length ∧ (bi.zip wi).Sublist (k.aligned_dq_B_H.zip aw) ∧
      A.tryCalibrate svd cfg.hand_eye_calibration_scalar_part_equality_tolerance bi wi = some c.calibration := by
  unfold Arith.buildCandidate at h
  obtain ⟨_, a1, h⟩ := Py.bind_eq_ok.mp h
  have hl := pyAssert_eq_ok.mp a1
  split at h
  · cases h
  cases hr : A.refine svd cfg k.initial (compress k.aligned_dq_B_H k.inlier_flags) (compress aw k.inlier_flags) with
  | none => simp only [hr] at h; cases h
  | some c' =>
    simp only [hr] at h
    obtain ⟨⟨p1, p2⟩, _, h⟩ := Py.bind_eq_ok.mp h
    obtain ⟨⟨rp, ro, _⟩, _, h⟩ := Py.bind_eq_ok.mp h
    cases h
    unfold Arith.refine at hr
    split at hr
    · cases hr
      left; assumption
    · exact .inr ⟨_, _, hl, compress_zip _ _ _, hr⟩

/-- Every candidate is a calibration from at most as many good pairs as there are poses. -/
theorem evaluateSample_from {A : Arith} {u δ θ D : ℝ} (h : Spec.Machine u A) (hδ0 : 0 ≤ δ) (hδ : δ ≤ 1 / 100) (hθ : 0 ≤ θ) (hD : 0 ≤ D)
    (hη1 : Spec.relativeError u δ θ D ≤ 1 / 10) {g X : DQuat} (hg : Spec.IsUnit g) (hX : Spec.IsUnit X) {bs ws bf wf : List DQuat}
    (hlen : ws.length = bs.length) {L₀ : List (DQuat × DQuat)} (hmem : ∀ q ∈ bs.zip ws, ∃ q₀ ∈ L₀, Spec.RecordedPair δ θ D q q₀)
    (hfil : ∀ q ∈ bf.zip wf, q ∈ bs.zip ws) (hf : ∀ p ∈ L₀, Spec.FitsMotion g X p)
    (ht : ∀ p ∈ L₀, ∀ q ∈ L₀, Spec.normalisedError u (Spec.relativeError u δ θ D) D < Spec.cosHalf p.1.rot q.1.rot) {svd : Svd} {cfg : HandEyeConfig}
    (hsz : cfg.ransac_sample_size < ws.length) {is : List ℕ} {c : FloatCandidate} (hc : A.evaluateSample svd cfg bs ws bf wf is = .ok (.candidate c)) :
    CalibratedFrom A svd cfg.hand_eye_calibration_scalar_part_equality_tolerance (Spec.normalisedError u (Spec.relativeError u δ θ D) D) D X bs.length
      c.calibration := by
  have hη := relativeError_nonneg (D := D) h.nonneg hδ0 hθ hD
  unfold Arith.evaluateSample at hc
  obtain ⟨⟨good, sb, sw⟩, h1, hc⟩ := Py.bind_eq_ok.mp hc
  dsimp only at hc
  cases good with
  | false => cases hc
  | true =>
    simp only [if_true] at hc
    obtain ⟨i0, _, hc⟩ := Py.bind_eq_ok.mp hc
    obtain ⟨ab, b1, hc⟩ := Py.bind_eq_ok.mp hc
    obtain ⟨aw, w1, hc⟩ := Py.bind_eq_ok.mp hc
    obtain ⟨ok, k1, hc⟩ := Py.bind_eq_ok.mp hc
    cases ok with
    | none => cases hc
    | some k =>
      dsimp only at hc
      obtain ⟨oc, k2, hc⟩ := Py.bind_eq_ok.mp hc
      cases oc with
      | none => cases hc
      | some c' =>
        cases hc
        have g1 : (bs.zip ws).map Prod.fst = bs := List.map_fst_zip (by omega)
        have g2 : (bs.zip ws).map Prod.snd = ws := List.map_snd_zip (by omega)
        obtain ⟨l1, l2, ha⟩ := aligned_pairs h hδ hg hX hmem hf ht (by rw [g1]; exact b1) (by rw [g2]; exact w1)
        have hs := fun h2 => sampleTest_pairs h hδ hg hX (fun q hq => hmem q (hfil q hq)) hf ht h2 h1
        obtain ⟨q1, q2, q3⟩ := classify_pairs h hη hη1 hD (fun h2 => ⟨(hs h2).1.trans (hs h2).2.1.symm, (hs h2).2.2⟩) ha k1
        rw [List.length_zip] at l1
        rcases buildCandidate_from k2 with e | ⟨bi, wi, e1, e2, e3⟩
        · obtain ⟨t1, t2, t3⟩ := q3 _ e
          refine ⟨sb, sw, t1, t2, ?_, t3⟩
          have hsl : sb.length ≤ cfg.ransac_sample_size := by
            unfold Arith.sampleTest at h1
            obtain ⟨sw', w1, h1⟩ := Py.bind_eq_ok.mp h1
            obtain ⟨sb', b1, h1⟩ := Py.bind_eq_ok.mp h1
            obtain ⟨_, a1, h1⟩ := Py.bind_eq_ok.mp h1
            have hl := pyAssert_eq_ok.mp a1
            obtain ⟨m1, m2, _⟩ := mapM_at_zip b1 w1
            split at h1
            · exact (hs (by omega)).1.le
            · cases h1
              omega
          omega
        · refine ⟨bi, wi, e3, e1, ?_, fun s hs => q2 s (e2.subset hs)⟩
          have := e2.length_le
          simp only [List.length_zip] at this
          omega

/-- The loop: what holds for every candidate holds for the best one. -/
theorem ransacLoop_best {A : Arith} {svd : Svd} {cfg : HandEyeConfig} {rng : ℕ → List ℕ} {abort : ℕ → Py Bool} {bs ws bf wf : List DQuat}
    {P : FloatCandidate → Prop} (hP : ∀ is c, A.evaluateSample svd cfg bs ws bf wf is = .ok (.candidate c) → P c) :
    ∀ {fuel : ℕ} {st st' : FloatState}, (∀ c, st.best = some c → P c) → A.ransacLoop svd cfg rng abort bs ws bf wf fuel st = .ok (some st') →
      ∀ c, st'.best = some c → P c := by
  intro fuel
  induction fuel with
  | zero =>
    intro st st' hst h
    unfold Arith.ransacLoop at h
    split at h
    · cases h
    · cases h; exact hst
  | succ fuel ih =>
    intro st st' hst h
    unfold Arith.ransacLoop at h
    split at h
    swap
    · cases h; exact hst
    dsimp only at h
    obtain ⟨⟨st1, stop⟩, h1, h⟩ := Py.bind_eq_ok.mp h
    have hst1 : ∀ c, st1.best = some c → P c := by
      unfold Arith.ransacStep at h1
      obtain ⟨is, _, h1⟩ := Py.bind_eq_ok.mp h1
      obtain ⟨o, ho, h1⟩ := Py.bind_eq_ok.mp h1
      cases o with
      | prerejected => cases h1; exact hst
      | rejected => cases h1; exact hst
      | candidate c =>
        dsimp only at h1
        obtain ⟨_, _, h1⟩ := Py.bind_eq_ok.mp h1
        cases h1
        intro c' hc'
        dsimp only at hc'
        unfold updateBestFloat at hc'
        split at hc'
        · cases hc'; exact hP _ _ ho
        · exact hst c' hc'
    dsimp only at h
    cases stop with
    | true => cases h; exact hst1
    | false => exact ih hst1 h

/-- The decomposition for the result of RANSAC, if every candidate is a calibration from good pairs. -/
theorem ransac_decomposition_of {A : Arith} {u κ ω η D : ℝ} (hA : Spec.Machine u A) (hκ : 0 ≤ κ) (hω : 0 ≤ ω) (hω1 : ω ≤ 1 / 1000) {svd : Svd}
    (hsvd : ∀ T s V, svd T = .ok (s, V) → Spec.NearSVD κ ω T s V) (hη0 : 0 ≤ η) (hD : 0 ≤ D) {X : DQuat} (hX : Spec.IsUnit X)
    {bs ws : List DQuat} {cfg : HandEyeConfig} {rng : ℕ → List ℕ} {abort : ℕ → Py Bool}
    {filter : List DQuat → List DQuat → Py (List DQuat × List DQuat)} (hfi : Spec.KeepsPairs filter) 
    (hev : ∀ bf wf is c, (bf.zip wf).Sublist (bs.zip ws) → ws.length = bs.length → cfg.ransac_sample_size < ws.length →
      A.evaluateSample svd cfg bs ws bf wf is = .ok (.candidate c) →
      CalibratedFrom A svd cfg.hand_eye_calibration_scalar_part_equality_tolerance η D X bs.length c.calibration) {fuel : ℕ} {c : FloatCandidate}
    (h : A.ransac svd rng abort cfg filter bs ws fuel = .ok (some (some c))) {σ : ℝ} (hσ : 0 < σ) (hs : c.calibration.singular_values[5]? = some σ) :
    |‖c.calibration.dq_H_E.rot.toH‖ - 1| ≤ 9 * u ∧
    ∃ (α β : ℝ) (er ed : ℍ[ℝ]), c.calibration.dq_H_E.rot.toH = α • X.rot.toH + er ∧
      c.calibration.dq_H_E.dual.toH = α • X.dual.toH + β • X.rot.toH + ed ∧
      ‖er‖ ^ 2 + ‖ed‖ ^ 2 ≤ ((1.1 * (4 * (η + (u + 1.001 * κ) * (1 + 2 * D + η)) * Real.sqrt bs.length / σ) + 25 * u + 2.2 * ω) *
        Real.sqrt (1 + Spec.translationLength c.calibration.dq_H_E ^ 2 / 4) * ‖c.calibration.dq_H_E.rot.toH‖) ^ 2 := by
  have hu := hA.nonneg
  unfold Arith.ransac at h
  obtain ⟨_, a1, h⟩ := Py.bind_eq_ok.mp h
  obtain ⟨_, a2, h⟩ := Py.bind_eq_ok.mp h
  obtain ⟨⟨bf, wf⟩, a3, h⟩ := Py.bind_eq_ok.mp h
  obtain ⟨o, a4, h⟩ := Py.bind_eq_ok.mp h
  have hlen := pyAssert_eq_ok.mp a1
  have hsz := pyAssert_eq_ok.mp a2
  obtain ⟨_, f2⟩ := hfi bs ws (bf, wf) hlen a3
  dsimp only at f2 a4
  cases o with
  | none => cases h
  | some st =>
    dsimp only at h
    obtain ⟨r, a5, h⟩ := Py.bind_eq_ok.mp h
    cases h
    cases hb : st.best with
    | none => rw [hb] at a5; cases a5
    | some b =>
      rw [hb] at a5
      unfold Arith.ransacResult at a5
      dsimp only at a5
      obtain ⟨_, _, a5⟩ := Py.bind_eq_ok.mp a5
      obtain ⟨dq, hdq, a5⟩ := Py.bind_eq_ok.mp a5
      cases a5
      have hfrom := ransacLoop_best (P := fun c => CalibratedFrom A svd cfg.hand_eye_calibration_scalar_part_equality_tolerance η D X bs.length c.calibration)
        (fun is c hc => hev bf wf is c f2 hlen hsz hc)
        (fun c hc => by cases hc) a4 b hb
      dsimp only at hs ⊢
      obtain ⟨q1, α, β, er, ed, q2, q3, q4⟩ := hfrom.decomposition hA hκ hω hω1 hsvd hη0 hD hX hσ hs
      obtain ⟨o1, α', β', er', ed', o2, o3, o4⟩ := normalize_decomposition hA (by positivity) q1 q2 q3 q4 hdq
      refine ⟨o1, α', β', er', ed', o2, o3, o4.trans (pow_le_pow_left₀ (by positivity) ?_ 2)⟩
      have h0 : 0 ≤ 4 * (η + (u + 1.001 * κ) * (1 + 2 * D + η)) * Real.sqrt bs.length / σ := by positivity
      refine mul_le_mul_of_nonneg_right (mul_le_mul_of_nonneg_right ?_ (Real.sqrt_nonneg _)) (norm_nonneg _)
      linarith

/-- The decomposition for the result of RANSAC. -/
theorem ransac_decomposition {A : Arith} {u κ ω δ θ D : ℝ} (hA : Spec.Machine u A) (hκ : 0 ≤ κ) (hω : 0 ≤ ω) (hω1 : ω ≤ 1 / 1000) {svd : Svd}
    (hsvd : ∀ T s V, svd T = .ok (s, V) → Spec.NearSVD κ ω T s V) (hδ0 : 0 ≤ δ) (hδ : δ ≤ 1 / 100) (hθ : 0 ≤ θ) (hD : 0 ≤ D)
    (hη1 : Spec.relativeError u δ θ D ≤ 1 / 10) {g X : DQuat}
    (hg : Spec.IsUnit g) (hX : Spec.IsUnit X) {bs ws : List DQuat} {L₀ : List (DQuat × DQuat)}
    (hmem : ∀ p ∈ bs.zip ws, ∃ p₀ ∈ L₀, Spec.RecordedPair δ θ D p p₀) (hf : ∀ p ∈ L₀, Spec.FitsMotion g X p) {η : ℝ}
    (hη : η = Spec.normalisedError u (Spec.relativeError u δ θ D) D)
    (ht : ∀ p ∈ L₀, ∀ q ∈ L₀, η < Spec.cosHalf p.1.rot q.1.rot) {cfg : HandEyeConfig} {rng : ℕ → List ℕ} {abort : ℕ → Py Bool}
    {filter : List DQuat → List DQuat → Py (List DQuat × List DQuat)} (hfi : Spec.KeepsPairs filter) {fuel : ℕ} {c : FloatCandidate}
    (h : A.ransac svd rng abort cfg filter bs ws fuel = .ok (some (some c))) {σ : ℝ} (hσ : 0 < σ) (hs : c.calibration.singular_values[5]? = some σ) :
    |‖c.calibration.dq_H_E.rot.toH‖ - 1| ≤ 9 * u ∧
    ∃ (α β : ℝ) (er ed : ℍ[ℝ]), c.calibration.dq_H_E.rot.toH = α • X.rot.toH + er ∧
      c.calibration.dq_H_E.dual.toH = α • X.dual.toH + β • X.rot.toH + ed ∧
      ‖er‖ ^ 2 + ‖ed‖ ^ 2 ≤ ((1.1 * (4 * (η + (u + 1.001 * κ) * (1 + 2 * D + η)) * Real.sqrt bs.length / σ) + 25 * u + 2.2 * ω) *
        Real.sqrt (1 + Spec.translationLength c.calibration.dq_H_E ^ 2 / 4) * ‖c.calibration.dq_H_E.rot.toH‖) ^ 2 := by
  have hu := hA.nonneg
  have hη0 : 0 ≤ η := by
    rw [hη]
    have h0 := relativeError_nonneg (D := D) hu hδ0 hθ hD
    exact h0.trans (le_normalisedError hu h0 hD)
  refine ransac_decomposition_of hA hκ hω hω1 hsvd hη0 hD hX hfi (fun bf wf is c f2 hlen hsz hc => ?_) h hσ hs
  rw [hη]
  exact evaluateSample_from hA hδ0 hδ hθ hD hη1 hg hX hlen hmem (fun q hq => f2.subset hq) hf (by rw [← hη]; exact ht) hsz hc

/-- **C117**, the rotation, in floating-point arithmetic: let every rounding have a relative error of at most `u`, and let the singular value decomposition be
that of a matrix within `κ` of the given one, with rows of `V` within `ω`.  Let the poses be recorded with errors `δ` and `θ` of the real and of the dual part,
and let the true poses fit the calibration `X`.  Then the sine of half the angle between the rotation that RANSAC returns and the true one is at most
`(1.1 · 4 (η + (u + 1.001 κ) (1 + 2 D + η)) √n / σ + 25 u + 2.2 ω) √(1 + |t|² / 4)`, for every choice of samples, both ways to classify inliers, with and
without refinement or exhaustive search, every prefilter, and every time at which the loop ends.  `η = (3.2 + 2.3 D) ε + (11 + 21 D) u` where
`ε = 19 u + 2.1 δ + (70 u + 4.2 δ)(D + θ) + 2.1 θ`.  The returned rotation has length 1 up to `9 u`.
Partial: no two poses may be within `η` of a half turn of each other, and `ε` is at most 1/10. -/
theorem C117_rotation_partial {A : Arith} {u : ℝ} (hA : Spec.Machine u A) (κ ω : ℝ) (hκ : 0 ≤ κ) (hω : 0 ≤ ω) (hω1 : ω ≤ 1 / 1000) (svd : Svd)
    (hsvd : ∀ T s V, svd T = .ok (s, V) → Spec.NearSVD κ ω T s V) (δ θ D : ℝ) (hδ0 : 0 ≤ δ) (hδ : δ ≤ 1 / 100) (hθ : 0 ≤ θ) (hD : 0 ≤ D)
    (hε : Spec.relativeError u δ θ D ≤ 1 / 10) (g X : DQuat)
    (hg : Spec.IsUnit g) (hX : Spec.IsUnit X) (bs ws : List DQuat) (L₀ : List (DQuat × DQuat))
    (hmem : ∀ p ∈ bs.zip ws, ∃ p₀ ∈ L₀, Spec.RecordedPair δ θ D p p₀) (hf : ∀ p ∈ L₀, Spec.FitsMotion g X p) (η : ℝ)
    (hη : η = Spec.normalisedError u (Spec.relativeError u δ θ D) D) (ht : ∀ p ∈ L₀, ∀ q ∈ L₀, η < Spec.cosHalf p.1.rot q.1.rot) (cfg : HandEyeConfig)
    (rng : ℕ → List ℕ) (abort : ℕ → Py Bool)
    (filter : List DQuat → List DQuat → Py (List DQuat × List DQuat)) (hfi : Spec.KeepsPairs filter) (fuel : ℕ) (c : FloatCandidate)
    (h : A.ransac svd rng abort cfg filter bs ws fuel = .ok (some (some c))) (σ : ℝ) (hσ : 0 < σ) (hs : c.calibration.singular_values[5]? = some σ) :
    |Spec.len c.calibration.dq_H_E.rot - 1| ≤ 9 * u ∧
    1 - Spec.cosHalf c.calibration.dq_H_E.rot X.rot ^ 2 ≤
      (1.1 * (4 * (η + (u + 1.001 * κ) * (1 + 2 * D + η)) * Real.sqrt bs.length / σ) + 25 * u + 2.2 * ω) ^ 2 *
        (1 + Spec.translationLength c.calibration.dq_H_E ^ 2 / 4) := by
  obtain ⟨hr, α, β, er, ed, d1, _, d3⟩ := ransac_decomposition hA hκ hω hω1 hsvd hδ0 hδ hθ hD hε hg hX hmem hf hη ht hfi h hσ hs
  have hpos : 0 < ‖c.calibration.dq_H_E.rot.toH‖ := by linarith [(abs_le.mp hr).1, hA.small]
  refine ⟨by rw [len_eq]; exact hr, ?_⟩
  refine (angle_estimate hX hpos d1 (le_trans ?_ d3)).trans (le_of_eq ?_)
  · linarith [sq_nonneg ‖ed‖]
  · rw [mul_pow, Real.sq_sqrt (by positivity)]

/-- **C117**, the whole motion, in floating-point arithmetic: if `ρ`, the bound of the rotation, is at most one half, then every point `p` is moved to within
`ρ (2 |p| + 4 + 4 |t₀| + 3 |t|)` of where the true calibration moves it.  Partial for the same reasons. -/
theorem C117_motion_partial {A : Arith} {u : ℝ} (hA : Spec.Machine u A) (κ ω : ℝ) (hκ : 0 ≤ κ) (hω : 0 ≤ ω) (hω1 : ω ≤ 1 / 1000) (svd : Svd)
    (hsvd : ∀ T s V, svd T = .ok (s, V) → Spec.NearSVD κ ω T s V) (δ θ D : ℝ) (hδ0 : 0 ≤ δ) (hδ : δ ≤ 1 / 100) (hθ : 0 ≤ θ) (hD : 0 ≤ D)
    (hε : Spec.relativeError u δ θ D ≤ 1 / 10) (g X : DQuat)
    (hg : Spec.IsUnit g) (hX : Spec.IsUnit X) (bs ws : List DQuat) (L₀ : List (DQuat × DQuat))
    (hmem : ∀ p ∈ bs.zip ws, ∃ p₀ ∈ L₀, Spec.RecordedPair δ θ D p p₀) (hf : ∀ p ∈ L₀, Spec.FitsMotion g X p) (η : ℝ)
    (hη : η = Spec.normalisedError u (Spec.relativeError u δ θ D) D) (ht : ∀ p ∈ L₀, ∀ q ∈ L₀, η < Spec.cosHalf p.1.rot q.1.rot) (cfg : HandEyeConfig)
    (rng : ℕ → List ℕ) (abort : ℕ → Py Bool)
    (filter : List DQuat → List DQuat → Py (List DQuat × List DQuat)) (hfi : Spec.KeepsPairs filter) (fuel : ℕ) (c : FloatCandidate)
    (h : A.ransac svd rng abort cfg filter bs ws fuel = .ok (some (some c))) (σ : ℝ) (hσ : 0 < σ) (hs : c.calibration.singular_values[5]? = some σ) (ρ : ℝ)
    (hρ : ρ = (1.1 * (4 * (η + (u + 1.001 * κ) * (1 + 2 * D + η)) * Real.sqrt bs.length / σ) + 25 * u + 2.2 * ω) *
      Real.sqrt (1 + Spec.translationLength c.calibration.dq_H_E ^ 2 / 4)) (hρ2 : ρ ≤ 1 / 2) (p : Vec3) :
    Spec.dist (Spec.motion c.calibration.dq_H_E p) (Spec.motion X p) ≤
      ρ * (2 * Spec.dist p ⟨0, 0, 0⟩ + 4 + 4 * Spec.translationLength X + 3 * Spec.translationLength c.calibration.dq_H_E) := by
  have hu := hA.nonneg
  have hη0 : 0 ≤ η := by
    rw [hη]
    have h0 := relativeError_nonneg (D := D) hu hδ0 hθ hD
    exact h0.trans (le_normalisedError hu h0 hD)
  obtain ⟨hr, α, β, er, ed, d1, d2, d3⟩ := ransac_decomposition hA hκ hω hω1 hsvd hδ0 hδ hθ hD hε hg hX hmem hf hη ht hfi h hσ hs
  have hN : 0.991 ≤ ‖c.calibration.dq_H_E.rot.toH‖ := by linarith [(abs_le.mp hr).1, hA.small]
  rw [← hρ] at d3
  have hρ0 : 0 ≤ ρ := by rw [hρ]; positivity
  refine (motion_estimate hX (by linarith) d1 d2 d3 hρ0 hρ2 p).trans ?_
  have ht : 0 ≤ Spec.translationLength c.calibration.dq_H_E := by rw [translationLength_eq]; positivity
  have : 2 * (Spec.translationLength c.calibration.dq_H_E / ‖c.calibration.dq_H_E.rot.toH‖) ≤ 3 * Spec.translationLength c.calibration.dq_H_E := by
    rw [← mul_div_assoc, div_le_iff₀ (by linarith)]
    nlinarith
  gcongr

end HandEye
