import Verif.Props.Ransac5
import Verif.Props.Frames
import Verif.Spec.OutlierPoses

/-! # Lemmas: measurements that fit up to signs -/

namespace HandEye

theorem fitsMotion_iff {g X : DQuat} (hg : Spec.IsUnit g) (hX : Spec.IsUnit X) {m : DQuat × DQuat} (h1 : Spec.IsUnit m.1)
    (h2 : Spec.IsUnit m.2) : Spec.FitsMotion g X m ↔ m.2 = g * m.1 * X ∨ m.2 = -(g * m.1 * X) := by
  have e : ∀ x, Spec.motion (g * m.1 * X) x = Spec.motion g (Spec.motion m.1 (Spec.motion X x)) := fun x => by
    rw [DQuat.motion_mul (DQuat.isUnit_mul hg h1) hX, DQuat.motion_mul hg h1]
  constructor
  · intro h
    apply motion_ext h2 (DQuat.isUnit_mul (DQuat.isUnit_mul hg h1) hX)
    intro x
    rw [e]
    exact h x
  · rintro (h | h) x <;> rw [h]
    · exact e x
    · rw [motion_neg]
      exact e x

open Classical in
/-- The measurement, with the sign that fits. -/
noncomputable def straight (g X : DQuat) (m : DQuat × DQuat) : DQuat × DQuat :=
  (m.1, if Spec.FitsMotion g X m then g * m.1 * X else m.2)

theorem straight_sign {g X : DQuat} (hg : Spec.IsUnit g) (hX : Spec.IsUnit X) {m : DQuat × DQuat} (h1 : Spec.IsUnit m.1)
    (h2 : Spec.IsUnit m.2) : (straight g X m).2 = m.2 ∨ (straight g X m).2 = -m.2 := by
  unfold straight
  dsimp only
  split
  · next h =>
    rcases (fitsMotion_iff hg hX h1 h2).mp h with e | e <;> rw [e]
    · exact Or.inl rfl
    · exact Or.inr (neg_neg _).symm
  · exact Or.inl rfl

theorem straight_unit {g X : DQuat} (hg : Spec.IsUnit g) (hX : Spec.IsUnit X) {m : DQuat × DQuat} (h1 : Spec.IsUnit m.1)
    (h2 : Spec.IsUnit m.2) : Spec.IsUnit (straight g X m).2 := by
  rcases straight_sign hg hX h1 h2 with e | e <;> rw [e]
  · exact h2
  · exact DQuat.isUnit_neg h2

theorem straight_fits {g X : DQuat} (hg : Spec.IsUnit g) (hX : Spec.IsUnit X) {m : DQuat × DQuat} (h1 : Spec.IsUnit m.1)
    (h2 : Spec.IsUnit m.2) : Spec.Fits g X (straight g X m) ↔ Spec.FitsMotion g X m := by
  rw [fits_iff]
  unfold straight
  dsimp only
  constructor
  · intro h
    by_contra hcon
    rw [if_neg hcon] at h
    exact hcon ((fitsMotion_iff hg hX h1 h2).mpr (Or.inl h))
  · intro h
    rw [if_pos h]

theorem scalarParts_neg {m : DQuat} (h : m.rot.w ≠ 0) : Spec.scalarParts (-m) = Spec.scalarParts m := by
  unfold Spec.scalarParts
  simp only [DQuat.neg_rot, DQuat.neg_dual, Quat.neg_w, neg_neg]
  rcases lt_or_gt_of_ne h with h | h
  · rw [if_neg (by linarith), if_pos h]
  · rw [if_pos (by linarith), if_neg (by linarith)]

theorem scalarParts_signs {a b a' b' : DQuat} (ha : a' = a ∨ a' = -a) (hb : b' = b ∨ b' = -b) (h : (a.conj * b).rot.w ≠ 0) :
    Spec.scalarParts (a'.conj * b') = Spec.scalarParts (a.conj * b) := by
  have hcn : ∀ z : DQuat, (-z).conj = -z.conj := fun z => by ext <;> simp [DQuat.conj, Quat.conj]
  rcases ha with rfl | rfl <;> rcases hb with rfl | rfl
  · rfl
  · rw [mul_neg, scalarParts_neg h]
  · rw [hcn, neg_mul, scalarParts_neg h]
  · rw [hcn, neg_mul, mul_neg, neg_neg]

theorem straight_corresponds {tol : ℝ} {g X : DQuat} (hg : Spec.IsUnit g) (hX : Spec.IsUnit X) {m n : DQuat × DQuat}
    (hm1 : Spec.IsUnit m.1) (hm2 : Spec.IsUnit m.2) (hn1 : Spec.IsUnit n.1) (hn2 : Spec.IsUnit n.2)
    (h : (m.2.conj * n.2).rot.w ≠ 0) :
    Spec.Corresponds tol (straight g X m) (straight g X n) ↔ Spec.Corresponds tol m n := by
  unfold Spec.Corresponds
  rw [scalarParts_signs (straight_sign hg hX hm1 hm2) (straight_sign hg hX hn1 hn2) h]
  rfl

theorem number_map {P : DQuat × DQuat → Prop} {Q : DQuat × DQuat → Prop} {f : DQuat × DQuat → DQuat × DQuat}
    {ms : List (DQuat × DQuat)} (h : ∀ m ∈ ms, P (f m) ↔ Q m) : Spec.number P (ms.map f) = Spec.number Q ms := by
  classical
  unfold Spec.number
  rw [List.countP_map]
  exact List.countP_congr fun m hm => by simp only [Function.comp, h m hm]

theorem handsOf_map {P : DQuat × DQuat → Prop} {Q : DQuat × DQuat → Prop} {f : DQuat × DQuat → DQuat × DQuat}
    (hf : ∀ m, (f m).1 = m.1) {ms : List (DQuat × DQuat)} (h : ∀ m ∈ ms, P (f m) ↔ Q m) :
    Spec.handsOf P (ms.map f) = Spec.handsOf Q ms := by
  classical
  unfold Spec.handsOf
  rw [List.filter_map, List.map_map]
  have e : (Prod.fst ∘ f) = Prod.fst := funext hf
  rw [e]
  congr 1
  exact List.filter_congr fun m hm => by simp only [Function.comp, decide_eq_decide.mpr (h m hm)]

/-- The eyes of the straightened measurements. -/
noncomputable def straightEyes (g X : DQuat) (V W : List DQuat) : List DQuat := (V.zip W).map fun m => (straight g X m).2

theorem straightEyes_zip {g X : DQuat} {V W : List DQuat} (hl : W.length = V.length) :
    V.zip (straightEyes g X V W) = (V.zip W).map (straight g X) := by
  have e : (V.zip W).map (fun m => (straight g X m).1) = V := by
    have : (V.zip W).map (fun m => (straight g X m).1) = (V.zip W).map Prod.fst := rfl
    rw [this, List.map_fst_zip (by omega)]
  unfold straightEyes
  calc V.zip ((V.zip W).map fun m => (straight g X m).2)
      = ((V.zip W).map fun m => (straight g X m).1).zip ((V.zip W).map fun m => (straight g X m).2) := by rw [e]
    _ = (V.zip W).map (straight g X) := by rw [List.zip_map']

/-- What becomes of the data when they are aligned at one of the measurements. -/
theorem outcome_at {svd : Svd} (hsvd : ∀ T s V, svd T = .ok (s, V) → Spec.IsSVD T s V)
    {cfg : HandEyeConfig} (hmode : cfg.ransac_inlier_classification = .scalarPartEquality) {tol : ℝ}
    (ht : cfg.ransac_sample_rejection_scalar_part_equality_tolerance = tol) (htol : 0 ≤ tol)
    {g X : DQuat} (hg : Spec.IsUnit g) (hX : Spec.IsUnit X) (hXw : X.rot.w ≠ 0)
    {V W : List DQuat} (hl : W.length = V.length) (hV : ∀ a ∈ V, Spec.IsUnit a) (hW : ∀ a ∈ W, Spec.IsUnit a)
    (hnW : Spec.NoHalfTurns W)
    (hvis : ∀ p ∈ V.zip W, Spec.FitsMotion g X p → ∀ q ∈ V.zip W, Spec.Corresponds tol p q → Spec.FitsMotion g X q)
    (hfew : ∀ p ∈ V.zip W, ¬ Spec.FitsMotion g X p → Spec.number (Spec.Corresponds tol p) (V.zip W) < cfg.min_num_inliers)
    (h2 : Spec.TurnsAboutTwoAxes (Spec.handsOf (Spec.FitsMotion g X) (V.zip W)))
    {i : ℕ} {m : DQuat × DQuat} (hm : (V.zip W)[i]? = some m) (sB sW : List DQuat) (s : List ℕ) :
    ∃ aB aW k oc, alignPathsAtIndex V (i : ℕ) = .ok aB ∧ alignPathsAtIndex W (i : ℕ) = .ok aW ∧
      classify svd cfg sB sW aB aW = .ok (some k) ∧ buildCandidate svd cfg s k aW = .ok oc ∧
      (∀ c, oc = some c → Spec.FitsMotion g X m ∧ Spec.SameUpToSign c.dq_H_E X ∧ 0 ≤ c.dq_H_E.rot.w ∧
        c.num_inliers = Spec.number (Spec.FitsMotion g X) (V.zip W) ∧
        (cfg.ransac_evaluate_refined_model_on_inliers_only = true → c.rmse_position = 0 ∧ c.rmse_orientation = 0)) ∧
      (cfg.min_num_inliers ≤ Spec.number (Spec.FitsMotion g X) (V.zip W) →
        (∀ B W, Spec.Exact B W X → (∀ b ∈ B, Spec.IsUnit b) → Spec.TwoAxes B → B.head? = some ⟨⟨0, 0, 0, 1⟩, ⟨0, 0, 0, 0⟩⟩ →
          ∃ r, computeHandEyeCalibration svd B W cfg.hand_eye_calibration_scalar_part_equality_tolerance = .ok r) →
        Spec.FitsMotion g X m → ∃ c, oc = some c) := by
  set W' := straightEyes g X V W with hW'
  have hz : V.zip W' = (V.zip W).map (straight g X) := straightEyes_zip hl
  have hu1 : ∀ m ∈ V.zip W, Spec.IsUnit m.1 := fun m h => hV _ (List.of_mem_zip h).1
  have hu2 : ∀ m ∈ V.zip W, Spec.IsUnit m.2 := fun m h => hW _ (List.of_mem_zip h).2
  have hl' : W'.length = V.length := by
    rw [hW', straightEyes, List.length_map, List.length_zip]
    omega
  have huW' : ∀ a ∈ W', Spec.IsUnit a := by
    intro a ha
    obtain ⟨n, hn, rfl⟩ := List.mem_map.mp ha
    exact straight_unit hg hX (hu1 n hn) (hu2 n hn)
  have hsign : List.Forall₂ (fun a a' => a' = (1 : DQuat) * a ∨ a' = -((1 : DQuat) * a)) W W' := by
    have e : W = (V.zip W).map Prod.snd := (List.map_snd_zip (by omega)).symm
    rw [hW', straightEyes]
    conv =>
      arg 2
      rw [e]
    rw [List.forall₂_map_left_iff, List.forall₂_map_right_iff]
    refine List.forall₂_same.mpr fun n hn => ?_
    rw [one_mul]
    exact straight_sign hg hX (hu1 n hn) (hu2 n hn)
  have hal : alignPathsAtIndex W' (i : ℕ) = alignPathsAtIndex W (i : ℕ) :=
    align_seen DQuat.isUnit_one hW hsign _ fun _ _ _ ha b hb => noHalfTurns_iff.mp hnW _ (List.mem_of_getElem? ha) b hb
  have hfit : ∀ n ∈ V.zip W, Spec.Fits g X (straight g X n) ↔ Spec.FitsMotion g X n := fun n hn =>
    straight_fits hg hX (hu1 n hn) (hu2 n hn)
  have hcor : ∀ a ∈ V.zip W, ∀ b ∈ V.zip W, Spec.Corresponds tol (straight g X a) (straight g X b) ↔ Spec.Corresponds tol a b :=
    fun a ha b hb => straight_corresponds hg hX (hu1 a ha) (hu2 a ha) (hu1 b hb) (hu2 b hb)
      (noHalfTurns_iff.mp hnW _ (List.of_mem_zip ha).2 _ (List.of_mem_zip hb).2)
  have hmm := List.mem_of_getElem? hm
  have hp : (V.zip W')[i]? = some (straight g X m) := by rw [hz, List.getElem?_map, hm]; rfl
  obtain ⟨b1, b2⟩ := align_measurements hl' hV huW' hp
  rw [hal] at b2
  have hnum : Spec.number (Spec.Corresponds tol (straight g X m)) (V.zip W') = Spec.number (Spec.Corresponds tol m) (V.zip W) := by
    rw [hz]
    exact number_map fun n hn => hcor m hmm n hn
  have hnum' : Spec.number (Spec.Fits g X) (V.zip W') = Spec.number (Spec.FitsMotion g X) (V.zip W) := by
    rw [hz]
    exact number_map hfit
  have hcl := classify_measurements (svd := svd) hmode ht htol (bs := V) (ws := W') i (straight g X m) sB sW
  by_cases hpf : Spec.FitsMotion g X m
  · have hpf' := (hfit m hmm).mpr hpf
    have hvis' : ∀ q ∈ V.zip W', Spec.Corresponds tol (straight g X m) q → Spec.Fits g X q := by
      rw [hz]
      intro q hq hc
      obtain ⟨n, hn, rfl⟩ := List.mem_map.mp hq
      exact (hfit n hn).mpr (hvis m hmm hpf n hn ((hcor m hmm n hn).mp hc))
    obtain ⟨s1, s2⟩ := agree_good htol hg hX (fun n hn => hV _ (List.of_mem_zip hn).1) (List.mem_of_getElem? hp) hpf' hvis'
    have hh : Spec.handsOf (Spec.Fits g X) (V.zip W') = Spec.handsOf (Spec.FitsMotion g X) (V.zip W) := by
      rw [hz]
      exact handsOf_map (f := straight g X) (fun _ => rfl) hfit
    have h2' : Spec.TurnsAboutTwoAxes (Spec.handsOf (Spec.Corresponds tol (straight g X m)) (V.zip W')) := by
      rw [s1, hh]
      exact h2
    by_cases hmin : cfg.min_num_inliers ≤ Spec.number (Spec.Corresponds tol (straight g X m)) (V.zip W')
    · obtain ⟨oc, o1, o2, o3⟩ := build_group hsvd htol hg hX hXw hV huW' hp hvis' h2' hmin s
      refine ⟨_, _, _, oc, b1, b2, hcl, o1, fun c hc => ?_, fun _ hsolve _ => ?_⟩
      · obtain ⟨p1, p2, p3, p4⟩ := o2 c hc
        exact ⟨hpf, p1, p2, by rw [p3, s2, hnum'], p4⟩
      · obtain ⟨x1, x2, -, x4, x5⟩ := agreeing_exact htol hg hX hV huW' hp hvis' h2'
        exact o3 (hsolve _ _ x1 x2 x5 x4)
    · refine ⟨_, _, _, none, b1, b2, hcl, build_few (by omega) s, ?_, fun hmin' _ _ => ?_⟩
      · intro c hc; cases hc
      · rw [s2, hnum'] at hmin
        exact absurd hmin' hmin
  · refine ⟨_, _, _, none, b1, b2, hcl, build_few (by rw [hnum]; exact hfew m hmm hpf) s, ?_, fun _ _ h => absurd h hpf⟩
    intro c hc
    cases hc

/-- What RANSAC reports, for trajectories with the alignments of V and W. -/
theorem ransac_outcome {svd : Svd} (hsvd : ∀ T s V, svd T = .ok (s, V) → Spec.IsSVD T s V)
    {cfg : HandEyeConfig} (hmode : cfg.ransac_inlier_classification = .scalarPartEquality) {tol : ℝ}
    (ht : cfg.ransac_sample_rejection_scalar_part_equality_tolerance = tol) (htol : 0 ≤ tol)
    {g X : DQuat} (hg : Spec.IsUnit g) (hX : Spec.IsUnit X) (hXw : X.rot.w ≠ 0)
    {V W : List DQuat} (hl : W.length = V.length) (hV : ∀ a ∈ V, Spec.IsUnit a) (hW : ∀ a ∈ W, Spec.IsUnit a)
    (hnW : Spec.NoHalfTurns W)
    (hvis : ∀ p ∈ V.zip W, Spec.FitsMotion g X p → ∀ q ∈ V.zip W, Spec.Corresponds tol p q → Spec.FitsMotion g X q)
    (hfew : ∀ p ∈ V.zip W, ¬ Spec.FitsMotion g X p → Spec.number (Spec.Corresponds tol p) (V.zip W) < cfg.min_num_inliers)
    (h2 : Spec.TurnsAboutTwoAxes (Spec.handsOf (Spec.FitsMotion g X) (V.zip W)))
    {bs ws : List DQuat} (eb : ∀ i : ℕ, alignPathsAtIndex bs (i : ℤ) = alignPathsAtIndex V (i : ℤ))
    (ew : ∀ i : ℕ, alignPathsAtIndex ws (i : ℤ) = alignPathsAtIndex W (i : ℤ)) {rng : ℕ → List ℕ} {fuel : ℕ} {r : CalibrationResult}
    (h : ransac svd rng cfg bs ws fuel = .ok (some r)) (hs : r.success = true) :
    ∃ dq, r.dq_H_E = some dq ∧ Spec.SameUpToSign dq X ∧ 0 ≤ dq.rot.w ∧
      r.num_inliers = Spec.number (Spec.FitsMotion g X) (V.zip W) ∧
      (cfg.ransac_evaluate_refined_model_on_inliers_only = true → r.rmse = some (0, 0)) := by
  obtain ⟨bf, wf, samples, outs, c, h1, hco, hc, e1, e2, e3, -⟩ := C37_best_candidate svd rng cfg bs ws fuel r h hs
  obtain ⟨n, hn⟩ := List.getElem?_of_mem hc
  have hlt : n < outs.length := (List.getElem?_eq_some_iff.mp hn).1
  have hz := List.forall₂_iff_get.mp hco.outcomes
  have hsn : n < samples.length := by rw [hz.1]; exact hlt
  have hev := hz.2 n hsn hlt
  simp only [List.get_eq_getElem] at hev
  rw [(List.getElem?_eq_some_iff.mp hn).2] at hev
  obtain ⟨sB, sW, i0, aB, aW, k, -, -, a1, a2, a3, a4⟩ := evaluateSample_candidate hev
  rw [eb] at a1
  rw [ew] at a2
  have hi0 : i0 < V.length := by
    by_contra hcon
    rw [align_index_error] at a1
    · cases a1
    · unfold pyPos
      rw [if_pos (by omega), if_neg (by simpa using hcon)]
  obtain ⟨p, hp⟩ : ∃ p, (V.zip W)[i0]? = some p := ⟨_, List.getElem?_eq_getElem (by rw [List.length_zip]; omega)⟩
  obtain ⟨aB', aW', k', oc, b1, b2, b3, b4, b5, -⟩ := outcome_at hsvd hmode ht htol hg hX hXw hl hV hW hnW hvis hfew h2 hp sB sW
    samples[n]
  rw [a1] at b1
  rw [a2] at b2
  cases b1
  cases b2
  rw [a3] at b3
  cases b3
  rw [a4] at b4
  cases b4
  obtain ⟨-, c1, c2, c3, c4⟩ := b5 c rfl
  refine ⟨_, e1, c1, c2, by rw [e3, c3], fun hin => ?_⟩
  rw [e2, (c4 hin).1, (c4 hin).2]

/-- Samples of one measurement: none raises an exception, and a good one becomes a candidate. -/
theorem outcome_one {svd : Svd} (hsvd : ∀ T s V, svd T = .ok (s, V) → Spec.IsSVD T s V)
    {cfg : HandEyeConfig} (hmode : cfg.ransac_inlier_classification = .scalarPartEquality) {tol : ℝ}
    (ht : cfg.ransac_sample_rejection_scalar_part_equality_tolerance = tol) (htol : 0 ≤ tol)
    {g X : DQuat} (hg : Spec.IsUnit g) (hX : Spec.IsUnit X) (hXw : X.rot.w ≠ 0)
    {V W : List DQuat} (hl : W.length = V.length) (hV : ∀ a ∈ V, Spec.IsUnit a) (hW : ∀ a ∈ W, Spec.IsUnit a)
    (hnW : Spec.NoHalfTurns W)
    (hvis : ∀ p ∈ V.zip W, Spec.FitsMotion g X p → ∀ q ∈ V.zip W, Spec.Corresponds tol p q → Spec.FitsMotion g X q)
    (hfew : ∀ p ∈ V.zip W, ¬ Spec.FitsMotion g X p → Spec.number (Spec.Corresponds tol p) (V.zip W) < cfg.min_num_inliers)
    (h2 : Spec.TurnsAboutTwoAxes (Spec.handsOf (Spec.FitsMotion g X) (V.zip W)))
    {bs ws : List DQuat} (eb : ∀ i : ℕ, alignPathsAtIndex bs (i : ℤ) = alignPathsAtIndex V (i : ℤ))
    (ew : ∀ i : ℕ, alignPathsAtIndex ws (i : ℤ) = alignPathsAtIndex W (i : ℤ)) (hsize : cfg.ransac_sample_size = 1)
    {bf wf : List DQuat} (hf : bf.length = wf.length) (hfl : wf.length ≤ V.length) {s : List ℕ}
    (hsm : Spec.IsSample wf.length cfg.ransac_sample_size s) :
    ∃ o, evaluateSample svd cfg bs ws bf wf s = .ok o ∧
      ((∀ i ∈ s, ∀ m, (V.zip W)[i]? = some m → Spec.FitsMotion g X m) →
        cfg.min_num_inliers ≤ Spec.number (Spec.FitsMotion g X) (V.zip W) →
        (∀ B W, Spec.Exact B W X → (∀ b ∈ B, Spec.IsUnit b) → Spec.TwoAxes B → B.head? = some ⟨⟨0, 0, 0, 1⟩, ⟨0, 0, 0, 0⟩⟩ →
          ∃ r, computeHandEyeCalibration svd B W cfg.hand_eye_calibration_scalar_part_equality_tolerance = .ok r) →
        ∃ c, o = .candidate c) := by
  obtain ⟨i, rfl⟩ := List.length_eq_one_iff.mp (hsm.1.trans hsize)
  have hi : i < wf.length := hsm.2.2 i (by simp)
  obtain ⟨p, hp⟩ : ∃ p, (V.zip W)[i]? = some p := ⟨_, List.getElem?_eq_getElem (by rw [List.length_zip]; omega)⟩
  have hst : ∃ x y, sampleTest cfg bf wf [i] = .ok (true, x, y) := by
    unfold sampleTest
    rw [mapM_pyAt 0 (by simpa using hi), Py.ok_bind, mapM_pyAt 0 (by rw [hf]; simpa using hi), Py.ok_bind,
      pyAssert_pos (by rw [hsize]; rfl), Py.ok_bind, if_neg (by omega)]
    exact ⟨_, _, rfl⟩
  obtain ⟨x, y, hst⟩ := hst
  obtain ⟨aB, aW, k, oc, b1, b2, b3, b4, -, b6⟩ := outcome_at hsvd hmode ht htol hg hX hXw hl hV hW hnW hvis hfew h2 hp x y [i]
  have hat : pyAt [i] 0 = .ok i := rfl
  unfold evaluateSample
  rw [hst, Py.ok_bind]
  dsimp only
  rw [if_pos rfl, hat, Py.ok_bind, eb, b1, Py.ok_bind, ew, b2, Py.ok_bind, b3, Py.ok_bind]
  dsimp only
  rw [b4, Py.ok_bind]
  cases oc with
  | none =>
    refine ⟨_, rfl, fun h1 h2 h3 => ?_⟩
    obtain ⟨c, hc⟩ := b6 h2 h3 (h1 i (by simp) p hp)
    cases hc
  | some c => exact ⟨_, rfl, fun _ _ _ => ⟨c, rfl⟩⟩

/-- If two poses with axes that are not close come first, apart from poses without an axis, the prefilter does not fail. -/
theorem prefilter_two {thr : ℝ} {bs ws : List DQuat} (hl : bs.length = ws.length) (hu : ∀ a ∈ bs, Spec.IsUnit a)
    (huw : ∀ a ∈ ws, Spec.IsUnit a) {t j : ℕ} (htj : t < j) (hstill : ∀ i < t, bs[i]? = some DQuat.identity)
    {b₁ b₂ w₁ w₂ : DQuat} (hb₁ : bs[t]? = some b₁) (hb₂ : bs[j]? = some b₂) (hw₁ : ws[t]? = some w₁) (hw₂ : ws[j]? = some w₂)
    {n₁ n₂ m₁ m₂ : Vec3} (a₁ : Spec.HasAxis b₁ n₁) (a₂ : Spec.HasAxis b₂ n₂) (c₁ : Spec.HasAxis w₁ m₁) (c₂ : Spec.HasAxis w₂ m₂)
    (hn : n₁.dot n₂ ≤ thr) (hm : m₁.dot m₂ ≤ thr) :
    ∃ bf wf, prefilterUsingScrewAxis bs ws thr = .ok (bf, wf) ∧ bf.length = wf.length ∧ 2 ≤ bf.length ∧ bf.length ≤ bs.length := by
  have hax : ∀ a, Spec.IsUnit a → ∃ r, a.screwAxis = .ok r := fun a ha => by
    obtain ⟨_, _, _, h, _⟩ := C18_parameters a ha
    exact ⟨_, h⟩
  obtain ⟨bf, wf, h1, h2, h3, h4, -⟩ | herr := C32_unit_trajectories bs ws thr hl hu huw
  · exact ⟨bf, wf, h1, h2, h3, h4.length_le⟩
  exfalso
  obtain ⟨idx, i1, i2, i3, i4, i5, i6⟩ := C32_selection bs ws thr hl (fun a ha => hax a (hu a ha)) fun a ha => hax a (huw a ha)
  by_cases h2 : 2 ≤ idx.length
  · obtain ⟨x, y, h, -⟩ := i5 h2
    rw [h] at herr
    cases herr
  have hdeg : ∀ {i : ℕ} {b w : DQuat} {n m : Vec3}, bs[i]? = some b → ws[i]? = some w → Spec.HasAxis b n → Spec.HasAxis w m →
      ¬ Spec.Degenerate bs ws i := by
    rintro i b w n m h h' hn hm' ⟨w, v, d1, d2, d3⟩
    rw [h] at d1
    rw [h'] at d2
    cases d1; cases d2
    rcases d3 with d3 | d3
    · exact hasAxis_not_noAxis hn d3
    · exact hasAxis_not_noAxis hm' d3
  have hlt1 : t < bs.length := (List.getElem?_eq_some_iff.mp hb₁).1
  have hlt2 : j < bs.length := (List.getElem?_eq_some_iff.mp hb₂).1
  have h0 : ∀ i < t, i ∉ idx := by
    intro i hit h
    obtain ⟨w, b, n, m, u1, u2, u3, u4⟩ := i2 i h
    rw [hstill i hit] at u1
    cases u1
    exact hasAxis_not_noAxis u3 noAxis_identity
  have hin1 : t ∈ idx := by
    by_contra hcon
    rcases i4 t hlt1 hcon with h | ⟨i, hi, hi1, -⟩
    · exact hdeg hb₁ hw₁ a₁ c₁ h
    · exact h0 i hi1 hi
  have hclose : ¬ Spec.Close thr bs ws t j := by
    rintro ⟨w, b, w', b', n, m, n', m', d1, d2, d3, d4, d5, d6, d7, d8, d9⟩
    rw [hb₁] at d1; rw [hw₁] at d2; rw [hb₂] at d3; rw [hw₂] at d4
    cases d1; cases d2; cases d3; cases d4
    rw [hasAxis_unique d5 a₁, hasAxis_unique d6 c₁, hasAxis_unique d7 a₂, hasAxis_unique d8 c₂] at d9
    unfold Vec3.dot at hn hm
    rcases d9 with d9 | d9 <;> linarith
  have hin2 : j ∈ idx := by
    by_contra hcon
    rcases i4 j hlt2 hcon with h | ⟨i, hi, -, hc⟩
    · exact hdeg hb₂ hw₂ a₂ c₂ h
    · have : i = t := by
        by_contra hne
        apply h2
        have hsub : [i, t] ⊆ idx := by simp [hi, hin1]
        exact (List.subperm_of_subset (by simp [hne]) hsub).length_le
      exact hclose (this ▸ hc)
  apply h2
  have hsub : [t, j] ⊆ idx := by simp [hin1, hin2]
  exact (List.subperm_of_subset (by simp; omega) hsub).length_le

end HandEye
