import Verif.Props.Ransac2
import Verif.Props.Alignment
import Verif.Props.Prefilter
import Verif.Props.HandEye3
import Verif.Spec.Mounted

/-! # Property C61: RANSAC on noise-free data -/

namespace HandEye

theorem mounted_iff {g X : DQuat} {bs ws : List DQuat} :
    Spec.Mounted g X bs ws ↔ ws = bs.map fun b => g * b * X := by
  have h := C12_agrees_with_dual_numbers
  have key : ∀ b w : DQuat, w.toDual = g.toDual * b.toDual * X.toDual ↔ w = g * b * X := by
    intro b w
    rw [← (h g b 0).2.1, ← (h (g * b) X 0).2.1]
    exact ⟨fun e => (h w (g * b * X) 0).1 e, congrArg _⟩
  unfold Spec.Mounted
  simp only [key]
  constructor
  · intro e
    induction e with
    | nil => rfl
    | cons h1 _ ih => rw [List.map_cons, h1, ih]
  · rintro rfl
    rw [List.forall₂_map_right_iff]
    exact List.forall₂_same.mpr fun _ _ => rfl

/-- Two trajectories of rigidly connected sensors, aligned at the same pose, are exact data. -/
theorem mounted_align {g X : DQuat} (hg : Spec.IsUnit g) (hX : Spec.IsUnit X) {bs ws : List DQuat}
    (hu : ∀ a ∈ bs, Spec.IsUnit a) (hm : Spec.Mounted g X bs ws) {k : ℕ} (hk : k < bs.length) :
    ∃ B W, alignPathsAtIndex bs (k : ℕ) = .ok B ∧ alignPathsAtIndex ws (k : ℕ) = .ok W ∧
      B = (bs.rotate k).map (rebase bs[k].conj true) ∧ B.length = bs.length ∧
      Spec.Exact B W X ∧ (∀ b ∈ B, Spec.IsUnit b) ∧ B.head? = some DQuat.identity ∧
      (∀ b ∈ B, 0 ≤ b.rot.w) ∧ ∀ w ∈ W, 0 ≤ w.rot.w := by
  have hgc := DQuat.isUnit_conj hg
  have hn : Spec.Names bs.length (k : ℤ) k := ⟨hk, Or.inl rfl⟩
  obtain ⟨e, B, W, h1, h2, h3, h4, h5⟩ := C23_offset_trajectory bs hu X g.conj hX hgc k k hn true
  rw [offset_unit hu hX hgc, DQuat.conj_conj] at h1
  have : ws = e := by rw [mounted_iff.mp hm]; exact Except.ok.inj h1
  subst this
  have hp := pyPos_natCast hk
  have hB := align_unit hp hu true
  rw [h2] at hB
  have hB' := Except.ok.inj hB
  have hwl : ws.length = bs.length := by rw [mounted_iff.mp hm, List.length_map]
  have hwu : ∀ a ∈ ws, Spec.IsUnit a := by
    rw [mounted_iff.mp hm]
    intro a ha
    obtain ⟨b, hb, rfl⟩ := List.mem_map.mp ha
    exact DQuat.isUnit_mul (DQuat.isUnit_mul hg (hu b hb)) hX
  have hW := align_unit (v := ws) (pyPos_natCast (n := ws.length) (k := k) (by omega)) hwu true
  rw [h3] at hW
  have hW' := Except.ok.inj hW
  refine ⟨B, W, h2, h3, hB', h4, h5, ?_, ?_, ?_, ?_⟩
  · rw [hB']
    intro b hb
    obtain ⟨a, ha, rfl⟩ := List.mem_map.mp hb
    exact rebase_unit (DQuat.isUnit_conj (hu _ (List.getElem_mem hk))) (hu _ (List.mem_rotate.mp ha)) true
  · rw [hB', List.head?_map, List.head?_rotate hk, List.getElem?_eq_getElem hk, Option.map_some,
      rebase_self (hu _ (List.getElem_mem hk))]
  · rw [hB']
    intro b hb
    obtain ⟨a, ha, rfl⟩ := List.mem_map.mp hb
    exact rebase_w_nonneg _ _
  · rw [hW']
    intro b hb
    obtain ⟨a, ha, rfl⟩ := List.mem_map.mp hb
    exact rebase_w_nonneg _ _

theorem cross_eq_zero {u v : Vec3} : Spec.cross u v = ⟨0, 0, 0⟩ ↔
    u.y * v.z - u.z * v.y = 0 ∧ u.z * v.x - u.x * v.z = 0 ∧ u.x * v.y - u.y * v.x = 0 := by
  simp only [Spec.cross, Vec3.ext_iff]

/-- Having two rotation axes does not depend on the pose from which one looks. -/
theorem twoAxes_any_base {bs : List DQuat} (hu : ∀ a ∈ bs, Spec.IsUnit a)
    (h : Spec.TurnsAboutTwoAxes bs) {k : DQuat} (hk : k ∈ bs) :
    Spec.TwoAxes (bs.map (rebase k.conj true)) := by
  obtain ⟨a, ha, b, hb, c, hc, hne⟩ := h
  by_contra hcon
  have hall : ∀ x ∈ bs, ∀ y ∈ bs, Spec.cross (k.conj * x).rot.vec (k.conj * y).rot.vec = ⟨0, 0, 0⟩ := by
    intro x hx y hy
    by_contra hxy
    apply hcon
    refine ⟨_, List.mem_map_of_mem hx, _, List.mem_map_of_mem hy, ?_⟩
    intro h0
    apply hxy
    rw [cross_eq_zero] at h0 ⊢
    rcases rebase_eq_or k.conj x true with h1 | h1 <;> rcases rebase_eq_or k.conj y true with h2 | h2 <;>
      rw [h1, h2] at h0 <;> simp only [DQuat.neg_rot, Quat.vec, Quat.neg_x, Quat.neg_y, Quat.neg_z] at h0 ⊢
    · exact h0
    · obtain ⟨p, q, r⟩ := h0
      exact ⟨by linarith, by linarith, by linarith⟩
    · obtain ⟨p, q, r⟩ := h0
      exact ⟨by linarith, by linarith, by linarith⟩
    · obtain ⟨p, q, r⟩ := h0
      exact ⟨by linarith, by linarith, by linarith⟩
  have hrel : ∀ x y : DQuat, x.conj * y = (k.conj * x).conj * (k.conj * y) := by
    intro x y
    rw [DQuat.conj_mul_rev, DQuat.conj_conj]
    calc x.conj * y = x.conj * (k * k.conj) * y := by rw [DQuat.mul_conj_unit (hu k hk), mul_one]
      _ = _ := by noncomm_ring
  apply hne
  rw [hrel a b, hrel a c]
  have h1 := cross_eq_zero.mp (hall a ha b hb)
  have h2 := cross_eq_zero.mp (hall a ha c hc)
  have h3 := cross_eq_zero.mp (hall b hb c hc)
  generalize k.conj * a = p at *
  generalize k.conj * b = q at *
  generalize k.conj * c = r at *
  rw [cross_eq_zero]
  simp only [DQuat.mul_rot, DQuat.conj_rot, Quat.vec, Quat.mul_x, Quat.mul_y, Quat.mul_z, Quat.conj_x,
    Quat.conj_y, Quat.conj_z, Quat.conj_w] at *
  generalize p.rot.x = p1 at *
  generalize p.rot.y = p2 at *
  generalize p.rot.z = p3 at *
  generalize p.rot.w = p4 at *
  generalize q.rot.x = q1 at *
  generalize q.rot.y = q2 at *
  generalize q.rot.z = q3 at *
  generalize q.rot.w = q4 at *
  generalize r.rot.x = r1 at *
  generalize r.rot.y = r2 at *
  generalize r.rot.z = r3 at *
  generalize r.rot.w = r4 at *
  obtain ⟨a1, a2, a3⟩ := h1
  obtain ⟨b1, b2, b3⟩ := h2
  obtain ⟨c1, c2, c3⟩ := h3
  refine ⟨?_, ?_, ?_⟩ <;> grind

theorem exact_neg {bs ws : List DQuat} {X : DQuat} (h : Spec.Exact bs ws X) : Spec.Exact bs ws (-X) := by
  refine h.imp ?_
  intro b w hbw
  rw [handEyeEq_iff] at hbw ⊢
  rw [mul_neg, neg_mul, hbw]

/-- All errors zero: RMSE zero, for all thresholds. -/
theorem evaluateAlignment_zero {A B : List Pose} (h : List.Forall₂ (fun a b => computePoseError a b = .ok (0, 0)) A B)
    (hA : A ≠ []) (ot pt : ℝ) : ∃ fl, evaluateAlignment ot pt A B = .ok (0, 0, fl) := by
  refine ⟨(List.replicate A.length ((0 : ℝ), (0 : ℝ))).map fun e => decide (e.2 < ot ∧ e.1 < pt),
    evaluateAlignment_eq_ok.mpr ⟨h.length_eq, hA, List.replicate A.length (0, 0), ?_, ?_⟩⟩
  · clear hA
    induction h with
    | nil => exact .nil
    | cons h1 _ ih => exact .cons h1 ih
  · simp

theorem compress_replicate {α : Type} (l : List α) : compress l (List.replicate l.length true) = l := by
  induction l with
  | nil => rfl
  | cons a l ih => simp [List.replicate_succ, compress, ih]

theorem scalarsClose_exact {b w X : DQuat} (hX : Spec.IsUnit X) (h : Spec.HandEyeEq b X w) {tol : ℝ}
    (ht : 0 ≤ tol) : ScalarsClose tol w b := by
  obtain ⟨h1, h2⟩ := sameScalars_of_exact hX h
  unfold ScalarsClose
  rw [← h1, ← h2]
  exact ⟨npIsclose_self _ ht, npIsclose_self _ ht⟩

theorem mapM_pyAt {α : Type} {l : List α} (d : α) {s : List ℕ} (h : ∀ i ∈ s, i < l.length) :
    s.mapM (pyAt l) = .ok (s.map fun n => l.getD n d) := by
  apply Py.mapM_ok
  intro n hn
  rw [pyAt_eq_ok]
  simp [List.getD_eq_getElem?_getD, List.getElem?_eq_getElem (h n hn)]

/-- Samples of noise-free data always pass the early test. -/
theorem mounted_sampleTest {g X : DQuat} (hg : Spec.IsUnit g) (hX : Spec.IsUnit X) {cfg : HandEyeConfig}
    {bf wf : List DQuat} (hu : ∀ a ∈ bf, Spec.IsUnit a) (hm : Spec.Mounted g X bf wf)
    (htol : 0 ≤ cfg.ransac_sample_rejection_scalar_part_equality_tolerance) {s : List ℕ}
    (hs : Spec.IsSample wf.length cfg.ransac_sample_size s) :
    ∃ x y, sampleTest cfg bf wf s = .ok (true, x, y) := by
  classical
  have hl : wf.length = bf.length := by rw [mounted_iff.mp hm, List.length_map]
  unfold sampleTest
  rw [mapM_pyAt 0 hs.2.2, Py.ok_bind, mapM_pyAt 0 (by rw [← hl]; exact hs.2.2), Py.ok_bind,
    pyAssert_pos (by rw [List.length_map]; exact hs.1), Py.ok_bind]
  split
  · next h1 =>
    have hu' : ∀ a ∈ s.map fun n => bf.getD n 0, Spec.IsUnit a := by
      intro a ha
      obtain ⟨n, hn, rfl⟩ := List.mem_map.mp ha
      have hn' : n < bf.length := by rw [← hl]; exact hs.2.2 n hn
      rw [List.getD_eq_getElem?_getD, List.getElem?_eq_getElem hn']
      exact hu _ (List.getElem_mem hn')
    have hm' : Spec.Mounted g X (s.map fun n => bf.getD n 0) (s.map fun n => wf.getD n 0) := by
      rw [mounted_iff, List.map_map]
      apply List.map_congr_left
      intro n hn
      have hn' : n < bf.length := by rw [← hl]; exact hs.2.2 n hn
      rw [mounted_iff.mp hm]
      simp [List.getD_eq_getElem?_getD, List.getElem?_eq_getElem hn']
    obtain ⟨B, W, e1, e2, -, -, e5, -⟩ := mounted_align hg hX hu' hm' (k := 0)
      (by rw [List.length_map, hs.1]; omega)
    refine ⟨B, W, ?_⟩
    have e1' : alignPathsAtIndex (s.map fun n => bf.getD n 0) = .ok B := e1
    have e2' : alignPathsAtIndex (s.map fun n => wf.getD n 0) = .ok W := e2
    rw [e1', Py.ok_bind, e2', Py.ok_bind, samplesMatch_eq htol, Py.ok_bind]
    have : ∀ p ∈ W.zip B, ScalarsClose cfg.ransac_sample_rejection_scalar_part_equality_tolerance p.1 p.2 := by
      intro p hp
      have hp' : (p.2, p.1) ∈ B.zip W := by
        rw [← List.zip_swap] at hp
        obtain ⟨q, hq, rfl⟩ := List.mem_map.mp hp
        exact hq
      exact scalarsClose_exact hX ((List.forall₂_iff_zip.mp e5).2 hp') htol
    rw [decide_eq_true this]
    rfl
  · exact ⟨_, _, rfl⟩

/-- The solver, run on the two trajectories aligned at the same pose, returns, whichever pose it is. -/
def SolverReturns (svd : Svd) (cfg : HandEyeConfig) (bs ws : List DQuat) : Prop :=
  ∀ k < bs.length, ∀ B W, alignPathsAtIndex bs (k : ℕ) = .ok B → alignPathsAtIndex ws (k : ℕ) = .ok W →
    ∃ r, computeHandEyeCalibration svd B W cfg.hand_eye_calibration_scalar_part_equality_tolerance = .ok r

theorem normalize_of_unit {a : DQuat} (h : Spec.IsUnit a) : a.normalize = .ok a :=
  DQuat.normalize_unit (DQuat.IsUnit.rot h)

/-- A sample of noise-free data, after the early test. -/
theorem mounted_rest {svd : Svd} (hsvd : ∀ T s V, svd T = .ok (s, V) → Spec.IsSVD T s V)
    {g X : DQuat} (hg : Spec.IsUnit g) (hX : Spec.IsUnit X) (hXw : X.rot.w ≠ 0) {cfg : HandEyeConfig}
    (hmode : cfg.ransac_inlier_classification = .scalarPartEquality)
    {bs ws : List DQuat} (hu : ∀ a ∈ bs, Spec.IsUnit a) (hm : Spec.Mounted g X bs ws)
    (h2 : Spec.TurnsAboutTwoAxes bs)
    (htol : 0 ≤ cfg.ransac_sample_rejection_scalar_part_equality_tolerance)
    {i0 : ℕ} (hi0 : i0 < bs.length) :
    ∃ B W, alignPathsAtIndex bs (i0 : ℕ) = .ok B ∧ alignPathsAtIndex ws (i0 : ℕ) = .ok W ∧
      ∀ sB sW, ∃ k, classify svd cfg sB sW B W = .ok (some k) ∧ ∀ s, ∃ oc, buildCandidate svd cfg s k W = .ok oc ∧
        (∀ c, oc = some c → Spec.SameUpToSign c.dq_H_E X ∧ 0 ≤ c.dq_H_E.rot.w ∧ c.rmse_position = 0 ∧
          c.rmse_orientation = 0 ∧ c.num_inliers = bs.length) ∧
        (SolverReturns svd cfg bs ws → cfg.min_num_inliers ≤ bs.length → ∃ c, oc = some c) := by
  classical
  obtain ⟨B, W, e1, e2, e3, e4, e5, e6, e7, e8, e9⟩ := mounted_align hg hX hu hm hi0
  have hWl : W.length = B.length := e5.length_eq.symm
  have hB2 : Spec.TwoAxes B := by
    obtain ⟨b₁, hb₁, b₂, hb₂, hne⟩ := twoAxes_any_base hu h2 (List.getElem_mem hi0)
    rw [e3, List.map_rotate]
    exact ⟨b₁, List.mem_rotate.mpr hb₁, b₂, List.mem_rotate.mpr hb₂, hne⟩
  refine ⟨B, W, e1, e2, fun sB sW => ⟨⟨none, B, List.replicate B.length true⟩, ?_, fun s => ?_⟩⟩
  · unfold classify
    rw [hmode]
    dsimp only
    unfold classifyByScalar
    have : (W.zip B).mapM (fun p =>
        scalarPartsMatch cfg.ransac_sample_rejection_scalar_part_equality_tolerance p.1 p.2) =
        .ok ((W.zip B).map fun _ => true) := by
      apply Py.mapM_ok
      intro p hp
      rw [scalarPartsMatch_eq htol]
      have hp' : (p.2, p.1) ∈ B.zip W := by
        rw [← List.zip_swap] at hp
        obtain ⟨q, hq, rfl⟩ := List.mem_map.mp hp
        exact hq
      rw [decide_eq_true (scalarsClose_exact hX ((List.forall₂_iff_zip.mp e5).2 hp') htol)]
    rw [this, Py.ok_bind, List.map_const', List.length_zip, hWl, min_self]
    rfl
  · have cB : compress B (List.replicate B.length true) = B := compress_replicate B
    have cW : compress W (List.replicate B.length true) = W := by rw [← hWl]; exact compress_replicate W
    unfold buildCandidate
    dsimp only
    rw [cB, cW, pyAssert_pos hWl.symm, Py.ok_bind]
    by_cases hmin : B.length < cfg.min_num_inliers
    · rw [if_pos hmin]
      refine ⟨none, rfl, ?_, fun _ h => ?_⟩
      · intro c hc; cases hc
      · omega
    rw [if_neg hmin]
    have href : refine svd cfg none B W =
        tryCalibration svd cfg.hand_eye_calibration_scalar_part_equality_tolerance B W := by
      unfold refine
      cases cfg.ransac_model_refinement <;> rfl
    rw [href]
    cases ht : tryCalibration svd cfg.hand_eye_calibration_scalar_part_equality_tolerance B W with
    | none =>
      refine ⟨none, rfl, ?_, fun h _ => ?_⟩
      · intro c hc; cases hc
      · exfalso
        obtain ⟨r, hr⟩ := h i0 hi0 B W e1 e2
        have hrec := (C27_exact_recovery svd hsvd B W X hX e5 hB2 (Or.inl hXw) _ _ r hr).1
        have hru : Spec.IsUnit r.dq_H_E := by
          rcases sameUpToSign_iff.mp hrec with h | h <;> rw [h]
          · exact hX
          · exact DQuat.isUnit_neg hX
        unfold tryCalibration at ht
        rw [hr] at ht
        simp only [Py.ok_bind, normalize_of_unit hru, Py.pure_eq] at ht
        cases ht
    | some cal =>
      dsimp only
      obtain ⟨c0, hc0, hn, -, -⟩ := tryCalibration_some ht
      obtain ⟨hrec, hw0⟩ := C27_exact_recovery svd hsvd B W X hX e5 hB2 (Or.inl hXw) _ _ c0 hc0
      have hXc : c0.dq_H_E = X ∨ c0.dq_H_E = -X := sameUpToSign_iff.mp hrec
      have hru : Spec.IsUnit c0.dq_H_E := by
        rcases hXc with h | h <;> rw [h]
        · exact hX
        · exact DQuat.isUnit_neg hX
      rw [normalize_of_unit hru] at hn
      have hcal : cal.dq_H_E = c0.dq_H_E := (Except.ok.inj hn).symm
      have hex : Spec.Exact B W c0.dq_H_E := by
        rcases hXc with h | h <;> rw [h]
        · exact e5
        · exact exact_neg e5
      obtain ⟨pB, pW, g1, g2, g3, -⟩ := C36_perfect_calibration B W c0.dq_H_E hru e6 hex e7
      have hne : pB ≠ [] := by
        rintro rfl
        rw [List.length_nil, e4] at g2
        omega
      obtain ⟨fl, hfl⟩ := evaluateAlignment_zero g3 hne cfg.ransac_orientation_error_threshold_deg
        cfg.ransac_position_error_threshold_m
      rw [hcal, g1, ite_self, Py.ok_bind]
      dsimp only
      rw [hfl, Py.ok_bind]
      refine ⟨_, rfl, ?_, fun _ _ => ⟨_, rfl⟩⟩
      intro c hc
      cases hc
      exact ⟨hrec, hw0, rfl, rfl, e4⟩

/-- C61: on noise-free data with two rotation axes, every calibration that RANSAC reports is the true one
(with the sign that makes the scalar part non-negative), with both errors zero and all poses inliers;
whatever the samples and whatever valid singular value decomposition is used. -/
theorem C61_noise_free (svd : Svd) (hsvd : ∀ T s V, svd T = .ok (s, V) → Spec.IsSVD T s V)
    (rng : ℕ → List ℕ) (cfg : HandEyeConfig)
    (hmode : cfg.ransac_inlier_classification = .scalarPartEquality)
    (htol : 0 ≤ cfg.ransac_sample_rejection_scalar_part_equality_tolerance)
    (g X : DQuat) (hg : Spec.IsUnit g) (hX : Spec.IsUnit X) (hXw : X.rot.w ≠ 0)
    (bs ws : List DQuat) (hu : ∀ a ∈ bs, Spec.IsUnit a) (hm : Spec.Mounted g X bs ws)
    (h2 : Spec.TurnsAboutTwoAxes bs) (fuel : ℕ) (r : CalibrationResult)
    (h : ransac svd rng cfg bs ws fuel = .ok (some r)) (hs : r.success = true) :
    ∃ dq, r.dq_H_E = some dq ∧ Spec.SameUpToSign dq X ∧ 0 ≤ dq.rot.w ∧ r.rmse = some (0, 0) ∧
      r.num_inliers = bs.length := by
  obtain ⟨bf, wf, samples, outs, c, h1, hco, hc, e1, e2, e3, -⟩ :=
    C37_best_candidate svd rng cfg bs ws fuel r h hs
  obtain ⟨n, hn⟩ := List.getElem?_of_mem hc
  have hlt : n < outs.length := (List.getElem?_eq_some_iff.mp hn).1
  have hz := List.forall₂_iff_get.mp hco.outcomes
  have hsn : n < samples.length := by rw [hz.1]; exact hlt
  have hev := hz.2 n hsn hlt
  simp only [List.get_eq_getElem] at hev
  rw [(List.getElem?_eq_some_iff.mp hn).2] at hev
  obtain ⟨sB, sW, i0, aB, aW, k, -, -, a1, a2, a3, a4⟩ := evaluateSample_candidate hev
  have hi0 : i0 < bs.length := by
    by_contra hcon
    rw [align_index_error] at a1
    · cases a1
    · unfold pyPos
      rw [if_pos (by omega), if_neg (by simpa using hcon)]
  obtain ⟨B, W, b1, b2, hall⟩ := mounted_rest hsvd hg hX hXw hmode hu hm h2 htol hi0
  rw [a1] at b1
  rw [a2] at b2
  cases b1
  cases b2
  obtain ⟨k', k1, k2⟩ := hall sB sW
  rw [a3] at k1
  cases k1
  obtain ⟨oc, o1, o2, -⟩ := k2 samples[n]
  rw [a4] at o1
  obtain ⟨p1, p2, p3, p4, p5⟩ := o2 c (Except.ok.inj o1).symm
  exact ⟨c.dq_H_E, e1, p1, p2, by rw [e2, p3, p4], by rw [e3, p5]⟩

/-- The poses that the prefilter leaves are still those of two rigidly connected sensors. -/
theorem mounted_filtered {g X : DQuat} (hg : Spec.IsUnit g) (hX : Spec.IsUnit X) {cfg : HandEyeConfig}
    {bs ws bf wf : List DQuat} (hu : ∀ a ∈ bs, Spec.IsUnit a) (hm : Spec.Mounted g X bs ws)
    (hf : filteredPoses cfg bs ws = .ok (bf, wf)) :
    (∀ a ∈ bf, Spec.IsUnit a) ∧ Spec.Mounted g X bf wf ∧ wf.length ≤ bs.length := by
  have hl : ws.length = bs.length := by rw [mounted_iff.mp hm, List.length_map]
  unfold filteredPoses at hf
  split at hf
  · obtain ⟨r, h1, hf⟩ := Py.bind_eq_ok.mp hf
    obtain ⟨_, h2, hf⟩ := Py.bind_eq_ok.mp hf
    cases hf
    have hwu : ∀ a ∈ ws, Spec.IsUnit a := by
      rw [mounted_iff.mp hm]
      intro a ha
      obtain ⟨b, hb, rfl⟩ := List.mem_map.mp ha
      exact DQuat.isUnit_mul (DQuat.isUnit_mul hg (hu b hb)) hX
    rcases C32_unit_trajectories bs ws cfg.prefilter_dot_product_threshold hl.symm hu hwu with
      ⟨bf', wf', e1, e2, -, e4, e5, e6⟩ | e
    · rw [h1] at e1
      obtain ⟨rfl, rfl⟩ := Prod.mk.inj (Except.ok.inj e1)
      refine ⟨fun a ha => hu a (e4.subset ha), ?_, by rw [← hl]; exact e5.length_le⟩
      unfold Spec.Mounted at hm ⊢
      rw [List.forall₂_iff_zip] at hm ⊢
      exact ⟨e2, fun h => hm.2 (e6.subset h)⟩
    · rw [h1] at e; cases e
  · cases hf
    exact ⟨hu, hm, hl.le⟩

theorem drawSample_ok {cfg : HandEyeConfig} {rng : ℕ → List ℕ} {n : ℕ} {st : LoopState}
    (hn : cfg.ransac_sample_size ≤ n) (hrng : ∀ k, Spec.IsSample n cfg.ransac_sample_size (rng k))
    (hc : loopCondition cfg n st = true) :
    ∃ s, drawSample cfg rng n st.sample_number = .ok s ∧ Spec.IsSample n cfg.ransac_sample_size s := by
  unfold drawSample
  by_cases he : cfg.enable_exhaustive_search = true
  · have hlt : st.sample_number < (combinations (List.range n) cfg.ransac_sample_size).length := by
      unfold loopCondition at hc
      rw [he] at hc
      simpa using hc
    rw [if_pos he, pyAt_ok hlt]
    refine ⟨_, rfl, ?_⟩
    obtain ⟨h1, h2⟩ := (combinations_mem _ _ _).mp (List.getElem_mem hlt)
    exact ⟨h2, List.nodup_range.sublist h1, fun i hi => List.mem_range.mp (h1.subset hi)⟩
  · rw [if_neg he, if_neg (by omega)]
    exact ⟨_, rfl, hrng _⟩

theorem earlyAbort_ok (cfg : HandEyeConfig) (k : ℕ) (ho : 0 < cfg.ransac_outlier_probability)
    (ho' : cfg.ransac_outlier_probability < 1) (hp' : cfg.ransac_success_probability_threshold < 1)
    (hs : 0 < cfg.ransac_sample_size) : ∃ b, earlyAbort cfg k = .ok b := by
  by_cases he : cfg.enable_exhaustive_search = false ∧ cfg.ransac_enable_early_abort = true
  · obtain ⟨b, hb, -⟩ := C41_confidence cfg k he.1 he.2 ho ho' hp' hs
    exact ⟨b, hb⟩
  · unfold earlyAbort
    rw [if_neg he]
    exact ⟨false, rfl⟩

/-- C61: if moreover the solver returns on the aligned data, whichever pose it is aligned at (see C28 for
when it does), enough poses are left by the prefilter and the configuration is sensible, RANSAC does
succeed, within `ransac_max_number_iterations` passes of its loop (for the exhaustive search: as many passes
as there are combinations), whatever is drawn. -/
theorem C61_succeeds (svd : Svd) (hsvd : ∀ T s V, svd T = .ok (s, V) → Spec.IsSVD T s V)
    (rng : ℕ → List ℕ) (cfg : HandEyeConfig)
    (hmode : cfg.ransac_inlier_classification = .scalarPartEquality)
    (htol : 0 ≤ cfg.ransac_sample_rejection_scalar_part_equality_tolerance)
    (hsize : 0 < cfg.ransac_sample_size) (hmax : 0 < cfg.ransac_max_number_iterations)
    (ho : 0 < cfg.ransac_outlier_probability) (ho' : cfg.ransac_outlier_probability < 1)
    (hp' : cfg.ransac_success_probability_threshold < 1)
    (g X : DQuat) (hg : Spec.IsUnit g) (hX : Spec.IsUnit X) (hXw : X.rot.w ≠ 0)
    (bs ws : List DQuat) (hu : ∀ a ∈ bs, Spec.IsUnit a) (hm : Spec.Mounted g X bs ws)
    (h2 : Spec.TurnsAboutTwoAxes bs) (hmin : cfg.min_num_inliers ≤ bs.length)
    (hlen : cfg.ransac_sample_size < bs.length)
    (hsolve : ∀ k < bs.length, ∀ B W, alignPathsAtIndex bs (k : ℕ) = .ok B →
      alignPathsAtIndex ws (k : ℕ) = .ok W → ∃ r, computeHandEyeCalibration svd B W
        cfg.hand_eye_calibration_scalar_part_equality_tolerance = .ok r)
    (bf wf : List DQuat) (hf : filteredPoses cfg bs ws = .ok (bf, wf))
    (hfl : cfg.ransac_sample_size ≤ wf.length)
    (hrng : ∀ k, Spec.IsSample wf.length cfg.ransac_sample_size (rng k)) :
    ∃ r, ransac svd rng cfg bs ws (if cfg.enable_exhaustive_search then
        wf.length.choose cfg.ransac_sample_size else cfg.ransac_max_number_iterations) = .ok (some r) ∧
      r.success = true := by
  have hl : ws.length = bs.length := by rw [mounted_iff.mp hm, List.length_map]
  obtain ⟨f1, f2, f3⟩ := mounted_filtered hg hX hu hm hf
  have hfb : wf.length = bf.length := by rw [mounted_iff.mp f2, List.length_map]
  -- every sample becomes a candidate
  have hcand : ∀ s, Spec.IsSample wf.length cfg.ransac_sample_size s →
      ∃ c, evaluateSample svd cfg bs ws bf wf s = .ok (.candidate c) := by
    intro s hs
    obtain ⟨x, y, ht⟩ := mounted_sampleTest hg hX f1 f2 htol hs
    have h0 : 0 < s.length := by rw [hs.1]; exact hsize
    have hi0 : s[0] < bs.length := lt_of_lt_of_le (hs.2.2 _ (List.getElem_mem h0)) f3
    obtain ⟨B, W, b1, b2, hall⟩ := mounted_rest hsvd hg hX hXw hmode hu hm h2 htol hi0
    obtain ⟨k, k1, k2⟩ := hall x y
    obtain ⟨oc, o1, -, o3⟩ := k2 s
    obtain ⟨c, rfl⟩ := o3 hsolve hmin
    refine ⟨c, ?_⟩
    unfold evaluateSample
    rw [ht, Py.ok_bind]
    dsimp only
    rw [if_pos rfl, pyAt_ok h0, Py.ok_bind, b1, Py.ok_bind, b2, Py.ok_bind, k1, Py.ok_bind]
    dsimp only
    rw [o1, Py.ok_bind]
    rfl
  -- the loop
  have hloop : ∀ (fuel : ℕ) (st : LoopState),
      (if cfg.enable_exhaustive_search then wf.length.choose cfg.ransac_sample_size ≤ fuel + st.sample_number
        else cfg.ransac_max_number_iterations ≤ fuel + st.full_iterations) →
      ∃ st', ransacLoop svd cfg rng bs ws bf wf fuel st = .ok (some st') ∧
        (st.best.isSome ∨ loopCondition cfg wf.length st = true → st'.best.isSome) ∧
        (∀ c, st'.best = some c → st.best = some c ∨ ∃ s, evaluateSample svd cfg bs ws bf wf s = .ok (.candidate c)) := by
    intro fuel
    induction fuel with
    | zero =>
      intro st hst
      have hx : loopCondition cfg wf.length st = false := by
        rw [loopCondition_eq]
        unfold Spec.Exhausted
        simpa using hst
      refine ⟨st, ?_, ?_, fun c hc => Or.inl hc⟩
      · rw [ransacLoop, hx]; rfl
      · rw [hx]; rintro (h | h)
        · exact h
        · cases h
    | succ fuel ih =>
      intro st hst
      by_cases hx : loopCondition cfg wf.length st = true
      · obtain ⟨s, hd, hs⟩ := drawSample_ok hfl hrng hx
        obtain ⟨c, hc⟩ := hcand s hs
        obtain ⟨b, hb⟩ := earlyAbort_ok cfg (st.full_iterations + 1) ho ho' hp' hsize
        have hstep : ransacStep svd cfg rng bs ws bf wf st = .ok (⟨st.sample_number + 1,
            st.full_iterations + 1, st.prerejected_samples, updateBest st.best c⟩, b) := by
          unfold ransacStep
          rw [hd, Py.ok_bind]
          dsimp only
          rw [hc, Py.ok_bind]
          dsimp only
          rw [hb, Py.ok_bind]
          rfl
        have hbest : ∀ c', updateBest st.best c = some c' → st.best = some c' ∨ c' = c := by
          intro c' h
          unfold updateBest at h
          split at h
          · right; exact (Option.some.inj h).symm
          · next bb hbb =>
            split at h
            · right; exact (Option.some.inj h).symm
            · left; rw [← h]; exact hbb
        have hsome : (updateBest st.best c).isSome := by
          unfold updateBest
          split
          · rfl
          · split <;> rfl
        rw [ransacLoop, if_pos hx]
        dsimp only
        rw [hstep, Py.ok_bind]
        dsimp only
        cases b with
        | true =>
          refine ⟨_, rfl, fun _ => hsome, ?_⟩
          intro c' hc'
          rcases hbest c' hc' with h | h
          · exact Or.inl h
          · right; rw [h]; exact ⟨s, hc⟩
        | false =>
          obtain ⟨st', i1, i2, i3⟩ := ih ⟨st.sample_number + 1,
            st.full_iterations + 1, st.prerejected_samples, updateBest st.best c⟩ (by
              dsimp only
              split <;> rename_i he
              · rw [if_pos he] at hst; omega
              · rw [if_neg he] at hst; omega)
          refine ⟨st', i1, fun _ => i2 (Or.inl hsome), ?_⟩
          intro c' hc'
          rcases i3 c' hc' with h | h
          · rcases hbest c' h with h | h
            · exact Or.inl h
            · right; rw [h]; exact ⟨s, hc⟩
          · exact Or.inr h
      · refine ⟨st, ?_, ?_, fun c hc => Or.inl hc⟩
        · rw [ransacLoop, if_neg hx]
        · rintro (h | h)
          · exact h
          · exact absurd h hx
  obtain ⟨st, s1, s2, s3⟩ := hloop (if cfg.enable_exhaustive_search then
        wf.length.choose cfg.ransac_sample_size else cfg.ransac_max_number_iterations) {} (by
    split <;> simp)
  have hstart : loopCondition cfg wf.length {} = true := by
    rw [← Bool.not_eq_false, loopCondition_eq]
    unfold Spec.Exhausted
    split
    · exact not_le.mpr (Nat.choose_pos hfl)
    · exact not_le.mpr hmax
  have hb := s2 (Or.inr hstart)
  obtain ⟨c, hc⟩ := Option.isSome_iff_exists.mp hb
  have hcu : c.dq_H_E.rot.dot c.dq_H_E.rot = 1 := by
    rcases s3 c hc with h | ⟨s, hs⟩
    · cases h
    · obtain ⟨_, _, _, _, _, k, -, -, -, -, a3, a4⟩ := evaluateSample_candidate hs
      obtain ⟨cal, _, _, _, r1, -, -, -, r5, -⟩ := buildCandidate_some a4
      rw [r5]
      exact refine_rot a3 r1
  refine ⟨⟨true, some c.dq_H_E, some (c.rmse_position, c.rmse_orientation), c.num_inliers, wf.length,
    some c.singular_values, c.bad_singular_values⟩, ?_, rfl⟩
  unfold ransac
  rw [pyAssert_pos hl, Py.ok_bind, pyAssert_pos (by omega), Py.ok_bind, hf, Py.ok_bind]
  dsimp only
  rw [s1, Py.ok_bind]
  dsimp only
  rw [hc]
  unfold ransacResult
  dsimp only
  rw [DQuat.toPose_unit hcu]
  rfl

/-- There is a singular value decomposition, valid for every matrix, with which the solver returns on all
noise-free data (see C28: others do not have this property). -/
theorem exists_good_svd : ∃ svd : Svd, (∀ T s V, svd T = .ok (s, V) → Spec.IsSVD T s V) ∧
    ∀ (B W : List DQuat) (X : DQuat), Spec.IsUnit X → X.rot.w ≠ 0 → Spec.Exact B W X → Spec.TwoAxes B →
      B.head? = some DQuat.identity → ∀ tol : ℝ, 0 ≤ tol →
        ∃ r, computeHandEyeCalibration svd B W tol = .ok r := by
  classical
  set P : List (Fin 8 → ℝ) → List ℝ × Matrix (Fin 8) (Fin 8) ℝ → Prop := fun T p =>
    Spec.IsSVD T p.1 p.2 ∧ ∑ i : Fin 4, p.2 6 (Fin.castAdd 4 i) * p.2 6 (Fin.natAdd 4 i) ≠ 0 with hP
  refine ⟨fun T => if h : ∃ p, P T p then .ok h.choose else .error .value, ?_, ?_⟩
  · intro T s V h
    dsimp only at h
    split at h
    · next hex =>
      have := hex.choose_spec.1
      rw [Except.ok.inj h] at this
      exact this
    · cases h
  · intro B W X hX hXw he h2 hb tol ht
    obtain ⟨T, hT, -, hout⟩ := C28_outcome_partial (fun T => if h : ∃ p, P T p then .ok h.choose
      else .error .value) B W X hX he h2 (Or.inl hXw) hb tol ht true
    have hex : ∃ p, P T p := by
      obtain ⟨-, svd, hv, -, r, hr⟩ := C28_orthogonal_halves_refuted B W X hX he h2 (Or.inl hXw) hb tol ht true
      obtain ⟨T', V, -, -, hs, -, hT', hsv, -, hk⟩ := compute_eq_ok hr
      rw [exact_signs hX he hs, hT] at hT'
      cases hT'
      refine ⟨(r.singular_values, V), hv _ _ _ hsv, ?_⟩
      rw [← splitRow_dot]
      exact (solveKernel_eq_ok.mp hk).1
    have hch := hex.choose_spec
    refine (hout hex.choose.1 hex.choose.2 ?_ hch.1).1 hch.2
    rw [dif_pos hex]

/-- Four poses of a body, and those of a camera that is mounted on it with the transform `sampleX`. -/
noncomputable def bodyPoses : List DQuat :=
  [⟨⟨0, 0, 0, 1⟩, ⟨0, 0, 0, 0⟩⟩, ⟨⟨0, 0, 0.6, 0.8⟩, ⟨0.8, 0, 0, 0⟩⟩, ⟨⟨0.6, 0, 0, 0.8⟩, ⟨0, 0.8, 0, 0⟩⟩,
    ⟨⟨0, 1, 0, 0⟩, ⟨3, 0, 0, 1⟩⟩]

theorem bodyPoses_unit : ∀ a ∈ bodyPoses, Spec.IsUnit a := by
  simp only [bodyPoses, List.forall_mem_cons]
  refine ⟨?_, ?_, ?_, ?_, by simp⟩ <;> rw [DQuat.isUnit_iff] <;> norm_num [Quat.dot]

theorem bodyPoses_turns : Spec.TurnsAboutTwoAxes bodyPoses := by
  refine ⟨_, List.mem_cons_self, _, List.mem_cons_of_mem _ List.mem_cons_self, _,
    List.mem_cons_of_mem _ (List.mem_cons_of_mem _ List.mem_cons_self), ?_⟩
  rw [Ne, cross_eq_zero]
  norm_num [Quat.vec]

/-- A run of RANSAC on these poses, with four poses required as inliers: it finds the transform. -/
theorem body_run (g : DQuat) (hg : Spec.IsUnit g) : ∃ svd : Svd,
    (∀ T s V, svd T = .ok (s, V) → Spec.IsSVD T s V) ∧ ∀ rng, (∀ k, Spec.IsSample 4 3 (rng k)) →
    ∃ r, ransac svd rng { min_num_inliers := 4, prefilter_poses_enabled := false } bodyPoses
        (bodyPoses.map fun b => g * b * sampleX) 20 = .ok (some r) ∧ r.success = true ∧
      r.dq_H_E = some sampleX ∧ r.rmse = some (0, 0) ∧ r.num_inliers = 4 := by
  obtain ⟨hX, -, -, hXw⟩ := sample_data
  obtain ⟨svd, hv, hgood⟩ := exists_good_svd
  have hm : Spec.Mounted g sampleX bodyPoses (bodyPoses.map fun b => g * b * sampleX) := mounted_iff.mpr rfl
  refine ⟨svd, hv, fun rng hrng => ?_⟩
  obtain ⟨r, h1, h2⟩ := C61_succeeds svd hv rng { min_num_inliers := 4, prefilter_poses_enabled := false }
    rfl (by norm_num) (by norm_num) (by norm_num) (by norm_num) (by norm_num) (by norm_num) g sampleX hg hX
    hXw bodyPoses _ bodyPoses_unit hm bodyPoses_turns (by simp [bodyPoses]) (by simp [bodyPoses])
    (by
      intro k hk B W hB hW
      obtain ⟨B', W', e1, e2, e3, -, e5, -, e7, -⟩ := mounted_align hg hX bodyPoses_unit hm hk
      rw [hB] at e1
      rw [hW] at e2
      cases e1
      cases e2
      refine hgood B W sampleX hX hXw e5 ?_ e7 _ (by norm_num)
      obtain ⟨b₁, hb₁, b₂, hb₂, hne⟩ := twoAxes_any_base bodyPoses_unit bodyPoses_turns (List.getElem_mem hk)
      rw [e3, List.map_rotate]
      exact ⟨b₁, List.mem_rotate.mpr hb₁, b₂, List.mem_rotate.mpr hb₂, hne⟩)
    _ _ rfl (by simp [bodyPoses]) (by simpa [bodyPoses] using hrng)
  obtain ⟨dq, d1, d2, d3, d4, d5⟩ := C61_noise_free svd hv rng _ rfl (by norm_num) g sampleX hg hX hXw
    bodyPoses _ bodyPoses_unit hm bodyPoses_turns _ r h1 h2
  refine ⟨r, h1, h2, ?_, d4, by rw [d5]; rfl⟩
  rw [d1]
  rcases sameUpToSign_iff.mp d2 with h | h
  · rw [h]
  · exfalso
    rw [h] at d3
    norm_num [sampleX] at d3

example : Spec.IsSample 4 3 [2, 0, 3] := by
  refine ⟨rfl, by decide, by decide⟩

end HandEye
