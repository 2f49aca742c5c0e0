import Verif.Lemmas.RoundedComplete
import Verif.Spec.RoundedComplete
import Verif.Props.RoundedBaseline2

/-! # Property C119: in floating-point arithmetic the tests of the scalar parts reject no recording that fits -/

namespace HandEye

section
variable {A : Arith} {u : ℝ} (hA : Spec.Machine u A) (hu : u ≤ 4e-10) (δ θ D : ℝ) (hδ0 : 0 ≤ δ) (hδ : δ ≤ 1 / 100) (hθ : 0 ≤ θ) (hD0 : 0 ≤ D)
  (hD : 60 * u * (D + θ) ≤ 1e-8) (g X : DQuat) (hg : Spec.IsUnit g) (hX : Spec.IsUnit X) (bs ws : List DQuat)
  (h : Spec.FittingRecording u δ θ D g X bs ws)
include hA hu hδ0 hδ hθ hD0 hD hg hX h

theorem recording_match {tol : ℝ} (hε : Spec.neededTolerance u δ θ D ≤ tol) {i : ℤ} {k : ℕ} (hk : Spec.Names bs.length i k) :
    ∃ bs' ws', A.alignPaths bs i true = .ok bs' ∧ A.alignPaths ws i true = .ok ws' ∧ bs'.length = bs.length ∧ ws'.length = bs.length ∧
      ∀ s ∈ ws'.zip bs', A.scalarMatch tol s.1 s.2 = .ok true ∧ A.scalarMatch tol s.2 s.1 = .ok true := by
  obtain ⟨L₀, h1, h2, h3⟩ := h.true_poses
  have hl : (bs.zip ws).length = bs.length := by rw [List.length_zip, h.same, min_self]
  obtain ⟨bs', ws', a1, a2, a3, a4, a5⟩ := aligned_match hA hu hδ0 hδ hθ hD0 hD hε hg hX h1 h2 h3 (i := i) (k := k) (by rw [hl]; exact hk)
  rw [List.map_fst_zip h.same.ge] at a1
  rw [List.map_snd_zip h.same.le] at a2
  rw [hl] at a3 a4
  exact ⟨bs', ws', a1, a2, a3, a4, a5⟩

/-- **C119**, the solver: after an alignment at any pose the solver raises nothing before the singular value decomposition, and it flips no sign. -/
theorem C119_solver (tol : ℝ) (hε : Spec.neededTolerance u δ θ D ≤ tol) (hε2 : Spec.neededTolerance u δ θ D ≤ 5e-2) (i : ℤ) (k : ℕ)
    (hk : Spec.Names bs.length i k) :
    ∃ bs' ws' T, A.alignPaths bs i true = .ok bs' ∧ A.alignPaths ws i true = .ok ws' ∧ A.setupT bs' ws' = .ok T ∧
      ∀ svd : Svd, A.calibrate svd bs' ws' tol true = (do
        let (s, V) ← svd T
        let dq ← A.kernel (splitRow (V 6)) (splitRow (V 7))
        return ⟨dq, s, badSingularValues s, ws'⟩) := by
  obtain ⟨bs', ws', a1, a2, a3, a4, a5⟩ := recording_match hA hu δ θ D hδ0 hδ hθ hD0 hD g X hg hX bs ws h hε hk
  obtain ⟨bs'', ws'', b1, b2, b3, b4, b5⟩ := recording_match hA hu δ θ D hδ0 hδ hθ hD0 hD g X hg hX bs ws h hε2 hk
  obtain rfl : bs' = bs'' := Except.ok.inj (a1.symm.trans b1)
  obtain rfl : ws' = ws'' := Except.ok.inj (a2.symm.trans b2)
  obtain ⟨T, hT, hc⟩ := calibrate_aligned a1 a2 (a4.trans a3.symm) (fun s hs => (a5 s hs).1) (fun s hs => (b5 s hs).2)
  exact ⟨bs', ws', T, a1, a2, hT, hc⟩

/-- **C119**, the baseline algorithm: its first set of inliers consists of all pairs, aligned at the first one. -/
theorem C119_baseline (hε : Spec.neededTolerance u δ θ D ≤ 1e-2) (m : ℕ) (hm : m < bs.length) :
    ∃ bs' ws', A.alignPaths bs 0 true = .ok bs' ∧ A.alignPaths ws 0 true = .ok ws' ∧ bs'.length = bs.length ∧ ws'.length = bs.length ∧
      A.firstInliers m bs ws (List.range ws.length) = .ok (0, bs', ws') := by
  obtain ⟨bs', ws', a1, a2, a3, a4, a5⟩ := recording_match hA hu δ θ D hδ0 hδ hθ hD0 hD g X hg hX bs ws h hε (i := 0) (k := 0) ⟨by omega, .inl rfl⟩
  refine ⟨bs', ws', a1, a2, a3, a4, ?_⟩
  have hf := flags_true fun s hs => (a5 s hs).1
  have hz : (ws'.zip bs').length = bs.length := by rw [List.length_zip, a3, a4, min_self]
  have hin : A.inliersAt bs ws 0 = .ok (bs', ws') := by
    unfold Arith.inliersAt
    rw [Nat.cast_zero, a2, Py.ok_bind, a1, Py.ok_bind, hf, Py.ok_bind, hz]
    have c1 := compress_replicate bs'
    have c2 := compress_replicate ws'
    rw [a3] at c1
    rw [a4] at c2
    rw [c1, c2]
    rfl
  obtain ⟨n, hn⟩ : ∃ n, ws.length = n + 1 := ⟨ws.length - 1, by have := h.same; omega⟩
  rw [hn, List.range_succ_eq_map, Arith.firstInliers, hin, Py.ok_bind, pyAssert_pos (a4.trans a3.symm), Py.ok_bind, if_pos (by dsimp only; omega)]
  rfl

/-- **C119**, the samples of RANSAC: none is rejected before the classification. -/
theorem C119_sample (cfg : HandEyeConfig) (hε : Spec.neededTolerance u δ θ D ≤ cfg.ransac_sample_rejection_scalar_part_equality_tolerance)
    (sample : List ℕ) (hs : ∀ i ∈ sample, i < bs.length) (hl : sample.length = cfg.ransac_sample_size) :
    ∃ b w, A.sampleTest cfg bs ws sample = .ok (true, b, w) ∧ b.length = sample.length ∧ w.length = sample.length := by
  obtain ⟨L₀, h1, h2, h3⟩ := h.true_poses
  have hlen : (bs.zip ws).length = bs.length := by rw [List.length_zip, h.same, min_self]
  set L := sample.map fun i => ((bs.zip ws)[i]?).getD (DQuat.identity, DQuat.identity) with hL
  have hget : ∀ i ∈ sample, ∃ b w, bs[i]? = some b ∧ ws[i]? = some w ∧ (bs.zip ws)[i]? = some (b, w) := by
    intro i hi
    have hi' := hs i hi
    refine ⟨bs[i], ws[i]'(by rw [h.same]; exact hi'), List.getElem?_eq_getElem _, List.getElem?_eq_getElem _, ?_⟩
    rw [List.getElem?_zip_eq_some]
    exact ⟨List.getElem?_eq_getElem _, List.getElem?_eq_getElem _⟩
  have hw : sample.mapM (pyAt ws) = .ok (L.map Prod.snd) := by
    rw [hL, List.map_map]
    refine Py.mapM_ok fun i hi => ?_
    obtain ⟨b, w, e1, e2, e3⟩ := hget i hi
    simp only [Function.comp, e3, Option.getD_some]
    exact pyAt_eq_ok.mpr e2
  have hb : sample.mapM (pyAt bs) = .ok (L.map Prod.fst) := by
    rw [hL, List.map_map]
    refine Py.mapM_ok fun i hi => ?_
    obtain ⟨b, w, e1, e2, e3⟩ := hget i hi
    simp only [Function.comp, e3, Option.getD_some]
    exact pyAt_eq_ok.mpr e1
  have hmem : ∀ q ∈ L, ∃ q₀ ∈ L₀, Spec.RecordedPair δ θ D q q₀ := by
    intro q hq
    obtain ⟨i, hi, rfl⟩ := List.mem_map.mp hq
    obtain ⟨b, w, e1, e2, e3⟩ := hget i hi
    rw [e3]
    exact h1 _ (List.mem_of_getElem? e3)
  have hLl : L.length = sample.length := List.length_map _
  unfold Arith.sampleTest
  rw [hw, Py.ok_bind, hb, Py.ok_bind, pyAssert_pos (by rw [List.length_map, hLl, hl]), Py.ok_bind]
  by_cases h1s : 1 < cfg.ransac_sample_size
  · rw [if_pos h1s]
    obtain ⟨bs', ws', a1, a2, a3, a4, a5⟩ := aligned_match hA hu hδ0 hδ hθ hD0 hD hε hg hX hmem h2 h3 (i := 0) (k := 0) ⟨by omega, .inl rfl⟩
    rw [a1, Py.ok_bind, a2, Py.ok_bind, allMatch_true fun s hs => (a5 s hs).1]
    exact ⟨bs', ws', rfl, a3.trans hLl, a4.trans hLl⟩
  · rw [if_neg h1s]
    exact ⟨_, _, rfl, by rw [List.length_map, hLl], by rw [List.length_map, hLl]⟩

/-- **C119**, RANSAC with a classification by scalar parts: every pair of poses is an inlier for every sample, so that a sample is only rejected if the solver
fails on all pairs. -/
theorem C119_ransac (bf wf : List DQuat) (hf : Spec.FittingRecording u δ θ D g X bf wf) (hfl : bf.length ≤ bs.length) (cfg : HandEyeConfig)
    (hc : cfg.ransac_inlier_classification = .scalarPartEquality)
    (hε : Spec.neededTolerance u δ θ D ≤ cfg.ransac_sample_rejection_scalar_part_equality_tolerance) (svd : Svd)
    (i : ℕ) (sample : List ℕ) (hs : ∀ j ∈ i :: sample, j < bf.length) (hl : (i :: sample).length = cfg.ransac_sample_size) :
    ∃ bs' ws', A.alignPaths bs i true = .ok bs' ∧ A.alignPaths ws i true = .ok ws' ∧
      A.evaluateSample svd cfg bs ws bf wf (i :: sample) = (do
        match ← A.buildCandidate svd cfg (i :: sample) ⟨none, bs', List.replicate bs.length true⟩ ws' with
        | none => return .rejected
        | some c => return .candidate c) := by
  obtain ⟨b, w, t1, _, _⟩ := C119_sample hA hu δ θ D hδ0 hδ hθ hD0 hD g X hg hX bf wf hf cfg hε (i :: sample) hs hl
  have hi := hs i List.mem_cons_self
  obtain ⟨bs', ws', a1, a2, a3, a4, a5⟩ := recording_match hA hu δ θ D hδ0 hδ hθ hD0 hD g X hg hX bs ws h hε (i := i) (k := i) ⟨by omega, .inl rfl⟩
  refine ⟨bs', ws', a1, a2, ?_⟩
  have hz : (ws'.zip bs').length = bs.length := by rw [List.length_zip, a3, a4, min_self]
  have hcl : A.classify svd cfg b w bs' ws' = .ok (some ⟨none, bs', List.replicate bs.length true⟩) := by
    unfold Arith.classify
    rw [hc]
    dsimp only
    unfold Arith.classifyByScalar
    rw [flags_true fun s hs => (a5 s hs).1, hz]
    rfl
  unfold Arith.evaluateSample
  rw [t1, Py.ok_bind]
  dsimp only
  rw [if_pos rfl, show pyAt (i :: sample) 0 = .ok i from rfl, Py.ok_bind, a1, Py.ok_bind, a2, Py.ok_bind, hcl, Py.ok_bind]
  rfl

end

/-- A recording in `float64` that fits. -/
theorem two_fitting : Spec.FittingRecording (2⁻¹ ^ 53) 0 0 0 DQuat.identity DQuat.identity twoTurns twoTurns :=
  ⟨rfl, _, two_recorded, two_fits, two_turns⟩

theorem two_tolerance : Spec.neededTolerance (2⁻¹ ^ 53) 0 0 0 ≤ 1e-2 := by
  norm_num [Spec.neededTolerance, Spec.relativeError]

/-- The three poses are all inliers. -/
example (acos : ℝ → ℝ) : ∃ bs' ws', (doubleArith acos).firstInliers 2 twoTurns twoTurns (List.range 3) = .ok (0, bs', ws') ∧ bs'.length = 3 := by
  obtain ⟨b, w, _, _, h1, _, h2⟩ := C119_baseline (machine_double acos) (by norm_num) 0 0 0 le_rfl (by norm_num) le_rfl le_rfl (by norm_num) _ _ turn_unit
    turn_unit _ _ two_fitting two_tolerance 2 (by decide)
  exact ⟨b, w, h2, h1⟩

/-- Samples of two of them pass. -/
example (acos : ℝ → ℝ) (cfg : HandEyeConfig) (h1 : cfg.ransac_sample_size = 2) (h2 : cfg.ransac_sample_rejection_scalar_part_equality_tolerance = 1e-2) :
    ∃ b w, (doubleArith acos).sampleTest cfg twoTurns twoTurns [2, 0] = .ok (true, b, w) := by
  obtain ⟨b, w, h, _⟩ := C119_sample (machine_double acos) (by norm_num) 0 0 0 le_rfl (by norm_num) le_rfl le_rfl (by norm_num) _ _ turn_unit
    turn_unit _ _ two_fitting cfg (by rw [h2]; exact two_tolerance) [2, 0] (by simp [twoTurns]) h1.symm
  exact ⟨b, w, h⟩

/-- The solver reaches the singular value decomposition. -/
example (acos : ℝ → ℝ) : ∃ bs' ws' T, (doubleArith acos).alignPaths twoTurns (-1) true = .ok bs' ∧ (doubleArith acos).setupT bs' ws' = .ok T := by
  obtain ⟨b, w, T, h1, _, h2, _⟩ := C119_solver (machine_double acos) (by norm_num) 0 0 0 le_rfl (by norm_num) le_rfl le_rfl (by norm_num) _ _ turn_unit
    turn_unit _ _ two_fitting 1e-2 two_tolerance (two_tolerance.trans (by norm_num)) (-1) 2 ⟨by decide, .inr rfl⟩
  exact ⟨b, w, T, h1, h2⟩

/-- A sample of RANSAC is not rejected before the solver. -/
example (acos : ℝ → ℝ) (svd : Svd) :
    (doubleArith acos).evaluateSample svd { twoConfig with ransac_sample_size := 2, ransac_inlier_classification := .scalarPartEquality, ransac_sample_rejection_scalar_part_equality_tolerance := 1e-2 }
      twoTurns twoTurns twoTurns twoTurns [1, 2] ≠ .ok .prerejected := by
  obtain ⟨b, w, _, _, h⟩ := C119_ransac (machine_double acos) (by norm_num) 0 0 0 le_rfl (by norm_num) le_rfl le_rfl (by norm_num) _ _ turn_unit
    turn_unit _ _ two_fitting _ _ two_fitting le_rfl
    { twoConfig with ransac_sample_size := 2, ransac_inlier_classification := .scalarPartEquality, ransac_sample_rejection_scalar_part_equality_tolerance := 1e-2 }
    rfl two_tolerance svd 1 [2] (by simp [twoTurns]) rfl
  rw [h]
  intro hc
  obtain ⟨r, _, hr⟩ := Py.bind_eq_ok.mp hc
  cases r <;> cases hr

end HandEye
