import Verif.Lemmas.RoundedOutliers2
import Verif.Props.RoundedRansac
import Verif.Props.RoundedComplete

/-! # Property C120: outliers in floating-point arithmetic -/

open Quaternion

namespace HandEye

/-- **C120**, the rotation of RANSAC: as C117, but some of the recorded pairs are outliers, which are anything that is visible in the scalar parts.  The errors of
the recorded poses, of the arithmetic and of the singular value decomposition are as in C117.
Partial: no two poses may be within `η` of a half turn of each other, and `ε` is at most 1/10; without refinement inliers have to be classified by scalar parts. -/
theorem C120_rotation_partial {A : Arith} {u : ℝ} (hA : Spec.Machine u A) (κ ω : ℝ) (hκ : 0 ≤ κ) (hω : 0 ≤ ω) (hω1 : ω ≤ 1 / 1000) (svd : Svd)
    (hsvd : ∀ T s V, svd T = .ok (s, V) → Spec.NearSVD κ ω T s V) (δ θ D : ℝ) (hδ0 : 0 ≤ δ) (hδ : δ ≤ 1 / 100) (hθ : 0 ≤ θ) (hD : 0 ≤ D)
    (hε : Spec.relativeError u δ θ D ≤ 1 / 10) (g X : DQuat) (hg : Spec.IsUnit g) (hX : Spec.IsUnit X) (bs ws : List DQuat) (L₀ : List (DQuat × DQuat)) (η : ℝ)
    (hη : η = Spec.normalisedError u (Spec.relativeError u δ θ D) D) (cfg : HandEyeConfig)
    (hout : Spec.VisibleOutliers u δ θ D η cfg.ransac_sample_rejection_scalar_part_equality_tolerance cfg.min_num_inliers g X bs ws L₀)
    (hmode : cfg.ransac_inlier_classification = .rmseThreshold → cfg.ransac_model_refinement = true) (rng : ℕ → List ℕ) (abort : ℕ → Py Bool)
    (filter : List DQuat → List DQuat → Py (List DQuat × List DQuat)) (hfi : Spec.KeepsPairs filter) (fuel : ℕ) (c : FloatCandidate)
    (h : A.ransac svd rng abort cfg filter bs ws fuel = .ok (some (some c))) (σ : ℝ) (hσ : 0 < σ) (hs : c.calibration.singular_values[5]? = some σ) :
    |Spec.len c.calibration.dq_H_E.rot - 1| ≤ 9 * u ∧
    1 - Spec.cosHalf c.calibration.dq_H_E.rot X.rot ^ 2 ≤
      (1.1 * (4 * (η + (u + 1.001 * κ) * (1 + 2 * D + η)) * Real.sqrt bs.length / σ) + 25 * u + 2.2 * ω) ^ 2 *
        (1 + Spec.translationLength c.calibration.dq_H_E ^ 2 / 4) := by
  have hu := hA.nonneg
  have hη0 : 0 ≤ η := by
    rw [hη]
    have h0 := relativeError_nonneg (D := D) hu hδ0 hθ hD
    exact h0.trans (le_normalisedError hu h0 hD)
  obtain ⟨hr, α, β, er, ed, d1, _, d3⟩ := ransac_decomposition_of hA hκ hω hω1 hsvd hη0 hD hX hfi
    (fun bf wf is c _ hlen _ hc => evaluateSample_outliers hA hδ0 hδ hθ hD hε hη hg hX hlen hout hmode hc) h hσ hs
  have hpos : 0 < ‖c.calibration.dq_H_E.rot.toH‖ := by linarith [(abs_le.mp hr).1, hA.small]
  refine ⟨by rw [len_eq]; exact hr, ?_⟩
  refine (angle_estimate hX hpos d1 (le_trans ?_ d3)).trans (le_of_eq ?_)
  · linarith [sq_nonneg ‖ed‖]
  · rw [mul_pow, Real.sq_sqrt (by positivity)]

/-- **C120**, the whole motion of RANSAC: as in C117.  Partial for the same reasons. -/
theorem C120_motion_partial {A : Arith} {u : ℝ} (hA : Spec.Machine u A) (κ ω : ℝ) (hκ : 0 ≤ κ) (hω : 0 ≤ ω) (hω1 : ω ≤ 1 / 1000) (svd : Svd)
    (hsvd : ∀ T s V, svd T = .ok (s, V) → Spec.NearSVD κ ω T s V) (δ θ D : ℝ) (hδ0 : 0 ≤ δ) (hδ : δ ≤ 1 / 100) (hθ : 0 ≤ θ) (hD : 0 ≤ D)
    (hε : Spec.relativeError u δ θ D ≤ 1 / 10) (g X : DQuat) (hg : Spec.IsUnit g) (hX : Spec.IsUnit X) (bs ws : List DQuat) (L₀ : List (DQuat × DQuat)) (η : ℝ)
    (hη : η = Spec.normalisedError u (Spec.relativeError u δ θ D) D) (cfg : HandEyeConfig)
    (hout : Spec.VisibleOutliers u δ θ D η cfg.ransac_sample_rejection_scalar_part_equality_tolerance cfg.min_num_inliers g X bs ws L₀)
    (hmode : cfg.ransac_inlier_classification = .rmseThreshold → cfg.ransac_model_refinement = true) (rng : ℕ → List ℕ) (abort : ℕ → Py Bool)
    (filter : List DQuat → List DQuat → Py (List DQuat × List DQuat)) (hfi : Spec.KeepsPairs filter) (fuel : ℕ) (c : FloatCandidate)
    (h : A.ransac svd rng abort cfg filter bs ws fuel = .ok (some (some c))) (σ : ℝ) (hσ : 0 < σ) (hs : c.calibration.singular_values[5]? = some σ) (ρ : ℝ)
    (hρ : ρ = (1.1 * (4 * (η + (u + 1.001 * κ) * (1 + 2 * D + η)) * Real.sqrt bs.length / σ) + 25 * u + 2.2 * ω) *
      Real.sqrt (1 + Spec.translationLength c.calibration.dq_H_E ^ 2 / 4)) (hρ2 : ρ ≤ 1 / 2) (p : Vec3) :
    Spec.dist (Spec.motion c.calibration.dq_H_E p) (Spec.motion X p) ≤
      ρ * (2 * Spec.dist p ⟨0, 0, 0⟩ + 4 + 4 * Spec.translationLength X + 3 * Spec.translationLength c.calibration.dq_H_E) := by
  have hu := hA.nonneg
  have hη0 : 0 ≤ η := by
    rw [hη]
    have h0 := relativeError_nonneg (D := D) hu hδ0 hθ hD
    exact h0.trans (le_normalisedError hu h0 hD)
  obtain ⟨hr, α, β, er, ed, d1, d2, d3⟩ := ransac_decomposition_of hA hκ hω hω1 hsvd hη0 hD hX hfi
    (fun bf wf is c _ hlen _ hc => evaluateSample_outliers hA hδ0 hδ hθ hD hε hη hg hX hlen hout hmode hc) h hσ hs
  have hN : 0.991 ≤ ‖c.calibration.dq_H_E.rot.toH‖ := by linarith [(abs_le.mp hr).1, hA.small]
  rw [← hρ] at d3
  have hρ0 : 0 ≤ ρ := by rw [hρ]; positivity
  refine (motion_estimate hX (by linarith) d1 d2 d3 hρ0 hρ2 p).trans ?_
  have ht : 0 ≤ Spec.translationLength c.calibration.dq_H_E := by rw [translationLength_eq]; positivity
  have : 2 * (Spec.translationLength c.calibration.dq_H_E / ‖c.calibration.dq_H_E.rot.toH‖) ≤ 3 * Spec.translationLength c.calibration.dq_H_E := by
    rw [← mul_div_assoc, div_le_iff₀ (by linarith)]
    nlinarith
  gcongr

/-- **C120**, the rotation of the baseline algorithm: as C116, but with outliers.  Partial: no two poses may be within `η` of a half turn of each other. -/
theorem C120_baseline_partial {A : Arith} {u : ℝ} (hA : Spec.Machine u A) (κ ω : ℝ) (hκ : 0 ≤ κ) (hω : 0 ≤ ω) (hω1 : ω ≤ 1 / 1000) (svd : Svd)
    (hsvd : ∀ T s V, svd T = .ok (s, V) → Spec.NearSVD κ ω T s V) (δ θ D : ℝ) (hδ0 : 0 ≤ δ) (hδ : δ ≤ 1 / 100) (hθ : 0 ≤ θ) (hD : 0 ≤ D)
    (g X : DQuat) (hg : Spec.IsUnit g) (hX : Spec.IsUnit X) (bs ws : List DQuat) (L₀ : List (DQuat × DQuat)) (η : ℝ)
    (hη : η = Spec.relativeError u δ θ D) (cfg : HandEyeConfig) (hout : Spec.VisibleOutliers u δ θ D η 1e-2 (cfg.min_num_inliers + 1) g X bs ws L₀)
    (filter : List DQuat → List DQuat → Py (List DQuat × List DQuat)) (hfi : Spec.KeepsPairs filter) (c : Calibration)
    (h : A.baselineCalibration svd cfg filter bs ws = .ok (some c)) (σ : ℝ) (hσ : 0 < σ) (hs : c.singular_values[5]? = some σ) :
    |Spec.len c.dq_H_E.rot - 1| ≤ 9 * u ∧
    1 - Spec.cosHalf c.dq_H_E.rot X.rot ^ 2 ≤
      (1.06 * (4 * (η + (u + 1.001 * κ) * (1 + 2 * D + η)) * Real.sqrt bs.length / σ) + 15 * u + 2.1 * ω) ^ 2 *
        (1 + Spec.translationLength c.dq_H_E ^ 2 / 4) := by
  have hη0 : 0 ≤ η := by rw [hη]; exact relativeError_nonneg hA.nonneg hδ0 hθ hD
  obtain ⟨hr, α, β, er, ed, d1, _, d3⟩ := (baseline_outliers hA hδ0 hδ hθ hD hη hg hX hout hfi h).decomposition hA hκ hω hω1 hsvd hη0 hD hX hσ hs
  have hpos : 0 < ‖c.dq_H_E.rot.toH‖ := by linarith [(abs_le.mp hr).1, hA.small]
  refine ⟨by rw [len_eq]; exact hr, ?_⟩
  refine (angle_estimate hX hpos d1 (le_trans ?_ d3)).trans (le_of_eq ?_)
  · linarith [sq_nonneg ‖ed‖]
  · rw [mul_pow, Real.sq_sqrt (by positivity)]

/-- **C120**, the whole motion of the baseline algorithm: as C116, but with outliers.  Partial for the same reason. -/
theorem C120_baseline_motion_partial {A : Arith} {u : ℝ} (hA : Spec.Machine u A) (κ ω : ℝ) (hκ : 0 ≤ κ) (hω : 0 ≤ ω) (hω1 : ω ≤ 1 / 1000) (svd : Svd)
    (hsvd : ∀ T s V, svd T = .ok (s, V) → Spec.NearSVD κ ω T s V) (δ θ D : ℝ) (hδ0 : 0 ≤ δ) (hδ : δ ≤ 1 / 100) (hθ : 0 ≤ θ) (hD : 0 ≤ D)
    (g X : DQuat) (hg : Spec.IsUnit g) (hX : Spec.IsUnit X) (bs ws : List DQuat) (L₀ : List (DQuat × DQuat)) (η : ℝ)
    (hη : η = Spec.relativeError u δ θ D) (cfg : HandEyeConfig) (hout : Spec.VisibleOutliers u δ θ D η 1e-2 (cfg.min_num_inliers + 1) g X bs ws L₀)
    (filter : List DQuat → List DQuat → Py (List DQuat × List DQuat)) (hfi : Spec.KeepsPairs filter) (c : Calibration)
    (h : A.baselineCalibration svd cfg filter bs ws = .ok (some c)) (σ : ℝ) (hσ : 0 < σ) (hs : c.singular_values[5]? = some σ) (ρ : ℝ)
    (hρ : ρ = (1.06 * (4 * (η + (u + 1.001 * κ) * (1 + 2 * D + η)) * Real.sqrt bs.length / σ) + 15 * u + 2.1 * ω) *
      Real.sqrt (1 + Spec.translationLength c.dq_H_E ^ 2 / 4)) (hρ2 : ρ ≤ 1 / 2) (p : Vec3) :
    Spec.dist (Spec.motion c.dq_H_E p) (Spec.motion X p) ≤
      ρ * (2 * Spec.dist p ⟨0, 0, 0⟩ + 4 + 4 * Spec.translationLength X + 3 * Spec.translationLength c.dq_H_E) := by
  have hu := hA.nonneg
  have hη0 : 0 ≤ η := by rw [hη]; exact relativeError_nonneg hA.nonneg hδ0 hθ hD
  obtain ⟨hr, α, β, er, ed, d1, d2, d3⟩ := (baseline_outliers hA hδ0 hδ hθ hD hη hg hX hout hfi h).decomposition hA hκ hω hω1 hsvd hη0 hD hX hσ hs
  have hN : 0.991 ≤ ‖c.dq_H_E.rot.toH‖ := by linarith [(abs_le.mp hr).1, hA.small]
  rw [← hρ] at d3
  have hρ0 : 0 ≤ ρ := by rw [hρ]; positivity
  refine (motion_estimate hX (by linarith) d1 d2 d3 hρ0 hρ2 p).trans ?_
  have ht : 0 ≤ Spec.translationLength c.dq_H_E := by rw [translationLength_eq]; positivity
  have : 2 * (Spec.translationLength c.dq_H_E / ‖c.dq_H_E.rot.toH‖) ≤ 3 * Spec.translationLength c.dq_H_E := by
    rw [← mul_div_assoc, div_le_iff₀ (by linarith)]
    nlinarith
  gcongr

theorem scalarMatch_returns {u tol : ℝ} {A : Arith} (h : Spec.Machine u A) (w b : DQuat) : ∃ f, A.scalarMatch tol w b = .ok f := by
  obtain ⟨r, d, e1, _⟩ := scalar_near h w
  obtain ⟨r', d', e2, _⟩ := scalar_near h b
  unfold Arith.scalarMatch
  rw [e1, e2]
  exact ⟨_, rfl⟩

open Classical in
/-- **C120**, completeness: aligned at a pair that fits, the test of the scalar parts accepts exactly the pairs that fit, if its tolerance covers the errors.
The flags are those of the true pairs, in the order of the aligned poses. -/
theorem C120_flags {A : Arith} {u : ℝ} (hA : Spec.Machine u A) (hu : u ≤ 4e-10) (δ θ D : ℝ) (hδ0 : 0 ≤ δ) (hδ : δ ≤ 1 / 100) (hθ : 0 ≤ θ) (hD0 : 0 ≤ D)
    (hD : 60 * u * (D + θ) ≤ 1e-8) (g X : DQuat) (hg : Spec.IsUnit g) (hX : Spec.IsUnit X) (bs ws : List DQuat) (hlen : ws.length = bs.length)
    (L₀ : List (DQuat × DQuat)) (tol : ℝ) (hε : Spec.neededTolerance u δ θ D ≤ tol) (m : ℕ)
    (hout : Spec.VisibleOutliers u δ θ D (Spec.relativeError u δ θ D) tol m g X bs ws L₀) (k : ℕ) (p : DQuat × DQuat) (hk : L₀[k]? = some p)
    (hp : Spec.FitsMotion g X p) :
    ∃ bs' ws', A.alignPaths bs k true = .ok bs' ∧ A.alignPaths ws k true = .ok ws' ∧ bs'.length = bs.length ∧ ws'.length = bs.length ∧
      (ws'.zip bs').mapM (fun s => A.scalarMatch tol s.1 s.2) = .ok ((L₀.drop k ++ L₀.take k).map fun q => decide (Spec.FitsMotion g X q)) := by
  have hη := relativeError_nonneg (D := D) hA.nonneg hδ0 hθ hD0
  have g1 : (bs.zip ws).map Prod.fst = bs := List.map_fst_zip (by omega)
  have g2 : (bs.zip ws).map Prod.snd = ws := List.map_snd_zip (by omega)
  have hl := hout.recorded.length_eq
  rw [List.length_zip, hlen, min_self] at hl
  have hkl : k < L₀.length := (List.getElem?_eq_some_iff.mp hk).1
  have hrp : ∀ {s q}, (s, q) ∈ (bs.zip ws).zip L₀ → Spec.RecordedPair δ θ D s q := (List.forall₂_iff_zip.mp hout.recorded).2
  have hmem : ∀ s ∈ bs.zip ws, ∃ q, Spec.RecordedPair δ θ D s q := by
    intro s hs
    obtain ⟨j, hj, rfl⟩ := List.getElem_of_mem hs
    have hj2 : j < L₀.length := by rw [← hout.recorded.length_eq]; exact hj
    exact ⟨_, List.Forall₂.get hout.recorded hj hj2⟩
  obtain ⟨bs', hb⟩ := align_recorded (A := A) (δ := δ) (v := bs) (i := k) (k := k) hA hu hδ hD true (by
    intro a ha
    rw [← g1] at ha
    obtain ⟨s, hs, rfl⟩ := List.mem_map.mp ha
    obtain ⟨q, r⟩ := hmem s hs
    exact ⟨_, r.1⟩) ⟨by omega, .inl rfl⟩
  obtain ⟨ws', hw⟩ := align_recorded (A := A) (δ := δ) (v := ws) (i := k) (k := k) hA hu hδ hD true (by
    intro a ha
    rw [← g2] at ha
    obtain ⟨s, hs, rfl⟩ := List.mem_map.mp ha
    obtain ⟨q, r⟩ := hmem s hs
    exact ⟨_, r.2⟩) ⟨by omega, .inl rfl⟩
  obtain ⟨l1, l2, hL⟩ := aligned_seen_at hA hδ0 hδ hθ hD0 hout.recorded le_rfl hout.hand hout.eye hk (by rw [g1]; exact hb) (by rw [g2]; exact hw)
  rw [List.length_zip] at l1 l2
  have pu : Spec.IsUnit p.1 ∧ Spec.IsUnit p.2 := by
    have hj : k < (bs.zip ws).length := by rw [hout.recorded.length_eq]; exact hkl
    have := List.Forall₂.get hout.recorded hj hkl
    simp only [List.get_eq_getElem, (List.getElem?_eq_some_iff.mp hk).2] at this
    exact ⟨this.1.unit, this.2.unit⟩
  have hpm := List.mem_of_getElem? hk
  have hsub : ∀ q ∈ L₀.drop k ++ L₀.take k, q ∈ L₀ := by
    intro q hq
    rcases List.mem_append.mp hq with h | h
    · exact List.mem_of_mem_drop h
    · exact List.mem_of_mem_take h
  refine ⟨bs', ws', hb, hw, by omega, by omega, ?_⟩
  rw [Py.mapM_eq_ok, List.forall₂_map_right_iff]
  rw [← List.zip_swap, List.forall₂_map_left_iff]
  rw [List.forall₂_iff_zip] at hL ⊢
  refine ⟨hL.1, ?_⟩
  intro s q hsq
  obtain ⟨hs, hq⟩ := List.of_mem_zip hsq
  have hseen := hL.2 hsq
  have hs' := List.of_mem_zip (a := s.1) (b := s.2) hs
  have p1 := alignPaths_w_nonneg hb _ hs'.1
  have p2 := alignPaths_w_nonneg hw _ hs'.2
  by_cases hqf : Spec.FitsMotion g X q
  · rw [decide_eq_true hqf]
    exact (goodPair_match hA hη hD0 hε hX (good_of_near hg hX pu.1 pu.2 hseen.1 hseen.2.1 hp hqf hseen.2.2.1 hseen.2.2.2) p1 p2).1
  · rw [decide_eq_false hqf]
    obtain ⟨f, hf⟩ := scalarMatch_returns (tol := tol) hA s.2 s.1
    cases f with
    | false => exact hf
    | true => exact absurd (hout.visible p hpm hp q (hsub q hq) (match_corresponds hA hη hη hD0 hseen.2.2.1 hseen.2.2.2 hf)) hqf

/-- **C120**, completeness of the baseline algorithm: if the first pair fits and more than `min_num_inliers` pairs do, it stops at the first index with as many
inliers as there are pairs that fit. -/
theorem C120_first {A : Arith} {u : ℝ} (hA : Spec.Machine u A) (hu : u ≤ 4e-10) (δ θ D : ℝ) (hδ0 : 0 ≤ δ) (hδ : δ ≤ 1 / 100) (hθ : 0 ≤ θ) (hD0 : 0 ≤ D)
    (hD : 60 * u * (D + θ) ≤ 1e-8) (g X : DQuat) (hg : Spec.IsUnit g) (hX : Spec.IsUnit X) (bs ws : List DQuat) (hlen : ws.length = bs.length)
    (L₀ : List (DQuat × DQuat)) (hε : Spec.neededTolerance u δ θ D ≤ 1e-2) (m : ℕ)
    (hout : Spec.VisibleOutliers u δ θ D (Spec.relativeError u δ θ D) 1e-2 (m + 1) g X bs ws L₀) (p : DQuat × DQuat) (hk : L₀.head? = some p)
    (hp : Spec.FitsMotion g X p) (hm : m < Spec.number (Spec.FitsMotion g X) L₀) :
    ∃ bs' ws', A.firstInliers m bs ws (List.range bs.length) = .ok (0, bs', ws') ∧ bs'.length = Spec.number (Spec.FitsMotion g X) L₀ ∧
      ws'.length = bs'.length := by
  classical
  rw [List.head?_eq_getElem?] at hk
  obtain ⟨bs', ws', hb, hw, l1, l2, hf⟩ := C120_flags hA hu δ θ D hδ0 hδ hθ hD0 hD g X hg hX bs ws hlen L₀ 1e-2 hε (m + 1) hout 0 p hk hp
  have hl := hout.recorded.length_eq
  rw [List.length_zip, hlen, min_self] at hl
  have hpos : 0 < L₀.length := (List.getElem?_eq_some_iff.mp hk).1
  rw [List.drop_zero, List.take_zero, List.append_nil] at hf
  have hn : ∀ l : List DQuat, l.length = L₀.length →
      (compress l (L₀.map fun q => decide (Spec.FitsMotion g X q))).length = Spec.number (Spec.FitsMotion g X) L₀ := by
    intro l h
    rw [compress_length _ _ _ h, Spec.number, List.countP_eq_length_filter]
  refine ⟨compress bs' (L₀.map fun q => decide (Spec.FitsMotion g X q)), compress ws' (L₀.map fun q => decide (Spec.FitsMotion g X q)), ?_, hn bs' (by omega),
    by rw [hn ws' (by omega), hn bs' (by omega)]⟩
  · obtain ⟨n, hn'⟩ : ∃ n, bs.length = n + 1 := ⟨bs.length - 1, by omega⟩
    rw [hn', List.range_succ_eq_map, Arith.firstInliers]
    have hi : A.inliersAt bs ws 0 = .ok (compress bs' (L₀.map fun q => decide (Spec.FitsMotion g X q)), compress ws' (L₀.map fun q => decide (Spec.FitsMotion g X q))) := by
      unfold Arith.inliersAt
      rw [hw, Py.ok_bind, hb, Py.ok_bind, hf]
      rfl
    rw [hi, Py.ok_bind]
    dsimp only
    rw [pyAssert_pos (by rw [hn ws' (by omega), hn bs' (by omega)]), Py.ok_bind, if_pos (by rw [hn ws' (by omega)]; exact hm)]
    rfl

/-! ## Three poses and an outlier, in float64 -/

/-- `twoTurns`, and a fourth pair: the hand is where it was at first, the eye has turned. -/
noncomputable def turnsAndOutlier : List DQuat := twoTurns ++ [⟨⟨0, 4 / 5, 0, 3 / 5⟩, ⟨0, 0, 0, 0⟩⟩]
noncomputable def turnsAndRest : List DQuat := twoTurns ++ [⟨⟨0, 0, 0, 1⟩, ⟨0, 0, 0, 0⟩⟩]

theorem turned_fits (x y z w : ℝ) : Spec.FitsMotion DQuat.identity DQuat.identity (⟨⟨x, y, z, w⟩, ⟨0, 0, 0, 0⟩⟩, ⟨⟨x, y, z, w⟩, ⟨0, 0, 0, 0⟩⟩) := by
  intro x
  rw [show DQuat.identity = 1 from rfl, DQuat.motion_one, DQuat.motion_one]

theorem turned_not_fits : ¬ Spec.FitsMotion DQuat.identity DQuat.identity (⟨⟨0, 0, 0, 1⟩, ⟨0, 0, 0, 0⟩⟩, ⟨⟨0, 4 / 5, 0, 3 / 5⟩, ⟨0, 0, 0, 0⟩⟩) := by
  intro h
  have := congrArg Vec3.x (h ⟨1, 0, 0⟩)
  rw [show DQuat.identity = 1 from rfl, DQuat.motion_one, DQuat.motion_one] at this
  norm_num [Spec.motion, Spec.imPart, Quaternion.normSq_def'] at this

theorem turn_parts (a b c d x y z w : ℝ) (h : 0 ≤ a * x + b * y + c * z + d * w) :
    Spec.scalarParts ((⟨⟨a, b, c, d⟩, ⟨0, 0, 0, 0⟩⟩ : DQuat).conj * ⟨⟨x, y, z, w⟩, ⟨0, 0, 0, 0⟩⟩) = (a * x + b * y + c * z + d * w, 0) := by
  have e : ((⟨⟨a, b, c, d⟩, ⟨0, 0, 0, 0⟩⟩ : DQuat).conj * ⟨⟨x, y, z, w⟩, ⟨0, 0, 0, 0⟩⟩).rot.w = a * x + b * y + c * z + d * w := by
    simp [DQuat.conj, Quat.conj]
    ring
  unfold Spec.scalarParts
  rw [e, if_neg (not_lt.mpr h)]
  simp [DQuat.conj, Quat.conj]

theorem turned_recorded : List.Forall₂ (Spec.RecordedPair 0 0 0) (turnsAndRest.zip turnsAndOutlier) (turnsAndRest.zip turnsAndOutlier) := by
  have hu : ∀ x y z w : ℝ, x ^ 2 + y ^ 2 + z ^ 2 + w ^ 2 = 1 → Spec.RecordedPose 0 0 0 ⟨⟨x, y, z, w⟩, ⟨0, 0, 0, 0⟩⟩ ⟨⟨x, y, z, w⟩, ⟨0, 0, 0, 0⟩⟩ := by
    intro x y z w h
    refine ⟨?_, by simp [Spec.gap], by simp [Spec.gap], by simp [Spec.len]⟩
    rw [DQuat.isUnit_iff]
    simp [Quat.dot]
    linarith
  simp only [turnsAndRest, turnsAndOutlier, twoTurns, List.cons_append, List.nil_append, List.zip_cons_cons, List.zip_nil_left]
  refine .cons ⟨hu _ _ _ _ (by norm_num), hu _ _ _ _ (by norm_num)⟩ (.cons ⟨hu _ _ _ _ (by norm_num), hu _ _ _ _ (by norm_num)⟩
    (.cons ⟨hu _ _ _ _ (by norm_num), hu _ _ _ _ (by norm_num)⟩ (.cons ⟨hu _ _ _ _ (by norm_num), hu _ _ _ _ (by norm_num)⟩ .nil)))

theorem turned_visible {η : ℝ} (h : η ≤ 1e-6) (m : ℕ) (hm : 2 ≤ m) : Spec.VisibleOutliers (2⁻¹ ^ 53) 0 0 0 η 1e-2 m DQuat.identity DQuat.identity
    turnsAndRest turnsAndOutlier (turnsAndRest.zip turnsAndOutlier) := by
  have ht : Spec.testedTolerance (2⁻¹ ^ 53) η 0 1e-2 ≤ 2e-2 := by
    unfold Spec.testedTolerance
    linarith
  have hmono : ∀ {p q}, Spec.Corresponds (Spec.testedTolerance (2⁻¹ ^ 53) η 0 1e-2) p q → Spec.Corresponds 2e-2 p q := fun ⟨a, b⟩ => ⟨by linarith, by linarith⟩
  refine ⟨turned_recorded, ?_, ?_, ?_, ?_⟩
  · intro p hp q hq
    refine lt_of_le_of_lt h ?_
    simp only [turnsAndRest, turnsAndOutlier, twoTurns, List.cons_append, List.nil_append, List.zip_cons_cons, List.zip_nil_left, List.mem_cons, List.not_mem_nil, or_false] at hp hq
    obtain rfl | rfl | rfl | rfl := hp <;> obtain rfl | rfl | rfl | rfl := hq <;> norm_num [Spec.cosHalf]
  · intro p hp q hq
    refine lt_of_le_of_lt h ?_
    simp only [turnsAndRest, turnsAndOutlier, twoTurns, List.cons_append, List.nil_append, List.zip_cons_cons, List.zip_nil_left, List.mem_cons, List.not_mem_nil, or_false] at hp hq
    obtain rfl | rfl | rfl | rfl := hp <;> obtain rfl | rfl | rfl | rfl := hq <;> norm_num [Spec.cosHalf]
  · intro p hp hpf q hq hc
    have hc := hmono hc
    simp only [turnsAndRest, turnsAndOutlier, twoTurns, List.cons_append, List.nil_append, List.zip_cons_cons, List.zip_nil_left, List.mem_cons, List.not_mem_nil, or_false] at hp hq
    obtain rfl | rfl | rfl | rfl := hq
    · exact turned_fits _ _ _ _
    · exact turned_fits _ _ _ _
    · exact turned_fits _ _ _ _
    · exfalso
      obtain rfl | rfl | rfl | rfl := hp
      · rw [Spec.Corresponds, turn_parts _ _ _ _ _ _ _ _ (by norm_num), turn_parts _ _ _ _ _ _ _ _ (by norm_num)] at hc
        norm_num at hc
      · rw [Spec.Corresponds, turn_parts _ _ _ _ _ _ _ _ (by norm_num), turn_parts _ _ _ _ _ _ _ _ (by norm_num)] at hc
        norm_num at hc
      · rw [Spec.Corresponds, turn_parts _ _ _ _ _ _ _ _ (by norm_num), turn_parts _ _ _ _ _ _ _ _ (by norm_num)] at hc
        norm_num at hc
      · exact turned_not_fits hpf
  · intro p hp hpf
    simp only [turnsAndRest, turnsAndOutlier, twoTurns, List.cons_append, List.nil_append, List.zip_cons_cons, List.zip_nil_left, List.mem_cons, List.not_mem_nil, or_false] at hp ⊢
    obtain rfl | rfl | rfl | rfl := hp
    · exact absurd (turned_fits _ _ _ _) hpf
    · exact absurd (turned_fits _ _ _ _) hpf
    · exact absurd (turned_fits _ _ _ _) hpf
    · have hno : ∀ x y z w : ℝ, 0 ≤ w → 0 ≤ 4 / 5 * y + 3 / 5 * w → 0.1 ≤ |4 / 5 * y + 3 / 5 * w - w| → |w| ≤ 1 →
          ¬ Spec.Corresponds (Spec.testedTolerance (2⁻¹ ^ 53) η 0 1e-2) (⟨⟨0, 0, 0, 1⟩, ⟨0, 0, 0, 0⟩⟩, ⟨⟨0, 4 / 5, 0, 3 / 5⟩, ⟨0, 0, 0, 0⟩⟩)
            (⟨⟨x, y, z, w⟩, ⟨0, 0, 0, 0⟩⟩, ⟨⟨x, y, z, w⟩, ⟨0, 0, 0, 0⟩⟩) := by
        intro x y z w h1 h2 h3 h4 hc
        have hc := (hmono hc).1
        rw [turn_parts _ _ _ _ _ _ _ _ (by linarith), turn_parts _ _ _ _ _ _ _ _ (by linarith)] at hc
        simp only [zero_mul, zero_add, add_zero, one_mul] at hc
        linarith
      have e1 := hno 0 0 0 1 (by norm_num) (by norm_num) (by norm_num [abs_of_neg]) (by norm_num)
      have e2 := hno (1 / 2) (1 / 2) (1 / 2) (1 / 2) (by norm_num) (by norm_num) (by norm_num [abs_of_pos]) (by norm_num [abs_of_pos])
      have e3 := hno (-1 / 2) (1 / 2) (1 / 2) (1 / 2) (by norm_num) (by norm_num) (by norm_num [abs_of_pos]) (by norm_num [abs_of_pos])
      simp only [Spec.number, List.countP_cons, List.countP_nil, e1, e2, e3, decide_false]
      split <;> simp <;> omega

theorem turned_error : Spec.relativeError (2⁻¹ ^ 53) 0 0 0 ≤ 1e-6 := by norm_num [Spec.relativeError]

theorem turned_number : Spec.number (Spec.FitsMotion DQuat.identity DQuat.identity) (turnsAndRest.zip turnsAndOutlier) = 3 := by
  simp only [turnsAndRest, turnsAndOutlier, twoTurns, List.cons_append, List.nil_append, List.zip_cons_cons, List.zip_nil_left, Spec.number, List.countP_cons,
    List.countP_nil, turned_fits, turned_not_fits, decide_true, decide_false]
  norm_num

/-- The three poses are found, the outlier is not. -/
theorem turned_run (acos : ℝ → ℝ) : ∃ bs' ws', (doubleArith acos).firstInliers 2 turnsAndRest turnsAndOutlier (List.range 4) = .ok (0, bs', ws') ∧
    bs'.length = 3 ∧ ws'.length = 3 := by
  obtain ⟨b, w, h1, h2, h3⟩ := C120_first (machine_double acos) (by norm_num) 0 0 0 le_rfl (by norm_num) le_rfl le_rfl (by norm_num) _ _ turn_unit
    turn_unit turnsAndRest turnsAndOutlier rfl _ two_tolerance 2 (turned_visible turned_error _ (by norm_num)) _ rfl
    (turned_fits 0 0 0 1) (by rw [turned_number]; norm_num)
  rw [turned_number] at h2
  exact ⟨b, w, h1, h2, by omega⟩

/-- Seen from the second pose the flags are those of the second, third, fourth and first pair. -/
example (acos : ℝ → ℝ) : ∃ bs' ws', (doubleArith acos).alignPaths turnsAndRest 1 true = .ok bs' ∧ (doubleArith acos).alignPaths turnsAndOutlier 1 true = .ok ws' ∧
    (ws'.zip bs').mapM (fun s => (doubleArith acos).scalarMatch 1e-2 s.1 s.2) = .ok [true, true, false, true] := by
  obtain ⟨b, w, h1, h2, _, _, h3⟩ := C120_flags (machine_double acos) (by norm_num) 0 0 0 le_rfl (by norm_num) le_rfl le_rfl (by norm_num) _ _ turn_unit
    turn_unit turnsAndRest turnsAndOutlier rfl _ _ two_tolerance 3 (turned_visible turned_error _ (by norm_num)) 1 _ rfl
    (turned_fits _ _ _ _)
  refine ⟨b, w, h1, h2, h3.trans ?_⟩
  simp only [turnsAndRest, turnsAndOutlier, twoTurns, List.cons_append, List.nil_append, List.zip_cons_cons, List.zip_nil_left, List.drop_succ_cons, List.drop_zero,
    List.take_succ_cons, List.take_zero, List.map_cons, List.map_nil, turned_fits, turned_not_fits, decide_true, decide_false]

/-- The baseline algorithm on these poses: with a singular value of at least 1 the rotation is right up to about a millionth of a degree and points within 10 m
of the camera are mapped correctly to a nanometre, in spite of the outlier. -/
example (acos : ℝ → ℝ) (svd : Svd) (hsvd : ∀ T s V, svd T = .ok (s, V) → Spec.NearSVD 0 0 T s V) (c : Calibration)
    (hc : (doubleArith acos).baselineCalibration svd twoConfig (fun b w => .ok (b, w)) turnsAndRest turnsAndOutlier = .ok (some c)) (σ : ℝ) (hσ : 1 ≤ σ)
    (hs : c.singular_values[5]? = some σ) (ht : Spec.translationLength c.dq_H_E ≤ 1) (p : Vec3) (hp : Spec.dist p ⟨0, 0, 0⟩ ≤ 10) :
    1 - Spec.cosHalf c.dq_H_E.rot DQuat.identity.rot ^ 2 ≤ 1e-20 ∧
    Spec.dist (Spec.motion c.dq_H_E p) (Spec.motion DQuat.identity p) ≤ 2e-9 := by
  have ht0 : 0 ≤ Spec.translationLength c.dq_H_E := by rw [translationLength_eq]; positivity
  have hv : Spec.VisibleOutliers (2⁻¹ ^ 53) 0 0 0 (Spec.relativeError (2⁻¹ ^ 53) 0 0 0) 1e-2 (twoConfig.min_num_inliers + 1) DQuat.identity DQuat.identity
      turnsAndRest turnsAndOutlier (turnsAndRest.zip turnsAndOutlier) := turned_visible turned_error _ (by decide)
  have h := (C120_baseline_partial (machine_double acos) 0 0 le_rfl le_rfl (by norm_num) svd hsvd 0 0 0 le_rfl (by norm_num) le_rfl le_rfl _ _ turn_unit
    turn_unit turnsAndRest turnsAndOutlier _ _ rfl _ hv _ two_keeps c hc σ (by linarith) hs).2
  have h' := C120_baseline_motion_partial (machine_double acos) 0 0 le_rfl le_rfl (by norm_num) svd hsvd 0 0 0 le_rfl (by norm_num) le_rfl le_rfl _ _ turn_unit
    turn_unit turnsAndRest turnsAndOutlier _ _ rfl _ hv _ two_keeps c hc σ (by linarith) hs _ rfl
  have hsq : Real.sqrt (turnsAndRest.length : ℝ) ≤ 2 := by
    rw [show turnsAndRest.length = 4 from rfl, Real.sqrt_le_left (by norm_num)]
    norm_num
  have hη : Spec.relativeError (2⁻¹ ^ 53) 0 0 0 ≤ 1e-12 := by norm_num [Spec.relativeError]
  have hη0 : 0 ≤ Spec.relativeError (2⁻¹ ^ 53) 0 0 0 := relativeError_nonneg (by positivity) le_rfl le_rfl le_rfl
  generalize Spec.relativeError (2⁻¹ ^ 53) 0 0 0 = η at h h' hη hη0
  have hq : 4 * (η + (2⁻¹ ^ 53 + 1.001 * 0) * (1 + 2 * 0 + η)) * Real.sqrt turnsAndRest.length / σ ≤ 1e-11 := by
    rw [div_le_iff₀ (by linarith)]
    have h1 : 4 * (η + (2⁻¹ ^ 53 + 1.001 * 0) * (1 + 2 * 0 + η)) ≤ 5e-12 := by linarith
    have h2 := mul_le_mul h1 hsq (Real.sqrt_nonneg _) (by norm_num)
    linarith
  have hq0 : 0 ≤ 4 * (η + (2⁻¹ ^ 53 + 1.001 * 0) * (1 + 2 * 0 + η)) * Real.sqrt turnsAndRest.length / σ := by
    have : 0 < σ := by linarith
    positivity
  have h3 : 1.06 * (4 * (η + (2⁻¹ ^ 53 + 1.001 * 0) * (1 + 2 * 0 + η)) * Real.sqrt turnsAndRest.length / σ) + 15 * 2⁻¹ ^ 53 + 2.1 * 0 ≤ 2e-11 := by
    linarith
  constructor
  · refine h.trans ?_
    refine (mul_le_mul (pow_le_pow_left₀ (by linarith) h3 2) (show 1 + Spec.translationLength c.dq_H_E ^ 2 / 4 ≤ 2 by nlinarith) (by positivity) (by positivity)).trans
      (by norm_num)
  · have h2 : Real.sqrt (1 + Spec.translationLength c.dq_H_E ^ 2 / 4) ≤ 2 := by
      rw [Real.sqrt_le_left (by norm_num)]
      nlinarith
    have hρ := mul_le_mul h3 h2 (Real.sqrt_nonneg _) (by norm_num)
    refine (h' (hρ.trans (by norm_num)) p).trans ?_
    have hX : Spec.translationLength DQuat.identity = 0 := by norm_num [Spec.translationLength, DQuat.identity]
    rw [hX]
    have hp0 : 0 ≤ Spec.dist p ⟨0, 0, 0⟩ := Real.sqrt_nonneg _
    exact (mul_le_mul hρ (show _ ≤ (30 : ℝ) by linarith) (by positivity) (by norm_num)).trans (by norm_num)

/-- RANSAC on these poses, with any draws: what it returns is right in spite of the outlier. -/
example (acos : ℝ → ℝ) (svd : Svd) (hsvd : ∀ T s V, svd T = .ok (s, V) → Spec.NearSVD 0 0 T s V) (rng : ℕ → List ℕ) (abort : ℕ → Py Bool) (fuel : ℕ) (c : FloatCandidate)
    (h : (doubleArith acos).ransac svd rng abort { twoConfig with ransac_sample_rejection_scalar_part_equality_tolerance := 1e-2, ransac_inlier_classification := .scalarPartEquality }
      (fun b w => .ok (b, w)) turnsAndRest turnsAndOutlier fuel = .ok (some (some c))) (σ : ℝ) (hσ : 0 < σ) (hs : c.calibration.singular_values[5]? = some σ) :
    |Spec.len c.calibration.dq_H_E.rot - 1| ≤ 9 * 2⁻¹ ^ 53 ∧
    1 - Spec.cosHalf c.calibration.dq_H_E.rot DQuat.identity.rot ^ 2 ≤
      (1.1 * (4 * (Spec.normalisedError (2⁻¹ ^ 53) (Spec.relativeError (2⁻¹ ^ 53) 0 0 0) 0 + (2⁻¹ ^ 53 + 1.001 * 0) *
        (1 + 2 * 0 + Spec.normalisedError (2⁻¹ ^ 53) (Spec.relativeError (2⁻¹ ^ 53) 0 0 0) 0)) * Real.sqrt (4 : ℕ) / σ) + 25 * 2⁻¹ ^ 53 + 2.2 * 0) ^ 2 *
        (1 + Spec.translationLength c.calibration.dq_H_E ^ 2 / 4) := by
  exact C120_rotation_partial (machine_double acos) 0 0 le_rfl le_rfl (by norm_num) svd hsvd 0 0 0 le_rfl (by norm_num) le_rfl le_rfl (by norm_num [Spec.relativeError]) _ _
    turn_unit turn_unit turnsAndRest turnsAndOutlier _ _ rfl _ (turned_visible
      (by norm_num [Spec.normalisedError, Spec.relativeError]) _ le_rfl) (fun hc => by cases hc) rng abort _ two_keeps fuel c h σ hσ hs

/-- The motion for such a run: with `ρ` at most 10⁻¹², points within 10 m of the camera are mapped correctly to 30 pm. -/
example (acos : ℝ → ℝ) (svd : Svd) (hsvd : ∀ T s V, svd T = .ok (s, V) → Spec.NearSVD 0 0 T s V) (rng : ℕ → List ℕ) (abort : ℕ → Py Bool) (fuel : ℕ) (c : FloatCandidate)
    (h : (doubleArith acos).ransac svd rng abort { twoConfig with ransac_sample_rejection_scalar_part_equality_tolerance := 1e-2, ransac_inlier_classification := .scalarPartEquality }
      (fun b w => .ok (b, w)) turnsAndRest turnsAndOutlier fuel = .ok (some (some c))) (σ : ℝ) (hσ : 1 ≤ σ) (hs : c.calibration.singular_values[5]? = some σ)
    (ht : Spec.translationLength c.calibration.dq_H_E ≤ 1) (p : Vec3) (hp : Spec.dist p ⟨0, 0, 0⟩ ≤ 10) :
    Spec.dist (Spec.motion c.calibration.dq_H_E p) (Spec.motion DQuat.identity p) ≤ 3e-11 := by
  have ht0 : 0 ≤ Spec.translationLength c.calibration.dq_H_E := by rw [translationLength_eq]; positivity
  have hρ : (1.1 * (4 * (Spec.normalisedError (2⁻¹ ^ 53) (Spec.relativeError (2⁻¹ ^ 53) 0 0 0) 0 + (2⁻¹ ^ 53 + 1.001 * 0) *
      (1 + 2 * 0 + Spec.normalisedError (2⁻¹ ^ 53) (Spec.relativeError (2⁻¹ ^ 53) 0 0 0) 0)) * Real.sqrt turnsAndRest.length / σ) + 25 * 2⁻¹ ^ 53 + 2.2 * 0) *
      Real.sqrt (1 + Spec.translationLength c.calibration.dq_H_E ^ 2 / 4) ≤ 1e-12 := by
    have hη : Spec.normalisedError (2⁻¹ ^ 53) (Spec.relativeError (2⁻¹ ^ 53) 0 0 0) 0 ≤ 2e-14 := by norm_num [Spec.normalisedError, Spec.relativeError]
    have hη0 : 0 ≤ Spec.normalisedError (2⁻¹ ^ 53) (Spec.relativeError (2⁻¹ ^ 53) 0 0 0) 0 := by norm_num [Spec.normalisedError, Spec.relativeError]
    generalize Spec.normalisedError (2⁻¹ ^ 53) (Spec.relativeError (2⁻¹ ^ 53) 0 0 0) 0 = η at hη hη0
    have hsq : Real.sqrt (turnsAndRest.length : ℝ) ≤ 2 := by
      rw [show turnsAndRest.length = 4 from rfl, Real.sqrt_le_left (by norm_num)]
      norm_num
    have hσ0 : 0 < σ := by linarith
    have hq : 4 * (η + (2⁻¹ ^ 53 + 1.001 * 0) * (1 + 2 * 0 + η)) * Real.sqrt turnsAndRest.length / σ ≤ 2e-13 := by
      rw [div_le_iff₀ hσ0]
      have h1 : 4 * (η + (2⁻¹ ^ 53 + 1.001 * 0) * (1 + 2 * 0 + η)) ≤ 1e-13 := by linarith
      have h2 := mul_le_mul h1 hsq (Real.sqrt_nonneg _) (by norm_num)
      linarith
    have h2 : Real.sqrt (1 + Spec.translationLength c.calibration.dq_H_E ^ 2 / 4) ≤ 2 := by
      rw [Real.sqrt_le_left (by norm_num)]
      nlinarith
    refine (mul_le_mul (show _ ≤ (5e-13 : ℝ) by linarith) h2 (Real.sqrt_nonneg _) (by norm_num)).trans (by norm_num)
  have hX : Spec.translationLength DQuat.identity = 0 := by
    rw [translationLength_eq]
    simp [DQuat.identity, show (⟨0, 0, 0, 0⟩ : Quat).toH = 0 from rfl]
  refine (C120_motion_partial (machine_double acos) 0 0 le_rfl le_rfl (by norm_num) svd hsvd 0 0 0 le_rfl (by norm_num) le_rfl le_rfl (by norm_num [Spec.relativeError]) _ _
    turn_unit turn_unit turnsAndRest turnsAndOutlier _ _ rfl _ (turned_visible
      (by norm_num [Spec.normalisedError, Spec.relativeError]) _ le_rfl) (fun hc => by cases hc) rng abort _ two_keeps fuel c h σ (by linarith) hs _ rfl
      (hρ.trans (by norm_num)) p).trans ?_
  rw [hX]
  have hp0 : 0 ≤ Spec.dist p ⟨0, 0, 0⟩ := Real.sqrt_nonneg _
  exact (mul_le_mul hρ (show _ ≤ (30 : ℝ) by linarith) (by positivity) (by norm_num)).trans (by norm_num)

end HandEye
