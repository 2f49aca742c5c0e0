import Verif.Lemmas.RoundedTables2
import Verif.Props.RoundedTables
import Verif.Props.RoundedOutliers
import Verif.Props.OutlierScript3

/-! # Property C121: tables with outliers, in floating-point arithmetic -/

namespace HandEye

section
variable {A : Arith} {u : ℝ} (hA : Spec.Machine u A) (α e R : ℝ) (hα0 : 0 ≤ α) (he : 0 ≤ e) (hR : 0 ≤ R) (hα : Spec.rowError u α ≤ 1 / 100)
  (η tol : ℝ) (m : ℕ) (i₁ i₂ : Bool) (g X : DQuat) (hg : Spec.IsUnit g) (hX : Spec.IsUnit X) (P Q P₀ Q₀ : List Pose)
  (h : Spec.OutlierTables α e R η (Spec.testedTolerance u η R tol) m i₁ i₂ g X P Q P₀ Q₀)
include hA hα0 he hR hα hg hX h

/-- **C121**, tables with outliers: what the preparation returns is a recording with outliers that are as visible as those of the tables; the first row may be one
of them. -/
theorem C121_outliers (hη : 0 ≤ η) (bs ws : List DQuat) (hr : A.preparedPaths i₁ i₂ P Q = .ok (bs, ws)) :
    bs.length = P.length ∧ ws.length = P.length ∧ ∃ g' L₁, Spec.IsUnit g' ∧
      Spec.VisibleOutliers u (Spec.preparedError u α e R) (Spec.preparedError u α e R) R η tol m g' X bs ws L₁ := by
  obtain ⟨v, hv, rv⟩ := table_recorded hA hα0 he hR hα i₁ h.first
  obtain ⟨w, hw, rw'⟩ := table_recorded hA hα0 he hR hα i₂ h.second
  have l1 := h.first.length_eq
  have l2 := h.second.length_eq
  have l3 := rv.length_eq
  have l4 := rw'.length_eq
  have l5 := h.same
  rw [List.length_map] at l3 l4
  have hrec : List.Forall₂ (Spec.RecordedPair (Spec.rowError u α) (Spec.rowDualError u α e R) (R / 2)) (v.zip w) (Spec.rowPairs i₁ i₂ P₀ Q₀) := by
    rw [List.forall₂_iff_get]
    unfold Spec.rowPairs
    refine ⟨by simp only [List.length_zip, List.length_map]; omega, fun n h1 h2 => ?_⟩
    simp only [List.length_zip, List.length_map] at h1 h2
    simp only [List.get_eq_getElem, List.getElem_zip]
    exact ⟨rv.get (by omega) (by rw [List.length_map]; omega), rw'.get (by omega) (by rw [List.length_map]; omega)⟩
  unfold Arith.preparedPaths at hr
  rw [hv, Py.ok_bind, hw, Py.ok_bind, pyAssert_pos (by omega), Py.ok_bind] at hr
  obtain ⟨b, hb, hr⟩ := Py.bind_eq_ok.mp hr
  obtain ⟨c, hc, hr⟩ := Py.bind_eq_ok.mp hr
  cases hr
  obtain ⟨a1, a2, a3⟩ := aligned_visible (η := η) (tol := tol) (D' := R) (m := m) hA (rowError_nonneg hA.nonneg hα0) hα
    (rowDualError_nonneg hA.nonneg hα0 he hR) (by positivity) hη (by ring) hg hX (by omega) hrec (by
      intro p hp q hq
      obtain ⟨s, hs, e1⟩ := List.mem_map.mp (List.of_mem_zip (a := p.1) (b := p.2) hp).1
      obtain ⟨t, ht, e2⟩ := List.mem_map.mp (List.of_mem_zip (a := q.1) (b := q.2) hq).1
      rw [← e1, ← e2, cosHalf_rowDual]
      exact h.hand s hs t ht) (by
      intro p hp q hq
      obtain ⟨s, hs, e1⟩ := List.mem_map.mp (List.of_mem_zip (a := p.1) (b := p.2) hp).2
      obtain ⟨t, ht, e2⟩ := List.mem_map.mp (List.of_mem_zip (a := q.1) (b := q.2) hq).2
      rw [← e1, ← e2, cosHalf_rowDual]
      exact h.eye s hs t ht) h.visible h.few hb hc
  exact ⟨by omega, by omega, a3⟩

end

section
variable {A : Arith} {u : ℝ} (hA : Spec.Machine u A) (α e R : ℝ) (hα0 : 0 ≤ α) (he : 0 ≤ e) (hR : 0 ≤ R) (hα : Spec.rowError u α ≤ 1 / 100)
  (i₁ i₂ : Bool) (g X : DQuat) (hg : Spec.IsUnit g) (hX : Spec.IsUnit X) (P Q P₀ Q₀ : List Pose) (ε η : ℝ) (hε : ε = Spec.preparedError u α e R)
  (hε1 : ε ≤ 1 / 100) (hη1 : Spec.relativeError u ε ε R ≤ 1 / 10) (hη : η = Spec.normalisedError u (Spec.relativeError u ε ε R) R) (cfg : HandEyeConfig)
  (h : Spec.OutlierTables α e R η (Spec.testedTolerance u η R cfg.ransac_sample_rejection_scalar_part_equality_tolerance) cfg.min_num_inliers i₁ i₂ g X
    P Q P₀ Q₀)
include hA hα0 he hR hα hg hX hε hε1 hη1 hη h

/-- **C121**, tables with outliers, the rotation: the bound of `C121_rotation_partial` holds with visible outliers.  Partial: no two poses may be within `η` of a
half turn of each other, `ε` is at most 1/100, and a classification by the RMSE needs the refinement. -/
theorem C121_outliers_rotation_partial (κ ω : ℝ) (hκ : 0 ≤ κ) (hω : 0 ≤ ω) (hω1 : ω ≤ 1 / 1000) (svd : Svd)
    (hsvd : ∀ T s V, svd T = .ok (s, V) → Spec.NearSVD κ ω T s V) (bs ws : List DQuat) (hr : A.preparedPaths i₁ i₂ P Q = .ok (bs, ws))
    (hmode : cfg.ransac_inlier_classification = .rmseThreshold → cfg.ransac_model_refinement = true) (rng : ℕ → List ℕ) (abort : ℕ → Py Bool)
    (filter : List DQuat → List DQuat → Py (List DQuat × List DQuat)) (hfi : Spec.KeepsPairs filter) (fuel : ℕ) (c : FloatCandidate)
    (hc : A.ransac svd rng abort cfg filter bs ws fuel = .ok (some (some c))) (σ : ℝ) (hσ : 0 < σ) (hs : c.calibration.singular_values[5]? = some σ) :
    |Spec.len c.calibration.dq_H_E.rot - 1| ≤ 9 * u ∧
    1 - Spec.cosHalf c.calibration.dq_H_E.rot X.rot ^ 2 ≤
      (1.1 * (4 * (η + (u + 1.001 * κ) * (1 + 2 * R + η)) * Real.sqrt P.length / σ) + 25 * u + 2.2 * ω) ^ 2 *
        (1 + Spec.translationLength c.calibration.dq_H_E ^ 2 / 4) := by
  have hε0 : 0 ≤ ε := by
    rw [hε]
    exact relativeError_nonneg hA.nonneg (rowError_nonneg hA.nonneg hα0) (rowDualError_nonneg hA.nonneg hα0 he hR) (by positivity)
  have hη0 : 0 ≤ η := by
    rw [hη]
    have h0 := relativeError_nonneg (D := R) hA.nonneg hε0 hε0 hR
    exact h0.trans (le_normalisedError hA.nonneg h0 hR)
  obtain ⟨a1, _, g', L₁, hg', hv⟩ := C121_outliers hA α e R hα0 he hR hα η _ _ i₁ i₂ g X hg hX P Q P₀ Q₀ h hη0 bs ws hr
  rw [← hε] at hv
  rw [← a1]
  exact C120_rotation_partial hA κ ω hκ hω hω1 svd hsvd ε ε R hε0 hε1 hε0 hR hη1 g' X hg' hX bs ws L₁ η hη cfg hv hmode rng abort filter hfi fuel c hc σ hσ hs

/-- **C121**, tables with outliers, the whole motion, like `C121_motion_partial`.  Partial for the same reasons. -/
theorem C121_outliers_motion_partial (κ ω : ℝ) (hκ : 0 ≤ κ) (hω : 0 ≤ ω) (hω1 : ω ≤ 1 / 1000) (svd : Svd)
    (hsvd : ∀ T s V, svd T = .ok (s, V) → Spec.NearSVD κ ω T s V) (bs ws : List DQuat) (hr : A.preparedPaths i₁ i₂ P Q = .ok (bs, ws))
    (hmode : cfg.ransac_inlier_classification = .rmseThreshold → cfg.ransac_model_refinement = true) (rng : ℕ → List ℕ) (abort : ℕ → Py Bool)
    (filter : List DQuat → List DQuat → Py (List DQuat × List DQuat)) (hfi : Spec.KeepsPairs filter) (fuel : ℕ) (c : FloatCandidate)
    (hc : A.ransac svd rng abort cfg filter bs ws fuel = .ok (some (some c))) (σ : ℝ) (hσ : 0 < σ) (hs : c.calibration.singular_values[5]? = some σ) (ρ : ℝ)
    (hρ : ρ = (1.1 * (4 * (η + (u + 1.001 * κ) * (1 + 2 * R + η)) * Real.sqrt P.length / σ) + 25 * u + 2.2 * ω) *
      Real.sqrt (1 + Spec.translationLength c.calibration.dq_H_E ^ 2 / 4)) (hρ2 : ρ ≤ 1 / 2) (p : Vec3) :
    Spec.dist (Spec.motion c.calibration.dq_H_E p) (Spec.motion X p) ≤
      ρ * (2 * Spec.dist p ⟨0, 0, 0⟩ + 4 + 4 * Spec.translationLength X + 3 * Spec.translationLength c.calibration.dq_H_E) := by
  have hε0 : 0 ≤ ε := by
    rw [hε]
    exact relativeError_nonneg hA.nonneg (rowError_nonneg hA.nonneg hα0) (rowDualError_nonneg hA.nonneg hα0 he hR) (by positivity)
  have hη0 : 0 ≤ η := by
    rw [hη]
    have h0 := relativeError_nonneg (D := R) hA.nonneg hε0 hε0 hR
    exact h0.trans (le_normalisedError hA.nonneg h0 hR)
  obtain ⟨a1, _, g', L₁, hg', hv⟩ := C121_outliers hA α e R hα0 he hR hα η _ _ i₁ i₂ g X hg hX P Q P₀ Q₀ h hη0 bs ws hr
  rw [← hε] at hv
  rw [← a1] at hρ
  exact C120_motion_partial hA κ ω hκ hω hω1 svd hsvd ε ε R hε0 hε1 hε0 hR hη1 g' X hg' hX bs ws L₁ η hη cfg hv hmode rng abort filter hfi fuel c hc σ hσ hs ρ hρ
    hρ2 p

end

/-- **C121**, tables with outliers, the baseline algorithm: its rotation has the bound of C120 with the errors of the prepared poses.  Partial: no two poses may be
within `η` of a half turn of each other and the prepared errors are at most 1/100. -/
theorem C121_outliers_baseline_partial {A : Arith} {u : ℝ} (hA : Spec.Machine u A) (α e R : ℝ) (hα0 : 0 ≤ α) (he : 0 ≤ e) (hR : 0 ≤ R)
    (hα : Spec.rowError u α ≤ 1 / 100) (i₁ i₂ : Bool) (g X : DQuat) (hg : Spec.IsUnit g) (hX : Spec.IsUnit X) (P Q P₀ Q₀ : List Pose) (ε η : ℝ)
    (hε : ε = Spec.preparedError u α e R) (hε1 : ε ≤ 1 / 100) (hη : η = Spec.relativeError u ε ε R) (cfg : HandEyeConfig)
    (h : Spec.OutlierTables α e R η (Spec.testedTolerance u η R 1e-2) (cfg.min_num_inliers + 1) i₁ i₂ g X P Q P₀ Q₀)
    (κ ω : ℝ) (hκ : 0 ≤ κ) (hω : 0 ≤ ω) (hω1 : ω ≤ 1 / 1000) (svd : Svd)
    (hsvd : ∀ T s V, svd T = .ok (s, V) → Spec.NearSVD κ ω T s V) (bs ws : List DQuat) (hr : A.preparedPaths i₁ i₂ P Q = .ok (bs, ws))
    (filter : List DQuat → List DQuat → Py (List DQuat × List DQuat)) (hfi : Spec.KeepsPairs filter) (c : Calibration)
    (hc : A.baselineCalibration svd cfg filter bs ws = .ok (some c)) (σ : ℝ) (hσ : 0 < σ) (hs : c.singular_values[5]? = some σ) :
    |Spec.len c.dq_H_E.rot - 1| ≤ 9 * u ∧
    1 - Spec.cosHalf c.dq_H_E.rot X.rot ^ 2 ≤
      (1.06 * (4 * (η + (u + 1.001 * κ) * (1 + 2 * R + η)) * Real.sqrt P.length / σ) + 15 * u + 2.1 * ω) ^ 2 *
        (1 + Spec.translationLength c.dq_H_E ^ 2 / 4) := by
  have hε0 : 0 ≤ ε := by
    rw [hε]
    exact relativeError_nonneg hA.nonneg (rowError_nonneg hA.nonneg hα0) (rowDualError_nonneg hA.nonneg hα0 he hR) (by positivity)
  have hη0 : 0 ≤ η := by
    rw [hη]
    exact relativeError_nonneg hA.nonneg hε0 hε0 hR
  obtain ⟨a1, _, g', L₁, hg', hv⟩ := C121_outliers hA α e R hα0 he hR hα η _ _ i₁ i₂ g X hg hX P Q P₀ Q₀ h hη0 bs ws hr
  rw [← hε] at hv
  rw [← a1]
  exact C120_baseline_partial hA κ ω hκ hω hω1 svd hsvd ε ε R hε0 hε1 hε0 hR g' X hg' hX bs ws L₁ η hη cfg hv filter hfi c hc σ hσ hs

/-! ## Tables of four rows, the last one an outlier -/

noncomputable def tableAndRest : List Pose := turnsAndRest.map fun a => ⟨⟨0, 0, 0⟩, a.rot⟩
noncomputable def tableAndOutlier : List Pose := turnsAndOutlier.map fun a => ⟨⟨0, 0, 0⟩, a.rot⟩

theorem table_pairs : Spec.rowPairs false false tableAndRest tableAndOutlier = turnsAndRest.zip turnsAndOutlier := by
  have e : ∀ q : Quat, Spec.rowDual false ⟨⟨0, 0, 0⟩, q⟩ = ⟨q, ⟨0, 0, 0, 0⟩⟩ := by
    intro q
    change Spec.poseDual _ = _
    rw [poseDual_at]
    ext <;> simp
  unfold Spec.rowPairs tableAndRest tableAndOutlier turnsAndRest turnsAndOutlier twoTurns
  simp only [List.cons_append, List.nil_append, List.map_cons, List.map_nil, e]

theorem table_visible {η : ℝ} (h : η ≤ 1e-6) (m : ℕ) (hm : 2 ≤ m) :
    Spec.OutlierTables 0 0 0 η (Spec.testedTolerance (2⁻¹ ^ 53) η 0 1e-2) m false false DQuat.identity DQuat.identity tableAndRest tableAndOutlier tableAndRest
      tableAndOutlier := by
  have hv := turned_visible h m hm
  have hu : ∀ x y z w : ℝ, x ^ 2 + y ^ 2 + z ^ 2 + w ^ 2 = 1 → Spec.MeasuredPose 0 0 0 ⟨⟨0, 0, 0⟩, ⟨x, y, z, w⟩⟩ ⟨⟨0, 0, 0⟩, ⟨x, y, z, w⟩⟩ := by
    intro x y z w h
    refine ⟨?_, by simp [Spec.gap], by simp [Spec.dist], by simp [Spec.dist]⟩
    simp only [Spec.len, h, Real.sqrt_one]
  refine ⟨?_, ?_, rfl, ?_, ?_, by rw [table_pairs]; exact hv.visible, by rw [table_pairs]; exact hv.few⟩
  · exact .cons (hu _ _ _ _ (by norm_num)) (.cons (hu _ _ _ _ (by norm_num)) (.cons (hu _ _ _ _ (by norm_num)) (.cons (hu _ _ _ _ (by norm_num)) .nil)))
  · exact .cons (hu _ _ _ _ (by norm_num)) (.cons (hu _ _ _ _ (by norm_num)) (.cons (hu _ _ _ _ (by norm_num)) (.cons (hu _ _ _ _ (by norm_num)) .nil)))
  · intro p hp q hq
    refine lt_of_le_of_lt h ?_
    simp only [tableAndRest, turnsAndRest, twoTurns, List.cons_append, List.nil_append, List.map_cons, List.map_nil, List.mem_cons, List.not_mem_nil,
      or_false] at hp hq
    obtain rfl | rfl | rfl | rfl := hp <;> obtain rfl | rfl | rfl | rfl := hq <;> norm_num [Spec.cosHalf]
  · intro p hp q hq
    refine lt_of_le_of_lt h ?_
    simp only [tableAndOutlier, turnsAndOutlier, twoTurns, List.cons_append, List.nil_append, List.map_cons, List.map_nil, List.mem_cons, List.not_mem_nil,
      or_false] at hp hq
    obtain rfl | rfl | rfl | rfl := hp <;> obtain rfl | rfl | rfl | rfl := hq <;> norm_num [Spec.cosHalf]

theorem table_error : Spec.normalisedError (2⁻¹ ^ 53) (Spec.relativeError (2⁻¹ ^ 53) (Spec.preparedError (2⁻¹ ^ 53) 0 0 0)
    (Spec.preparedError (2⁻¹ ^ 53) 0 0 0) 0) 0 ≤ 1e-12 ∧ 0 ≤ Spec.normalisedError (2⁻¹ ^ 53) (Spec.relativeError (2⁻¹ ^ 53)
    (Spec.preparedError (2⁻¹ ^ 53) 0 0 0) (Spec.preparedError (2⁻¹ ^ 53) 0 0 0) 0) 0 := by
  constructor <;> norm_num [Spec.rowError, Spec.preparedError, Spec.relativeError, Spec.rowDualError, Spec.normalisedError]

/-- The outlier stays visible when the tables are prepared in float64. -/
example (acos : ℝ → ℝ) (bs ws : List DQuat) (hr : (doubleArith acos).preparedPaths false false tableAndRest tableAndOutlier = .ok (bs, ws)) :
    bs.length = 4 ∧ ws.length = 4 ∧ ∃ g' L₁, Spec.IsUnit g' ∧ Spec.VisibleOutliers (2⁻¹ ^ 53) (Spec.preparedError (2⁻¹ ^ 53) 0 0 0)
      (Spec.preparedError (2⁻¹ ^ 53) 0 0 0) 0 1e-6 1e-2 2 g' DQuat.identity bs ws L₁ :=
  C121_outliers (C89_double acos) 0 0 0 le_rfl le_rfl le_rfl (by norm_num [Spec.rowError]) 1e-6 1e-2 2 false false DQuat.identity DQuat.identity turn_unit
    turn_unit _ _ _ _ (table_visible le_rfl 2 le_rfl) (by norm_num) bs ws hr

theorem table_relative : Spec.relativeError (2⁻¹ ^ 53) (Spec.preparedError (2⁻¹ ^ 53) 0 0 0) (Spec.preparedError (2⁻¹ ^ 53) 0 0 0) 0 ≤ 1e-12 ∧
    0 ≤ Spec.relativeError (2⁻¹ ^ 53) (Spec.preparedError (2⁻¹ ^ 53) 0 0 0) (Spec.preparedError (2⁻¹ ^ 53) 0 0 0) 0 := by
  constructor <;> norm_num [Spec.rowError, Spec.preparedError, Spec.relativeError, Spec.rowDualError]

theorem table_length : Real.sqrt (tableAndRest.length : ℝ) = 2 := by
  rw [show (tableAndRest.length : ℝ) = 2 ^ 2 by norm_num [tableAndRest, turnsAndRest, twoTurns]]
  exact Real.sqrt_sq (by norm_num)

theorem table_bound {η : ℝ} (h0 : 0 ≤ η) (h : η ≤ 1e-12) :
    0 ≤ 1.1 * (4 * (η + (2⁻¹ ^ 53 + 1.001 * 0) * (1 + 2 * 0 + η)) * Real.sqrt tableAndRest.length / 1) + 25 * 2⁻¹ ^ 53 + 2.2 * 0 ∧
    1.1 * (4 * (η + (2⁻¹ ^ 53 + 1.001 * 0) * (1 + 2 * 0 + η)) * Real.sqrt tableAndRest.length / 1) + 25 * 2⁻¹ ^ 53 + 2.2 * 0 ≤ 1e-11 := by
  rw [table_length]
  refine ⟨by positivity, ?_⟩
  norm_num
  norm_num at h
  linarith

/-- With a sixth singular value of one, RANSAC returns no rotation that is off by more than `10⁻¹¹`, in spite of the outlier. -/
example (acos : ℝ → ℝ) (cfg : HandEyeConfig) (h1 : cfg.ransac_sample_rejection_scalar_part_equality_tolerance = 1e-2) (h2 : 2 ≤ cfg.min_num_inliers)
    (h3 : cfg.ransac_model_refinement = true) (svd : Svd) (hsvd : ∀ T s V, svd T = .ok (s, V) → Spec.NearSVD 0 0 T s V) (bs ws : List DQuat)
    (hr : (doubleArith acos).preparedPaths false false tableAndRest tableAndOutlier = .ok (bs, ws)) (rng : ℕ → List ℕ) (abort : ℕ → Py Bool)
    (fuel : ℕ) (c : FloatCandidate) (hc : (doubleArith acos).ransac svd rng abort cfg (fun b w => .ok (b, w)) bs ws fuel = .ok (some (some c)))
    (hs : c.calibration.singular_values[5]? = some 1) :
    1 - Spec.cosHalf c.calibration.dq_H_E.rot DQuat.identity.rot ^ 2 ≤ 1e-11 ^ 2 * (1 + Spec.translationLength c.calibration.dq_H_E ^ 2 / 4) := by
  obtain ⟨e1, e0⟩ := table_error
  have := (C121_outliers_rotation_partial (C89_double acos) 0 0 0 le_rfl le_rfl le_rfl (by norm_num [Spec.rowError]) false false DQuat.identity DQuat.identity
    turn_unit turn_unit _ _ _ _ _ _ rfl (by norm_num [Spec.rowError, Spec.preparedError, Spec.relativeError, Spec.rowDualError])
    (by norm_num [Spec.rowError, Spec.preparedError, Spec.relativeError, Spec.rowDualError]) rfl cfg
    (by rw [h1]; exact table_visible (e1.trans (by norm_num)) _ h2) 0 0 le_rfl le_rfl (by norm_num) svd hsvd bs ws hr (fun _ => h3) rng abort _ two_keeps fuel c
    hc 1 one_pos hs).2
  obtain ⟨b1, b2⟩ := table_bound e0 e1
  exact this.trans (mul_le_mul_of_nonneg_right (pow_le_pow_left₀ b1 b2 2) (by positivity))

/-- If such a run gives a translation of at most a metre, the point at the origin is moved by at most `10⁻¹⁰`. -/
example (acos : ℝ → ℝ) (cfg : HandEyeConfig) (h1 : cfg.ransac_sample_rejection_scalar_part_equality_tolerance = 1e-2) (h2 : 2 ≤ cfg.min_num_inliers)
    (h3 : cfg.ransac_model_refinement = true) (svd : Svd) (hsvd : ∀ T s V, svd T = .ok (s, V) → Spec.NearSVD 0 0 T s V) (bs ws : List DQuat)
    (hr : (doubleArith acos).preparedPaths false false tableAndRest tableAndOutlier = .ok (bs, ws)) (rng : ℕ → List ℕ) (abort : ℕ → Py Bool)
    (fuel : ℕ) (c : FloatCandidate) (hc : (doubleArith acos).ransac svd rng abort cfg (fun b w => .ok (b, w)) bs ws fuel = .ok (some (some c)))
    (hs : c.calibration.singular_values[5]? = some 1) (ht : Spec.translationLength c.calibration.dq_H_E ≤ 1) :
    Spec.dist (Spec.motion c.calibration.dq_H_E ⟨0, 0, 0⟩) ⟨0, 0, 0⟩ ≤ 1e-10 := by
  obtain ⟨e1, e0⟩ := table_error
  obtain ⟨b1, b2⟩ := table_bound e0 e1
  have ht0 : 0 ≤ Spec.translationLength c.calibration.dq_H_E := by rw [translationLength_eq]; positivity
  have hq : Real.sqrt (1 + Spec.translationLength c.calibration.dq_H_E ^ 2 / 4) ≤ 1.2 := by
    refine Real.sqrt_le_iff.mpr ⟨by norm_num, ?_⟩
    nlinarith
  have hb := mul_le_mul b2 hq (Real.sqrt_nonneg _) (by norm_num)
  have h4 := C121_outliers_motion_partial (C89_double acos) 0 0 0 le_rfl le_rfl le_rfl (by norm_num [Spec.rowError]) false false DQuat.identity DQuat.identity
    turn_unit turn_unit _ _ _ _ _ _ rfl (by norm_num [Spec.rowError, Spec.preparedError, Spec.relativeError, Spec.rowDualError])
    (table_relative.1.trans (by norm_num)) rfl cfg
    (by rw [h1]; exact table_visible (e1.trans (by norm_num)) _ h2) 0 0 le_rfl le_rfl (by norm_num) svd hsvd bs ws hr (fun _ => h3) rng abort _ two_keeps fuel c
    hc 1 one_pos hs _ rfl (hb.trans (by norm_num)) ⟨0, 0, 0⟩
  rw [show Spec.motion DQuat.identity ⟨0, 0, 0⟩ = ⟨0, 0, 0⟩ from DQuat.motion_one _] at h4
  refine h4.trans ?_
  have z1 : Spec.dist (⟨0, 0, 0⟩ : Vec3) ⟨0, 0, 0⟩ = 0 := by simp [Spec.dist]
  have z2 : Spec.translationLength DQuat.identity = 0 := by simp [Spec.translationLength, DQuat.identity]
  rw [z1, z2]
  refine (mul_le_mul hb (show _ ≤ (7 : ℝ) by linarith) (by linarith) (by norm_num)).trans ?_
  norm_num

/-- The baseline algorithm, with a sixth singular value of one. -/
example (acos : ℝ → ℝ) (cfg : HandEyeConfig) (h2 : 1 ≤ cfg.min_num_inliers) (svd : Svd) (hsvd : ∀ T s V, svd T = .ok (s, V) → Spec.NearSVD 0 0 T s V)
    (bs ws : List DQuat) (hr : (doubleArith acos).preparedPaths false false tableAndRest tableAndOutlier = .ok (bs, ws)) (c : Calibration)
    (hc : (doubleArith acos).baselineCalibration svd cfg (fun b w => .ok (b, w)) bs ws = .ok (some c)) (hs : c.singular_values[5]? = some 1) :
    1 - Spec.cosHalf c.dq_H_E.rot DQuat.identity.rot ^ 2 ≤ 1e-11 ^ 2 * (1 + Spec.translationLength c.dq_H_E ^ 2 / 4) := by
  obtain ⟨e1, e0⟩ := table_relative
  have := (C121_outliers_baseline_partial (C89_double acos) 0 0 0 le_rfl le_rfl le_rfl (by norm_num [Spec.rowError]) false false DQuat.identity DQuat.identity
    turn_unit turn_unit _ _ _ _ _ _ rfl (by norm_num [Spec.rowError, Spec.preparedError, Spec.relativeError, Spec.rowDualError]) rfl cfg
    (table_visible (e1.trans (by norm_num)) _ (by omega)) 0 0 le_rfl le_rfl (by norm_num) svd hsvd bs ws hr _ two_keeps c hc 1 one_pos hs).2
  refine this.trans (mul_le_mul_of_nonneg_right (pow_le_pow_left₀ ?_ ?_ 2) (by positivity))
  · positivity
  · rw [table_length]
    norm_num
    norm_num at e1
    linarith

end HandEye
