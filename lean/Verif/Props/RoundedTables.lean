import Verif.Lemmas.RoundedTables
import Verif.Props.RoundedComplete
import Verif.Props.RoundedRansac

/-! # Property C121: from the tables of poses to the calibration, in floating-point arithmetic -/

namespace HandEye

open Quaternion

section
variable {A : Arith} {u : ℝ} (hA : Spec.Machine u A) (α e R : ℝ) (hα0 : 0 ≤ α) (he : 0 ≤ e) (hR : 0 ≤ R) (hα : Spec.rowError u α ≤ 1 / 100)
  (χ : ℝ) (i₁ i₂ : Bool) (g X : DQuat) (hg : Spec.IsUnit g) (hX : Spec.IsUnit X) (P Q P₀ Q₀ : List Pose)
  (h : Spec.MeasuredTables α e R χ i₁ i₂ g X P Q P₀ Q₀)
include hA hα0 he hR hα h

theorem tables_read : ∃ (v w : List DQuat) (L₀ : List (DQuat × DQuat)), A.tablePoses i₁ P = .ok v ∧ A.tablePoses i₂ Q = .ok w ∧ v.length = P.length ∧ w.length = P.length ∧
    (∀ s ∈ v.zip w, ∃ s₀ ∈ L₀, Spec.RecordedPair (Spec.rowError u α) (Spec.rowDualError u α e R) (R / 2) s s₀) ∧
    (∀ s ∈ L₀, Spec.FitsMotion g X s) ∧ ∀ s ∈ L₀, ∀ t ∈ L₀, χ < Spec.cosHalf s.1.rot t.1.rot := by
  obtain ⟨v, hv, rv⟩ := table_recorded hA hα0 he hR hα i₁ h.first
  obtain ⟨w, hw, rw'⟩ := table_recorded hA hα0 he hR hα i₂ h.second
  have l1 := h.first.length_eq
  have l2 := h.second.length_eq
  have l3 := rv.length_eq
  have l4 := rw'.length_eq
  have l5 := h.same
  rw [List.length_map] at l3 l4
  refine ⟨v, w, (P₀.map (Spec.rowDual i₁)).zip (Q₀.map (Spec.rowDual i₂)), hv, hw, by omega, by omega, ?_, ?_, ?_⟩
  · intro s hs
    obtain ⟨n, hn, rfl⟩ := List.mem_iff_getElem.mp hs
    rw [List.length_zip] at hn
    have h1 : n < v.length := by omega
    have h2 : n < w.length := by omega
    have h3 : n < (P₀.map (Spec.rowDual i₁)).length := by rw [List.length_map]; omega
    have h4 : n < (Q₀.map (Spec.rowDual i₂)).length := by rw [List.length_map]; omega
    refine ⟨((P₀.map (Spec.rowDual i₁))[n], (Q₀.map (Spec.rowDual i₂))[n]), ?_, ?_⟩
    · rw [← List.getElem_zip (h := by rw [List.length_zip]; omega)]
      exact List.getElem_mem _
    · rw [List.getElem_zip]
      exact ⟨rv.get h1 h3, rw'.get h2 h4⟩
  · intro s hs
    rw [List.zip_map, List.mem_map] at hs
    obtain ⟨p, hp, rfl⟩ := hs
    exact h.fits p hp
  · intro s hs t ht
    obtain ⟨p, hp, e1⟩ := List.mem_map.mp (List.of_mem_zip (a := s.1) (b := s.2) hs).1
    obtain ⟨q, hq, e2⟩ := List.mem_map.mp (List.of_mem_zip (a := t.1) (b := t.2) ht).1
    rw [← e1, ← e2, cosHalf_rowDual]
    exact h.turns p hp q hq

include hg hX

/-- What the preparation returns, if it returns. -/
theorem prepared_recorded {bs ws : List DQuat} (hr : A.preparedPaths i₁ i₂ P Q = .ok (bs, ws)) :
    bs.length = P.length ∧ ws.length = P.length ∧ ∃ L₁ : List (DQuat × DQuat),
      (∀ s ∈ bs.zip ws, ∃ s₁ ∈ L₁, Spec.RecordedPair (Spec.preparedError u α e R) (Spec.preparedError u α e R) R s s₁) ∧
      (∀ s ∈ L₁, Spec.FitsMotion X.conj X s) ∧ ∀ s ∈ L₁, ∀ t ∈ L₁, χ < Spec.cosHalf s.1.rot t.1.rot := by
  obtain ⟨v, w, L₀, hv, hw, l1, l2, m1, m2, m3⟩ := tables_read hA α e R hα0 he hR hα χ i₁ i₂ g X P Q P₀ Q₀ h
  unfold Arith.preparedPaths at hr
  rw [hv, Py.ok_bind, hw, Py.ok_bind, pyAssert_pos (l1.trans l2.symm), Py.ok_bind] at hr
  obtain ⟨b, hb, hr⟩ := Py.bind_eq_ok.mp hr
  obtain ⟨c, hc, hr⟩ := Py.bind_eq_ok.mp hr
  cases hr
  have z1 : (v.zip w).map Prod.fst = v := List.map_fst_zip (by omega)
  have z2 : (v.zip w).map Prod.snd = w := List.map_snd_zip (by omega)
  obtain ⟨a1, a2, L₁, a3, a4, a5⟩ := aligned_recorded hA (rowError_nonneg hA.nonneg hα0) hα (rowDualError_nonneg hA.nonneg hα0 he hR) (by positivity) hg hX
    m1 m2 (by rw [z1]; exact hb) (by rw [z2]; exact hc)
  have z3 : (v.zip w).length = P.length := by rw [List.length_zip]; omega
  rw [z3] at a1 a2
  refine ⟨a1, a2, L₁, ?_, a4, ?_⟩
  · rw [show 2 * (R / 2) = R by ring] at a3
    exact a3
  · intro s hs t ht
    obtain ⟨p, hp, q, hq, e1⟩ := a5 s hs t ht
    rw [e1]
    exact m3 p hp q hq

/-- **C121**, the preparation in floating-point arithmetic: let the rows of two tables, of poses or of inverse poses, be measured from true poses that fit the
calibration `X`, with quaternions within `α`, positions within `e` and at most `R` away from the origin.  Then the script reads them and aligns them without an
exception, and gives a recording that fits the same calibration, with errors of at most `preparedError u α e R`: what the other theorems about floating-point
arithmetic suppose. -/
theorem C121_prepared (hu : u ≤ 4e-10) (hD : 60 * u * (R / 2 + Spec.rowDualError u α e R) ≤ 1e-8) (hP : P ≠ [])
    (hχ : Spec.relativeError u (Spec.preparedError u α e R) (Spec.preparedError u α e R) R ≤ χ) :
    ∃ bs ws, A.preparedPaths i₁ i₂ P Q = .ok (bs, ws) ∧ bs.length = P.length ∧
      Spec.FittingRecording u (Spec.preparedError u α e R) (Spec.preparedError u α e R) R X.conj X bs ws := by
  obtain ⟨v, w, L₀, hv, hw, l1, l2, m1, m2, m3⟩ := tables_read hA α e R hα0 he hR hα χ i₁ i₂ g X P Q P₀ Q₀ h
  have hpos : 0 < P.length := List.length_pos_of_ne_nil hP
  have z1 : (v.zip w).map Prod.fst = v := List.map_fst_zip (by omega)
  have z2 : (v.zip w).map Prod.snd = w := List.map_snd_zip (by omega)
  obtain ⟨bs, hb⟩ := align_recorded (A := A) (δ := Spec.rowError u α) (v := v) (i := 0) (k := 0) hA hu hα hD true (by
    intro a ha
    rw [← z1] at ha
    obtain ⟨s, hs, rfl⟩ := List.mem_map.mp ha
    obtain ⟨s₀, _, r⟩ := m1 s hs
    exact ⟨_, r.1⟩) ⟨by omega, .inl rfl⟩
  obtain ⟨ws, hws⟩ := align_recorded (A := A) (δ := Spec.rowError u α) (v := w) (i := 0) (k := 0) hA hu hα hD true (by
    intro a ha
    rw [← z2] at ha
    obtain ⟨s, hs, rfl⟩ := List.mem_map.mp ha
    obtain ⟨s₀, _, r⟩ := m1 s hs
    exact ⟨_, r.2⟩) ⟨by omega, .inl rfl⟩
  have hr : A.preparedPaths i₁ i₂ P Q = .ok (bs, ws) := by
    unfold Arith.preparedPaths
    rw [hv, Py.ok_bind, hw, Py.ok_bind, pyAssert_pos (l1.trans l2.symm), Py.ok_bind, hb, Py.ok_bind, hws]
    rfl
  obtain ⟨a1, a2, L₁, a3, a4, a5⟩ := prepared_recorded hA α e R hα0 he hR hα χ i₁ i₂ g X hg hX P Q P₀ Q₀ h hr
  exact ⟨bs, ws, hr, a1, a2.trans a1.symm, L₁, a3, a4, fun s hs t ht => hχ.trans_lt (a5 s hs t ht)⟩

/-- **C121**, the first set of inliers: of tables that fit, the baseline algorithm after the preparation takes all pairs for inliers. -/
theorem C121_baseline (hu : u ≤ 4e-10) (hD : 60 * u * (R / 2 + Spec.rowDualError u α e R) ≤ 1e-8)
    (hη : Spec.preparedError u α e R ≤ 1 / 100) (hD' : 60 * u * (R + Spec.preparedError u α e R) ≤ 1e-8)
    (hχ : Spec.relativeError u (Spec.preparedError u α e R) (Spec.preparedError u α e R) R ≤ χ)
    (hε : Spec.neededTolerance u (Spec.preparedError u α e R) (Spec.preparedError u α e R) R ≤ 1e-2) (m : ℕ) (hm : m < P.length) :
    ∃ bs ws bs' ws', A.preparedPaths i₁ i₂ P Q = .ok (bs, ws) ∧ A.firstInliers m bs ws (List.range ws.length) = .ok (0, bs', ws') ∧
      bs'.length = P.length ∧ ws'.length = P.length := by
  obtain ⟨bs, ws, hr, hl, hf⟩ := C121_prepared hA α e R hα0 he hR hα χ i₁ i₂ g X hg hX P Q P₀ Q₀ h hu hD
    (by rintro rfl; simp at hm) hχ
  have hη0 : 0 ≤ Spec.preparedError u α e R :=
    relativeError_nonneg hA.nonneg (rowError_nonneg hA.nonneg hα0) (rowDualError_nonneg hA.nonneg hα0 he hR) (by positivity)
  obtain ⟨bs', ws', _, _, c1, c2, c3⟩ := C119_baseline hA hu _ _ R hη0 hη hη0 hR hD' X.conj X (DQuat.isUnit_conj hX) hX bs ws hf hε m (by omega)
  exact ⟨bs, ws, bs', ws', hr, c3, by omega, by omega⟩

/-- **C121**, the rotation: what RANSAC returns for the prepared tables, for every choice of samples, both ways to classify inliers, with and without refinement
or exhaustive search, and every prefilter.  `ε` is the error of the prepared poses and `η` the one of the motions between them.
Partial: no two poses of the hand may be within `η` of a half turn of each other, and `ε` is at most 1/100. -/
theorem C121_rotation_partial (κ ω : ℝ) (hκ : 0 ≤ κ) (hω : 0 ≤ ω) (hω1 : ω ≤ 1 / 1000) (svd : Svd)
    (hsvd : ∀ T s V, svd T = .ok (s, V) → Spec.NearSVD κ ω T s V) (ε η : ℝ) (hε : ε = Spec.preparedError u α e R) (hε1 : ε ≤ 1 / 100)
    (hη1 : Spec.relativeError u ε ε R ≤ 1 / 10) (hη : η = Spec.normalisedError u (Spec.relativeError u ε ε R) R) (hχ : η ≤ χ)
    (bs ws : List DQuat) (hr : A.preparedPaths i₁ i₂ P Q = .ok (bs, ws)) (cfg : HandEyeConfig) (rng : ℕ → List ℕ) (abort : ℕ → Py Bool)
    (filter : List DQuat → List DQuat → Py (List DQuat × List DQuat)) (hfi : Spec.KeepsPairs filter) (fuel : ℕ) (c : FloatCandidate)
    (hc : A.ransac svd rng abort cfg filter bs ws fuel = .ok (some (some c))) (σ : ℝ) (hσ : 0 < σ) (hs : c.calibration.singular_values[5]? = some σ) :
    |Spec.len c.calibration.dq_H_E.rot - 1| ≤ 9 * u ∧
    1 - Spec.cosHalf c.calibration.dq_H_E.rot X.rot ^ 2 ≤
      (1.1 * (4 * (η + (u + 1.001 * κ) * (1 + 2 * R + η)) * Real.sqrt P.length / σ) + 25 * u + 2.2 * ω) ^ 2 *
        (1 + Spec.translationLength c.calibration.dq_H_E ^ 2 / 4) := by
  obtain ⟨a1, a2, L₁, a3, a4, a5⟩ := prepared_recorded hA α e R hα0 he hR hα χ i₁ i₂ g X hg hX P Q P₀ Q₀ h hr
  have hε0 : 0 ≤ ε := by
    rw [hε]
    exact relativeError_nonneg hA.nonneg (rowError_nonneg hA.nonneg hα0) (rowDualError_nonneg hA.nonneg hα0 he hR) (by positivity)
  rw [← hε] at a3
  rw [← a1]
  exact C117_rotation_partial hA κ ω hκ hω hω1 svd hsvd ε ε R hε0 hε1 hε0 hR hη1 X.conj X (DQuat.isUnit_conj hX) hX bs ws L₁ a3 a4 η hη
    (fun s hs t ht => hχ.trans_lt (a5 s hs t ht)) cfg rng abort filter hfi fuel c hc σ hσ hs

/-- **C121**, the whole motion: if `ρ`, the bound of the rotation, is at most one half, then every point `p` is moved to within `ρ (2 |p| + 4 + 4 |t₀| + 3 |t|)` of
where the true calibration moves it.  Partial for the same reasons. -/
theorem C121_motion_partial (κ ω : ℝ) (hκ : 0 ≤ κ) (hω : 0 ≤ ω) (hω1 : ω ≤ 1 / 1000) (svd : Svd)
    (hsvd : ∀ T s V, svd T = .ok (s, V) → Spec.NearSVD κ ω T s V) (ε η : ℝ) (hε : ε = Spec.preparedError u α e R) (hε1 : ε ≤ 1 / 100)
    (hη1 : Spec.relativeError u ε ε R ≤ 1 / 10) (hη : η = Spec.normalisedError u (Spec.relativeError u ε ε R) R) (hχ : η ≤ χ)
    (bs ws : List DQuat) (hr : A.preparedPaths i₁ i₂ P Q = .ok (bs, ws)) (cfg : HandEyeConfig) (rng : ℕ → List ℕ) (abort : ℕ → Py Bool)
    (filter : List DQuat → List DQuat → Py (List DQuat × List DQuat)) (hfi : Spec.KeepsPairs filter) (fuel : ℕ) (c : FloatCandidate)
    (hc : A.ransac svd rng abort cfg filter bs ws fuel = .ok (some (some c))) (σ : ℝ) (hσ : 0 < σ) (hs : c.calibration.singular_values[5]? = some σ) (ρ : ℝ)
    (hρ : ρ = (1.1 * (4 * (η + (u + 1.001 * κ) * (1 + 2 * R + η)) * Real.sqrt P.length / σ) + 25 * u + 2.2 * ω) *
      Real.sqrt (1 + Spec.translationLength c.calibration.dq_H_E ^ 2 / 4)) (hρ2 : ρ ≤ 1 / 2) (p : Vec3) :
    Spec.dist (Spec.motion c.calibration.dq_H_E p) (Spec.motion X p) ≤
      ρ * (2 * Spec.dist p ⟨0, 0, 0⟩ + 4 + 4 * Spec.translationLength X + 3 * Spec.translationLength c.calibration.dq_H_E) := by
  obtain ⟨a1, a2, L₁, a3, a4, a5⟩ := prepared_recorded hA α e R hα0 he hR hα χ i₁ i₂ g X hg hX P Q P₀ Q₀ h hr
  have hε0 : 0 ≤ ε := by
    rw [hε]
    exact relativeError_nonneg hA.nonneg (rowError_nonneg hA.nonneg hα0) (rowDualError_nonneg hA.nonneg hα0 he hR) (by positivity)
  rw [← hε] at a3
  rw [← a1] at hρ
  exact C117_motion_partial hA κ ω hκ hω hω1 svd hsvd ε ε R hε0 hε1 hε0 hR hη1 X.conj X (DQuat.isUnit_conj hX) hX bs ws L₁ a3 a4 η hη
    (fun s hs t ht => hχ.trans_lt (a5 s hs t ht)) cfg rng abort filter hfi fuel c hc σ hσ hs ρ hρ hρ2 p

end

/-- True poses: at rest at the origin, and a third of a turn one metre away. -/
noncomputable def rowsTrue : List Pose := [⟨⟨0, 0, 0⟩, ⟨0, 0, 0, 1⟩⟩, ⟨⟨1, 0, 0⟩, ⟨1 / 2, 1 / 2, 1 / 2, 1 / 2⟩⟩]

theorem rows_exact : List.Forall₂ (Spec.MeasuredPose 0 0 1) rowsTrue rowsTrue := by
  refine .cons ⟨?_, ?_, ?_, ?_⟩ (.cons ⟨?_, ?_, ?_, ?_⟩ .nil) <;>
    simp only [Spec.len, Spec.gap, Spec.dist] <;>
    first
    | (rw [Real.sqrt_eq_one]; norm_num)
    | (refine Real.sqrt_le_iff.mpr ⟨by norm_num, ?_⟩; norm_num)

/-- The same with an error of 0.1 mm in the first row and one in the quaternion of the second row, which is not of length one. -/
noncomputable def rowsMeasured : List Pose := [⟨⟨0, 0, 1e-4⟩, ⟨0, 0, 0, 1⟩⟩, ⟨⟨1, 0, 0⟩, ⟨1 / 2, 1 / 2, 1 / 2, 0.5001⟩⟩]

theorem rows_measured : List.Forall₂ (Spec.MeasuredPose 1e-4 1e-4 1) rowsMeasured rowsTrue := by
  refine .cons ⟨?_, ?_, ?_, ?_⟩ (.cons ⟨?_, ?_, ?_, ?_⟩ .nil) <;>
    simp only [Spec.len, Spec.gap, Spec.dist] <;>
    first
    | (rw [Real.sqrt_eq_one]; norm_num)
    | (refine Real.sqrt_le_iff.mpr ⟨by norm_num, ?_⟩; norm_num)

theorem rows_tables (i : Bool) : Spec.MeasuredTables 1e-4 1e-4 1 (1 / 4) i i DQuat.identity DQuat.identity rowsMeasured rowsMeasured rowsTrue rowsTrue := by
  refine ⟨rows_measured, rows_measured, rfl, ?_, ?_⟩
  · intro p hp
    have e : p.2 = p.1 := by
      simp only [rowsTrue, List.zip_cons_cons, List.zip_nil_left, List.mem_cons, List.not_mem_nil, or_false] at hp
      rcases hp with rfl | rfl <;> rfl
    rw [e]
    intro x
    have hid : ∀ y, Spec.motion DQuat.identity y = y := fun y => DQuat.motion_one y
    rw [hid, hid]
  · intro p hp q hq
    simp only [rowsTrue, List.mem_cons, List.not_mem_nil, or_false] at hp hq
    rcases hp with rfl | rfl <;> rcases hq with rfl | rfl <;> norm_num [Spec.cosHalf]

theorem rows_error : Spec.rowError (2⁻¹ ^ 53) 1e-4 ≤ 1 / 100 ∧ Spec.preparedError (2⁻¹ ^ 53) 1e-4 1e-4 1 ≤ 1.7e-3 := by
  constructor <;> norm_num [Spec.rowError, Spec.preparedError, Spec.relativeError, Spec.rowDualError]

/-- The rows are prepared, whether they are poses or inverse poses. -/
example (acos : ℝ → ℝ) (i : Bool) : ∃ bs ws, (doubleArith acos).preparedPaths i i rowsMeasured rowsMeasured = .ok (bs, ws) ∧ bs.length = 2 ∧
    Spec.FittingRecording (2⁻¹ ^ 53) (Spec.preparedError (2⁻¹ ^ 53) 1e-4 1e-4 1) (Spec.preparedError (2⁻¹ ^ 53) 1e-4 1e-4 1) 1 DQuat.identity.conj
      DQuat.identity bs ws := by
  refine C121_prepared (C89_double acos) 1e-4 1e-4 1 (by norm_num) (by norm_num) (by norm_num) rows_error.1 (1 / 4) i i DQuat.identity DQuat.identity
    turn_unit turn_unit _ _ _ _ (rows_tables i) (by norm_num) ?_ (by simp [rowsMeasured]) ?_
  · norm_num [Spec.rowDualError]
  · norm_num [Spec.rowError, Spec.preparedError, Spec.relativeError, Spec.rowDualError]

/-- Without errors of the measurement both rows are inliers, in spite of the rounding. -/
example (acos : ℝ → ℝ) (i : Bool) : ∃ bs ws bs' ws', (doubleArith acos).preparedPaths i i rowsTrue rowsTrue = .ok (bs, ws) ∧
    (doubleArith acos).firstInliers 1 bs ws (List.range ws.length) = .ok (0, bs', ws') ∧ bs'.length = 2 ∧ ws'.length = 2 := by
  refine C121_baseline (C89_double acos) 0 0 1 (by norm_num) (by norm_num) (by norm_num) (by norm_num [Spec.rowError]) (1 / 4) i i DQuat.identity
    DQuat.identity turn_unit turn_unit rowsTrue rowsTrue rowsTrue rowsTrue ⟨rows_exact, rows_exact, rfl, (rows_tables i).fits, (rows_tables i).turns⟩
    (by norm_num) ?_ ?_ ?_ ?_ ?_ 1 (by simp [rowsTrue]) <;>
    norm_num [Spec.rowError, Spec.preparedError, Spec.relativeError, Spec.rowDualError, Spec.neededTolerance]

theorem rows_motion_pos : 0 ≤ Spec.normalisedError (2⁻¹ ^ 53) (Spec.relativeError (2⁻¹ ^ 53) (Spec.preparedError (2⁻¹ ^ 53) 1e-4 1e-4 1)
    (Spec.preparedError (2⁻¹ ^ 53) 1e-4 1e-4 1) 1) 1 := by
  norm_num [Spec.rowError, Spec.preparedError, Spec.relativeError, Spec.rowDualError, Spec.normalisedError]

/-- The errors of 0.1 mm and 0.0001 make one of less than a tenth in the motions between the prepared poses. -/
theorem rows_motion_error : Spec.normalisedError (2⁻¹ ^ 53) (Spec.relativeError (2⁻¹ ^ 53) (Spec.preparedError (2⁻¹ ^ 53) 1e-4 1e-4 1)
    (Spec.preparedError (2⁻¹ ^ 53) 1e-4 1e-4 1) 1) 1 ≤ 1 / 10 ∧ Spec.relativeError (2⁻¹ ^ 53) (Spec.preparedError (2⁻¹ ^ 53) 1e-4 1e-4 1)
    (Spec.preparedError (2⁻¹ ^ 53) 1e-4 1e-4 1) 1 ≤ 1 / 10 := by
  constructor <;> norm_num [Spec.rowError, Spec.preparedError, Spec.relativeError, Spec.rowDualError, Spec.normalisedError]

theorem rows_bound {η : ℝ} (h0 : 0 ≤ η) (hη : η ≤ 1 / 10) :
    0 ≤ 1.1 * (4 * (η + (2⁻¹ ^ 53 + 1.001 * 0) * (1 + 2 * 1 + η)) * Real.sqrt 2 / 100) + 25 * 2⁻¹ ^ 53 + 2.2 * 0 ∧
    1.1 * (4 * (η + (2⁻¹ ^ 53 + 1.001 * 0) * (1 + 2 * 1 + η)) * Real.sqrt 2 / 100) + 25 * 2⁻¹ ^ 53 + 2.2 * 0 ≤ 7e-3 := by
  have h2 : Real.sqrt 2 ≤ 1.5 := Real.sqrt_le_iff.mpr ⟨by norm_num, by norm_num⟩
  refine ⟨by positivity, ?_⟩
  have : 1.1 * (4 * (η + (2⁻¹ ^ 53 + 1.001 * 0) * (1 + 2 * 1 + η)) * Real.sqrt 2 / 100) ≤
      1.1 * (4 * (1 / 10 + (2⁻¹ ^ 53 + 1.001 * 0) * (1 + 2 * 1 + 1 / 10)) * 1.5 / 100) := by gcongr
  refine (add_le_add_left (add_le_add_left this _) _).trans ?_
  norm_num

/-- What a run on these rows may return, with a singular value decomposition without errors and a sixth singular value of 100. -/
example (acos : ℝ → ℝ) (i : Bool) (svd : Svd) (hsvd : ∀ T s V, svd T = .ok (s, V) → Spec.NearSVD 0 0 T s V) (bs ws : List DQuat)
    (hr : (doubleArith acos).preparedPaths i i rowsMeasured rowsMeasured = .ok (bs, ws)) (cfg : HandEyeConfig) (rng : ℕ → List ℕ) (abort : ℕ → Py Bool)
    (fuel : ℕ) (c : FloatCandidate) (hc : (doubleArith acos).ransac svd rng abort cfg (fun b w => .ok (b, w)) bs ws fuel = .ok (some (some c)))
    (hs : c.calibration.singular_values[5]? = some 100) : |Spec.len c.calibration.dq_H_E.rot - 1| ≤ 9 * 2⁻¹ ^ 53 ∧
      1 - Spec.cosHalf c.calibration.dq_H_E.rot DQuat.identity.rot ^ 2 ≤ 7e-3 ^ 2 * (1 + Spec.translationLength c.calibration.dq_H_E ^ 2 / 4) := by
  obtain ⟨h1, h2⟩ := C121_rotation_partial (C89_double acos) 1e-4 1e-4 1 (by norm_num) (by norm_num) (by norm_num) rows_error.1 (1 / 4) i i DQuat.identity
    DQuat.identity turn_unit turn_unit _ _ _ _ (rows_tables i) 0 0 le_rfl le_rfl (by norm_num) svd hsvd _ _ rfl (rows_error.2.trans (by norm_num))
    rows_motion_error.2 rfl (rows_motion_error.1.trans (by norm_num)) bs ws hr cfg rng abort _ two_keeps fuel c hc 100 (by norm_num) hs
  refine ⟨h1, h2.trans ?_⟩
  obtain ⟨b1, b2⟩ := rows_bound rows_motion_pos rows_motion_error.1
  exact mul_le_mul_of_nonneg_right (pow_le_pow_left₀ b1 b2 2) (by positivity)

/-- If such a run gives a translation of at most a metre, the point at the origin is moved by at most 7 cm. -/
example (acos : ℝ → ℝ) (i : Bool) (svd : Svd) (hsvd : ∀ T s V, svd T = .ok (s, V) → Spec.NearSVD 0 0 T s V) (bs ws : List DQuat)
    (hr : (doubleArith acos).preparedPaths i i rowsMeasured rowsMeasured = .ok (bs, ws)) (cfg : HandEyeConfig) (rng : ℕ → List ℕ) (abort : ℕ → Py Bool)
    (fuel : ℕ) (c : FloatCandidate) (hc : (doubleArith acos).ransac svd rng abort cfg (fun b w => .ok (b, w)) bs ws fuel = .ok (some (some c)))
    (hs : c.calibration.singular_values[5]? = some 100) (ht : Spec.translationLength c.calibration.dq_H_E ≤ 1) :
    Spec.dist (Spec.motion c.calibration.dq_H_E ⟨0, 0, 0⟩) ⟨0, 0, 0⟩ ≤ 7e-2 := by
  obtain ⟨b1, b2⟩ := rows_bound rows_motion_pos rows_motion_error.1
  have ht0 : 0 ≤ Spec.translationLength c.calibration.dq_H_E := by rw [translationLength_eq]; positivity
  have hq : Real.sqrt (1 + Spec.translationLength c.calibration.dq_H_E ^ 2 / 4) ≤ 1.2 := by
    refine Real.sqrt_le_iff.mpr ⟨by norm_num, ?_⟩
    nlinarith
  have hb := mul_le_mul b2 hq (Real.sqrt_nonneg _) (by norm_num)
  have h2 := C121_motion_partial (C89_double acos) 1e-4 1e-4 1 (by norm_num) (by norm_num) (by norm_num) rows_error.1 (1 / 4) i i DQuat.identity
    DQuat.identity turn_unit turn_unit _ _ _ _ (rows_tables i) 0 0 le_rfl le_rfl (by norm_num) svd hsvd _ _ rfl (rows_error.2.trans (by norm_num))
    rows_motion_error.2 rfl (rows_motion_error.1.trans (by norm_num)) bs ws hr cfg rng abort _ two_keeps fuel c hc 100 (by norm_num) hs _ rfl
    (hb.trans (by norm_num)) ⟨0, 0, 0⟩
  rw [show Spec.motion DQuat.identity ⟨0, 0, 0⟩ = ⟨0, 0, 0⟩ from DQuat.motion_one _] at h2
  refine h2.trans ((mul_le_mul hb (show _ ≤ (7 : ℝ) from ?_) (by rw [dist_toH, translationLength_eq DQuat.identity]; positivity) (by norm_num)).trans (by norm_num))
  have z1 : Spec.dist (⟨0, 0, 0⟩ : Vec3) ⟨0, 0, 0⟩ = 0 := by simp [Spec.dist]
  have z2 : Spec.translationLength DQuat.identity = 0 := by simp [Spec.translationLength, DQuat.identity]
  rw [z1, z2]
  linarith

end HandEye
