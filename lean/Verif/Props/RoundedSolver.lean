import Verif.Lemmas.MotionError
import Verif.Props.RoundedEval3

/-! # Property C115: the hand-eye solver in floating-point arithmetic, with an inexact singular value decomposition -/

open Quaternion Matrix

namespace HandEye

theorem calibrate_eq_ok {A : Arith} {svd : Svd} {bs ws : List DQuat} {tol : ℝ} {enf : Bool} {r : Calibration}
    (h : A.calibrate svd bs ws tol enf = .ok r) :
    ∃ T V, (if enf then enforceSameSign bs ws else .ok ws) = .ok r.dq_W_E_vec ∧ A.setupT bs r.dq_W_E_vec = .ok T ∧
      svd T = .ok (r.singular_values, V) ∧ r.bad_singular_values = badSingularValues r.singular_values ∧
      A.kernel (splitRow (V 6)) (splitRow (V 7)) = .ok r.dq_H_E := by
  unfold Arith.calibrate at h
  obtain ⟨b0, _, h⟩ := Py.bind_eq_ok.mp h
  obtain ⟨_, _, h⟩ := Py.bind_eq_ok.mp h
  obtain ⟨w0, _, h⟩ := Py.bind_eq_ok.mp h
  obtain ⟨_, _, h⟩ := Py.bind_eq_ok.mp h
  have hsplit : ∃ ws', (if enf then enforceSameSign bs ws else .ok ws) = .ok ws' ∧
      (A.gate tol bs ws' >>= fun _ => A.setupT bs ws' >>= fun T => svd T >>= fun p =>
        A.kernel (splitRow (p.2 6)) (splitRow (p.2 7)) >>= fun dq =>
          (pure ⟨dq, p.1, badSingularValues p.1, ws'⟩ : Py Calibration)) = .ok r := by
    cases enf with
    | true =>
      obtain ⟨ws', h1, h2⟩ := Py.bind_eq_ok.mp h
      exact ⟨ws', h1, h2⟩
    | false => exact ⟨ws, rfl, h⟩
  obtain ⟨ws', h1, h⟩ := hsplit
  obtain ⟨_, _, h⟩ := Py.bind_eq_ok.mp h
  obtain ⟨T, hT, h⟩ := Py.bind_eq_ok.mp h
  obtain ⟨⟨s, V⟩, hV, h⟩ := Py.bind_eq_ok.mp h
  obtain ⟨dq, hk, h⟩ := Py.bind_eq_ok.mp h
  cases h
  exact ⟨T, V, h1, hT, hV, rfl, hk⟩

/-- The factor that the noise, the rounding errors and the errors of the singular value decomposition have in common. -/
theorem calibrate_decomposition {u κ ω η M : ℝ} {A : Arith} (hA : Spec.Machine u A) (hκ : 0 ≤ κ) (hω : 0 ≤ ω) (hω1 : ω ≤ 1 / 1000) {svd : Svd}
    (hsvd : ∀ T s V, svd T = .ok (s, V) → Spec.NearSVD κ ω T s V) (h0 : 0 ≤ η) (hM : 0 ≤ M) {X : DQuat} (hX : Spec.IsUnit X) {enf : Bool}
    {bs ws bs₀ ws₀ : List DQuat} (he : Spec.Exact bs₀ ws₀ X) (hm : Spec.Measured enf η bs₀ ws₀ bs ws)
    (hMb : ∀ b ∈ bs, Spec.sumSq (Spec.vec8 b) ≤ M ^ 2) (hMw : ∀ w ∈ ws, Spec.sumSq (Spec.vec8 w) ≤ M ^ 2) {tol : ℝ} {r : Calibration}
    (h : A.calibrate svd bs ws tol enf = .ok r) {σ : ℝ} (hσ : 0 < σ) (hs : r.singular_values[5]? = some σ) :
    |‖r.dq_H_E.rot.toH‖ - 1| ≤ 9 * u ∧
    ∃ (α β : ℝ) (er ed : ℍ[ℝ]), r.dq_H_E.rot.toH = α • X.rot.toH + er ∧ r.dq_H_E.dual.toH = α • X.dual.toH + β • X.rot.toH + ed ∧
      ‖er‖ ^ 2 + ‖ed‖ ^ 2 ≤ ((1.02 * (4 * (η + (u + 1.001 * κ) * M) * Real.sqrt bs.length / σ) + 5 * u + 2 * ω) *
        Real.sqrt (1 + Spec.translationLength r.dq_H_E ^ 2 / 4) * ‖r.dq_H_E.rot.toH‖) ^ 2 := by
  have hu := hA.nonneg
  have hu1 := hA.small
  obtain ⟨T, V, hsign, hT, hV, _, hk⟩ := calibrate_eq_ok h
  obtain ⟨T', V', hl, hd, hIs, hnear⟩ := hsvd _ _ _ hV
  have hMw' : ∀ w ∈ r.dq_W_E_vec, Spec.sumSq (Spec.vec8 w) ≤ M ^ 2 := by
    intro w hw
    cases enf with
    | false => cases hsign; exact hMw w hw
    | true =>
      obtain ⟨v, hv, e⟩ := enforceSameSign_mem hsign w hw
      rcases e with rfl | rfl
      · exact hMw _ hv
      · refine le_trans (le_of_eq ?_) (hMw v hv)
        rw [sumSq_vec8, sumSq_vec8, DQuat.neg_rot, DQuat.neg_dual, Quat.toH_neg, Quat.toH_neg, norm_neg, norm_neg]
  have hwn := used_near h0 hX he hm hsign
  obtain ⟨T₀, hT₀, _, s1, s2⟩ := C25_true_calibration_solves bs₀ ws₀ X hX he
  rw [setupTMatrix_rows hT₀] at s1 s2
  set γ := 4 * (η + (u + 1.001 * κ) * M) * Real.sqrt bs.length / σ with hγ
  have hγ0 : 0 ≤ γ := by rw [hγ]; positivity
  have hoff : ∀ (a b : ℝ) (y : Fin 8 → ℝ), y = a • Spec.vec8 X + b • Spec.vec8 ⟨⟨0, 0, 0, 0⟩, X.rot⟩ →
      Spec.sumSq y - (V' *ᵥ y) 6 ^ 2 - (V' *ᵥ y) 7 ^ 2 ≤ γ ^ 2 * Spec.sumSq y := by
    intro a b y hy
    have hsol : Spec.Solves (systemRows bs₀ ws₀) y := by
      intro row hrow
      have e1 := s1 row hrow
      have e2 := s2 row hrow
      have : ∑ j, row j * y j = a * ∑ j, row j * Spec.vec8 X j + b * ∑ j, row j * Spec.vec8 ⟨⟨0, 0, 0, 0⟩, X.rot⟩ j := by
        rw [hy, Finset.mul_sum, Finset.mul_sum, ← Finset.sum_add_distrib]
        exact Finset.sum_congr rfl fun j _ => by simp only [Pi.add_apply, Pi.smul_apply, smul_eq_mul]; ring
      rw [this, e1, e2]; ring
    have e2 := rounded_residual hA h0 hM hκ hT hm.hand hwn hsol hMb hMw' hl hd
    have h6 : 6 ≤ r.singular_values.length := by
      have := (List.getElem?_eq_some_iff.mp hs).1
      omega
    have e := off_plane_le hIs h6 y
    rw [List.getD_eq_getElem?_getD, hs] at e
    have e' : σ ^ 2 * (Spec.sumSq y - (V' *ᵥ y) 6 ^ 2 - (V' *ᵥ y) 7 ^ 2) ≤ (4 * (η + (u + 1.001 * κ) * M)) ^ 2 * bs.length * Spec.sumSq y := e.trans e2
    rw [hγ, div_pow, mul_pow _ (Real.sqrt _), Real.sq_sqrt (by positivity), div_mul_eq_mul_div, le_div_iff₀ (by positivity)]
    linarith
  obtain ⟨k, l, m, hq, hr⟩ := kernel_near hA hk
  have hq' : ∀ j, |Spec.vec8 r.dq_H_E j - k * (l * V 6 j + m * V 7 j)| ≤ |k| * (3.01 * u * (|l * V 6 j| + |m * V 7 j|)) := by
    intro j
    have e6 : Spec.vec8 (splitRow (V 6)) j = V 6 j := by fin_cases j <;> rfl
    have e7 : Spec.vec8 (splitRow (V 7)) j = V 7 j := by fin_cases j <;> rfl
    have := hq j
    rwa [e6, e7] at this
  obtain ⟨α, β, er, ed, d1, d2, d3⟩ := rounded_decomposition hu hu1 hω hω1 hγ0 hIs.orthogonal hnear hq' hX hoff
  refine ⟨hr, α, β, er, ed, d1, d2, d3.trans ?_⟩
  rw [mul_pow, mul_pow, Real.sq_sqrt (by positivity), translationLength_eq]
  obtain ⟨n1, n2⟩ := abs_le.mp hr
  have n3 : 0.991 ≤ ‖r.dq_H_E.rot.toH‖ := by linarith
  generalize ‖r.dq_H_E.rot.toH‖ = N at *
  generalize ‖r.dq_H_E.dual.toH‖ = D at *
  have k1 : 0.982081 ≤ N ^ 2 := by nlinarith
  have k2 : N ^ 2 + D ^ 2 ≤ 1.01825 * ((1 + D ^ 2) * N ^ 2) := by
    have := sq_nonneg D
    have : 0.982081 * D ^ 2 ≤ N ^ 2 * D ^ 2 := mul_le_mul_of_nonneg_right k1 this
    nlinarith
  have k3 : 1.00909 * (1.01 * γ + 4.4 * u + 1.5 * ω) ≤ 1.02 * γ + 5 * u + 2 * ω := by linarith
  have k4 : (1.00909 * (1.01 * γ + 4.4 * u + 1.5 * ω)) ^ 2 ≤ (1.02 * γ + 5 * u + 2 * ω) ^ 2 := pow_le_pow_left₀ (by positivity) k3 2
  have k5 : 0 ≤ (1 + D ^ 2) * N ^ 2 := by positivity
  calc (1.01 * γ + 4.4 * u + 1.5 * ω) ^ 2 * (N ^ 2 + D ^ 2) ≤ (1.01 * γ + 4.4 * u + 1.5 * ω) ^ 2 * (1.01825 * ((1 + D ^ 2) * N ^ 2)) := by gcongr
    _ ≤ (1.00909 * (1.01 * γ + 4.4 * u + 1.5 * ω)) ^ 2 * ((1 + D ^ 2) * N ^ 2) := by
      rw [mul_pow]
      have : 0 ≤ (1.01 * γ + 4.4 * u + 1.5 * ω) ^ 2 * ((1 + D ^ 2) * N ^ 2) := by positivity
      nlinarith
    _ ≤ (1.02 * γ + 5 * u + 2 * ω) ^ 2 * ((1 + D ^ 2) * N ^ 2) := mul_le_mul_of_nonneg_right k4 k5
    _ = _ := by ring

/-- **C115**, the rotation, in floating-point arithmetic: let every rounding have a relative error of at most `u`, and let the singular
value decomposition be that of a matrix within `κ` of the given one, with rows of `V` within `ω`.  Then the sine of half the angle between the
returned rotation and the true one is at most `(1.02 · 4 (η + (u + 1.001 κ) M) √n / σ + 5 u + 2 ω) √(1 + |t|² / 4)`: the errors of the computation count
as much as an additional error `(u + 1.001 κ) M` of every pose, where `M` bounds the size of the poses, and `5 u + 2 ω`.  The returned rotation has length 1
up to `9 u`.  Partial: as for C85, with the loop over the signs no rotation may be within `η` of a half turn. -/
theorem C115_rotation_partial {u : ℝ} {A : Arith} (hA : Spec.Machine u A) (κ ω : ℝ) (hκ : 0 ≤ κ) (hω : 0 ≤ ω) (hω1 : ω ≤ 1 / 1000) (svd : Svd)
    (hsvd : ∀ T s V, svd T = .ok (s, V) → Spec.NearSVD κ ω T s V) (η M : ℝ) (h0 : 0 ≤ η) (hM : 0 ≤ M) (X : DQuat) (hX : Spec.IsUnit X) (enf : Bool)
    (bs ws bs₀ ws₀ : List DQuat) (he : Spec.Exact bs₀ ws₀ X) (hm : Spec.Measured enf η bs₀ ws₀ bs ws)
    (hMb : ∀ b ∈ bs, Spec.sumSq (Spec.vec8 b) ≤ M ^ 2) (hMw : ∀ w ∈ ws, Spec.sumSq (Spec.vec8 w) ≤ M ^ 2) (tol : ℝ) (r : Calibration)
    (h : A.calibrate svd bs ws tol enf = .ok r) (σ : ℝ) (hσ : 0 < σ) (hs : r.singular_values[5]? = some σ) :
    |Spec.len r.dq_H_E.rot - 1| ≤ 9 * u ∧
    1 - Spec.cosHalf r.dq_H_E.rot X.rot ^ 2 ≤ (1.02 * (4 * (η + (u + 1.001 * κ) * M) * Real.sqrt bs.length / σ) + 5 * u + 2 * ω) ^ 2 *
      (1 + Spec.translationLength r.dq_H_E ^ 2 / 4) := by
  obtain ⟨hr, α, β, er, ed, d1, _, d3⟩ := calibrate_decomposition hA hκ hω hω1 hsvd h0 hM hX he hm hMb hMw h hσ hs
  have hpos : 0 < ‖r.dq_H_E.rot.toH‖ := by linarith [(abs_le.mp hr).1, hA.small]
  refine ⟨by rw [len_eq]; exact hr, ?_⟩
  refine (angle_estimate hX hpos d1 (le_trans ?_ d3)).trans (le_of_eq ?_)
  · linarith [sq_nonneg ‖ed‖]
  · rw [mul_pow, Real.sq_sqrt (by positivity)]

/-- **C115**, the whole motion, in floating-point arithmetic: if `ρ`, the bound of the rotation, is at most one half, then every point `p` is moved to within
`ρ (2 |p| + 4 + 4 |t₀| + 3 |t|)` of where the true calibration moves it.  The returned dual quaternion need not be rigid (see `C115_rigid_refuted`).
Partial for the same reason. -/
theorem C115_motion_partial {u : ℝ} {A : Arith} (hA : Spec.Machine u A) (κ ω : ℝ) (hκ : 0 ≤ κ) (hω : 0 ≤ ω) (hω1 : ω ≤ 1 / 1000) (svd : Svd)
    (hsvd : ∀ T s V, svd T = .ok (s, V) → Spec.NearSVD κ ω T s V) (η M : ℝ) (h0 : 0 ≤ η) (hM : 0 ≤ M) (X : DQuat) (hX : Spec.IsUnit X) (enf : Bool)
    (bs ws bs₀ ws₀ : List DQuat) (he : Spec.Exact bs₀ ws₀ X) (hm : Spec.Measured enf η bs₀ ws₀ bs ws)
    (hMb : ∀ b ∈ bs, Spec.sumSq (Spec.vec8 b) ≤ M ^ 2) (hMw : ∀ w ∈ ws, Spec.sumSq (Spec.vec8 w) ≤ M ^ 2) (tol : ℝ) (r : Calibration)
    (h : A.calibrate svd bs ws tol enf = .ok r) (σ : ℝ) (hσ : 0 < σ) (hs : r.singular_values[5]? = some σ) (ρ : ℝ)
    (hρ : ρ = (1.02 * (4 * (η + (u + 1.001 * κ) * M) * Real.sqrt bs.length / σ) + 5 * u + 2 * ω) *
      Real.sqrt (1 + Spec.translationLength r.dq_H_E ^ 2 / 4)) (hρ2 : ρ ≤ 1 / 2) (p : Vec3) :
    Spec.dist (Spec.motion r.dq_H_E p) (Spec.motion X p) ≤
      ρ * (2 * Spec.dist p ⟨0, 0, 0⟩ + 4 + 4 * Spec.translationLength X + 3 * Spec.translationLength r.dq_H_E) := by
  have hu := hA.nonneg
  obtain ⟨hr, α, β, er, ed, d1, d2, d3⟩ := calibrate_decomposition hA hκ hω hω1 hsvd h0 hM hX he hm hMb hMw h hσ hs
  have hN : 0.991 ≤ ‖r.dq_H_E.rot.toH‖ := by linarith [(abs_le.mp hr).1, hA.small]
  rw [← hρ] at d3
  have hρ0 : 0 ≤ ρ := by rw [hρ]; positivity
  refine (motion_estimate hX (by linarith) d1 d2 d3 hρ0 hρ2 p).trans ?_
  have ht : 0 ≤ Spec.translationLength r.dq_H_E := by rw [translationLength_eq]; positivity
  have : 2 * (Spec.translationLength r.dq_H_E / ‖r.dq_H_E.rot.toH‖) ≤ 3 * Spec.translationLength r.dq_H_E := by
    rw [← mul_div_assoc, div_le_iff₀ (by linarith)]
    nlinarith
  gcongr

/-! ## Without rounding, this is the model of the other properties -/

theorem exact_scalar (a : DQuat) : exactArith.scalar a = a.scalar := rfl

theorem exact_setupT : ∀ bs ws : List DQuat, exactArith.setupT bs ws = setupTMatrix bs ws := by
  intro bs
  induction bs with
  | nil => intro ws; rfl
  | cons b bs ih =>
    intro ws
    cases ws with
    | nil => rfl
    | cons w ws =>
      rw [Arith.setupT, setupTMatrix, ih]
      rfl

theorem exact_gate (tol : ℝ) : ∀ bs ws : List DQuat, exactArith.gate tol bs ws = scalarGate tol bs ws := by
  intro bs
  induction bs with
  | nil => intro ws; rfl
  | cons b bs ih =>
    intro ws
    cases ws with
    | nil => rfl
    | cons w ws =>
      rw [Arith.gate, scalarGate]
      simp only [ih]
      rfl

theorem exact_kernel_eq (v w : DQuat) : exactArith.kernel v w = solveKernel v w := by
  unfold Arith.kernel solveKernel
  have hd : ∀ p q : Quat, exactArith.dot p q = p.dot q := fun _ _ => rfl
  have hf : ∀ x : ℝ, exactArith.fl x = x := fun _ => rfl
  simp only [Arith.candidate, Arith.weights, hd, hf, exact_dqNormalize, ← sub_eq_add_neg]
  congr 1
  funext _
  congr 1
  funext _
  split_ifs <;> rfl

/-- **C115**: without rounding the model is that of `compute_hand_eye_calibration` over the real numbers. -/
theorem C115_exact (svd : Svd) (bs ws : List DQuat) (tol : ℝ) (enf : Bool) :
    exactArith.calibrate svd bs ws tol enf = computeHandEyeCalibration svd bs ws tol enf := by
  unfold Arith.calibrate computeHandEyeCalibration
  simp only [exact_gate, exact_setupT, exact_kernel_eq]

end HandEye
