import Verif.Props.Noise4

/-! # Property C106: with small noise, the solver returns a calibration -/

open Quaternion Matrix

namespace HandEye

/-- The scalar parts of two dual quaternions are close. -/
def CloseScalars (δ : ℝ) (b w : DQuat) : Prop := |b.rot.w - w.rot.w| ≤ δ ∧ |b.dual.w - w.dual.w| ≤ δ

theorem closeScalars_allclose {δ tol : ℝ} (h : δ ≤ tol) (ht : 0 ≤ tol) {b w : DQuat} (hc : CloseScalars δ b w) :
    DQuat.allclose ⟨⟨0, 0, 0, b.rot.w⟩, ⟨0, 0, 0, b.dual.w⟩⟩ ⟨⟨0, 0, 0, w.rot.w⟩, ⟨0, 0, 0, w.dual.w⟩⟩ tol := by
  have hz := npIsclose_self 0 ht
  have key : ∀ x y : ℝ, |x - y| ≤ δ → npIsclose x y tol := by
    intro x y hxy
    unfold npIsclose
    have : 0 ≤ |y| := abs_nonneg y
    linarith
  exact ⟨⟨hz, hz, hz, key _ _ hc.1⟩, hz, hz, hz, key _ _ hc.2⟩

theorem scalarGate_close {δ tol : ℝ} (h : δ ≤ tol) (ht : 0 ≤ tol) {bs ws : List DQuat}
    (hc : List.Forall₂ (CloseScalars δ) bs ws) : scalarGate tol bs ws = .ok () := by
  induction hc with
  | nil => rfl
  | cons hbw _ ih =>
    rw [scalarGate, scalar_ok, scalar_ok, Py.ok_bind, Py.ok_bind, pyAssert_pos, Py.ok_bind, ih]
    exact closeScalars_allclose h ht ⟨by rw [abs_sub_comm]; exact hbw.1, by rw [abs_sub_comm]; exact hbw.2⟩

theorem setupTMatrix_close {δ : ℝ} (h : δ ≤ 5e-2) {bs ws : List DQuat}
    (hc : List.Forall₂ (CloseScalars δ) bs ws) : ∃ T, setupTMatrix bs ws = .ok T := by
  induction hc with
  | nil => exact ⟨_, rfl⟩
  | @cons b w bs ws hbw _ ih =>
    obtain ⟨T, hT⟩ := ih
    refine ⟨sRows (sMatrix b w) ++ T, ?_⟩
    rw [setupTMatrix, setupSMatrix, scalar_ok, scalar_ok, Py.ok_bind, Py.ok_bind,
      pyAssert_pos (closeScalars_allclose h (by norm_num) hbw), Py.ok_bind]
    change (setupTMatrix bs ws >>= _) = _
    rw [hT]
    rfl

theorem near_dual_w {η : ℝ} (h0 : 0 ≤ η) {a b : DQuat} (h : Spec.NearDQ η a b) : |a.dual.w - b.dual.w| ≤ η := by
  apply abs_le_of_sq_le_sq _ h0
  refine le_trans ?_ h
  exact Finset.single_le_sum (f := fun j => (Spec.vec8 a j - Spec.vec8 b j) ^ 2) (fun _ _ => sq_nonneg _) (Finset.mem_univ 7)

theorem near_scalars {η : ℝ} (h0 : 0 ≤ η) {X : DQuat} (hX : Spec.IsUnit X) {bs ws bs₀ ws₀ : List DQuat} (he : Spec.Exact bs₀ ws₀ X)
    (hb : List.Forall₂ (Spec.NearDQ η) bs bs₀) (hw : List.Forall₂ (Spec.NearDQ η) ws ws₀) :
    List.Forall₂ (CloseScalars (2 * η)) bs ws := by
  induction he generalizing bs ws with
  | nil => cases hb; cases hw; exact .nil
  | @cons b₀ w₀ bs₀ ws₀ he hes ih =>
    cases hb with
    | @cons b _ bs _ hb hbs =>
    cases hw with
    | @cons w _ ws _ hw hws =>
    refine .cons ?_ (ih hbs hws)
    obtain ⟨e1, e2⟩ := sameScalars_of_exact hX he
    have a1 := abs_le.mp (near_w h0 hb)
    have a2 := abs_le.mp (near_w h0 hw)
    have a3 := abs_le.mp (near_dual_w h0 hb)
    have a4 := abs_le.mp (near_dual_w h0 hw)
    constructor <;> rw [abs_le] <;> constructor <;> linarith

/-- The loop that makes the signs equal changes signs only. -/
theorem enforceSameSign_signs {bs ws : List DQuat} (hl : ws.length = bs.length) :
    ∃ ws', enforceSameSign bs ws = .ok ws' ∧ List.Forall₂ Spec.SameUpToSign ws' ws := by
  induction bs generalizing ws with
  | nil =>
    rw [List.length_nil] at hl
    rw [List.eq_nil_of_length_eq_zero hl]
    exact ⟨[], rfl, .nil⟩
  | cons b bs ih =>
    cases ws with
    | nil => simp at hl
    | cons w ws =>
      obtain ⟨ws', h1, h2⟩ := ih (by simpa using hl)
      refine ⟨_ :: ws', by rw [enforceSameSign, h1]; rfl, .cons ?_ h2⟩
      rw [sameUpToSign_iff]
      split_ifs
      · exact Or.inr rfl
      · exact Or.inl rfl

/-- The part of a solution for the exact data that is off the plane the solver works in. -/
theorem near_off_plane {η : ℝ} {X : DQuat} (hX : Spec.IsUnit X) {bs ws bs₀ ws₀ : List DQuat}
    (he : Spec.Exact bs₀ ws₀ X) (hb : List.Forall₂ (Spec.NearDQ η) bs bs₀) (hw : List.Forall₂ (Spec.NearDQ η) ws ws₀)
    {T : List (Fin 8 → ℝ)} {s : List ℝ} {V : Matrix (Fin 8) (Fin 8) ℝ}
    (hT : setupTMatrix bs ws = .ok T) (hV : Spec.IsSVD T s V) {σ : ℝ} (hσ : 0 < σ)
    (hs : s[5]? = some σ) (l m : ℝ) (y : Fin 8 → ℝ)
    (hy : y = l • Spec.vec8 X + m • Spec.vec8 ⟨⟨0, 0, 0, 0⟩, X.rot⟩) :
    Spec.sumSq y - (V *ᵥ y) 6 ^ 2 - (V *ᵥ y) 7 ^ 2 ≤ (4 * η * Real.sqrt bs.length / σ) ^ 2 * Spec.sumSq y := by
  have h6 : 6 ≤ s.length := by
    have := (List.getElem?_eq_some_iff.mp hs).1
    omega
  have e := off_plane_le hV h6 y
  rw [List.getD_eq_getElem?_getD, hs] at e
  obtain ⟨T₀, hT₀, _, s1, s2⟩ := C25_true_calibration_solves bs₀ ws₀ X hX he
  have e2 : Spec.residualSq T y ≤ bs.length * (16 * η ^ 2 * Spec.sumSq y) := by
    refine setupTMatrix_noise hT hT₀ hb hw ?_
    intro row hrow
    have e1 := s1 row hrow
    have e2 := s2 row hrow
    have : ∑ j, row j * y j = l * ∑ j, row j * Spec.vec8 X j + m * ∑ j, row j * Spec.vec8 ⟨⟨0, 0, 0, 0⟩, X.rot⟩ j := by
      rw [Finset.mul_sum, Finset.mul_sum, ← Finset.sum_add_distrib, hy]
      exact Finset.sum_congr rfl fun j _ => by simp only [Pi.add_apply, Pi.smul_apply, smul_eq_mul]; ring
    rw [this, e1, e2]; ring
  have e' : σ ^ 2 * (Spec.sumSq y - (V *ᵥ y) 6 ^ 2 - (V *ᵥ y) 7 ^ 2) ≤ bs.length * (16 * η ^ 2 * Spec.sumSq y) := e.trans e2
  rw [div_pow, mul_pow, Real.sq_sqrt (by positivity), div_mul_eq_mul_div, le_div_iff₀ (by positivity)]
  nlinarith

/-- A quadratic whose form takes both signs has a positive discriminant. -/
theorem indefinite_disc {v₇ v₈ : DQuat} {a b a' b' : ℝ} (h1 : 0 < (a • v₇ + b • v₈).rot.dot (a • v₇ + b • v₈).dual)
    (h2 : (a' • v₇ + b' • v₈).rot.dot (a' • v₇ + b' • v₈).dual < 0) (hA : Root.a v₇ v₈ ≠ 0) : 0 < Root.disc v₇ v₈ := by
  have hf : ∀ a b : ℝ, (a • v₇ + b • v₈).rot.dot (a • v₇ + b • v₈).dual =
      Root.a v₇ v₈ * a ^ 2 + Root.b v₇ v₈ * a * b + Root.c v₇ v₈ * b ^ 2 := by
    intro a b
    simp [Root.a, Root.b, Root.c, Quat.dot]
    ring
  rw [hf] at h1 h2
  rw [Root.disc]
  generalize Root.a v₇ v₈ = A at *
  generalize Root.b v₇ v₈ = B at *
  generalize Root.c v₇ v₈ = C at *
  by_contra hd
  rw [not_lt] at hd
  have k1 : 0 ≤ 4 * A * (A * a ^ 2 + B * a * b + C * b ^ 2) := by
    nlinarith [sq_nonneg (2 * A * a + B * b), mul_nonneg (sub_nonneg.mpr hd) (sq_nonneg b)]
  have k2 : 0 ≤ 4 * A * (A * a' ^ 2 + B * a' * b' + C * b' ^ 2) := by
    nlinarith [sq_nonneg (2 * A * a' + B * b'), mul_nonneg (sub_nonneg.mpr hd) (sq_nonneg b')]
  rcases lt_or_gt_of_ne hA with hA | hA
  · have := mul_neg_of_neg_of_pos (by linarith : 4 * A < 0) h1
    linarith
  · have := mul_neg_of_pos_of_neg (by linarith : (0 : ℝ) < 4 * A) h2
    linarith

/-- With a positive discriminant, the closing steps of the solver succeed. -/
theorem solveKernel_disc {v₇ v₈ : DQuat} (hA : Root.a v₇ v₈ ≠ 0) (hd : 0 < Root.disc v₇ v₈) : ∃ R, solveKernel v₇ v₈ = .ok R := by
  refine ⟨_, solveKernel_eq_ok.mpr ⟨hA, by norm_num; linarith, ?_, rfl⟩⟩
  have hnn : ∀ t, 0 ≤ Root.len v₇ v₈ t := by
    intro t
    unfold Root.len Quat.dot
    nlinarith [sq_nonneg (t • v₇ + v₈).rot.x, sq_nonneg (t • v₇ + v₈).rot.y, sq_nonneg (t • v₇ + v₈).rot.z, sq_nonneg (t • v₇ + v₈).rot.w]
  have hne : Root.s₁ v₇ v₈ ≠ Root.s₂ v₇ v₈ := by
    unfold Root.s₁ Root.s₂
    rw [if_neg (not_lt.mpr hd.le), Ne, div_left_inj' (by simpa using hA)]
    have := Real.sqrt_pos.mpr hd
    intro h
    linarith
  have hboth : ¬ (Root.len v₇ v₈ (Root.s₁ v₇ v₈) = 0 ∧ Root.len v₇ v₈ (Root.s₂ v₇ v₈) = 0) := by
    rintro ⟨h1, h2⟩
    generalize Root.s₁ v₇ v₈ = p at *
    generalize Root.s₂ v₇ v₈ = q at *
    apply hA
    have z : ∀ t, Root.len v₇ v₈ t = 0 → t * v₇.rot.x + v₈.rot.x = 0 ∧ t * v₇.rot.y + v₈.rot.y = 0 ∧ t * v₇.rot.z + v₈.rot.z = 0 ∧
        t * v₇.rot.w + v₈.rot.w = 0 := by
      intro t ht
      have : (t * v₇.rot.x + v₈.rot.x) ^ 2 + (t * v₇.rot.y + v₈.rot.y) ^ 2 + (t * v₇.rot.z + v₈.rot.z) ^ 2 + (t * v₇.rot.w + v₈.rot.w) ^ 2 = 0 := by
        rw [← ht]
        simp [Root.len, Quat.dot]
        ring
      refine ⟨?_, ?_, ?_, ?_⟩ <;> refine pow_eq_zero_iff (n := 2) (by norm_num) |>.mp (le_antisymm ?_ (sq_nonneg _)) <;>
        nlinarith [sq_nonneg (t * v₇.rot.x + v₈.rot.x), sq_nonneg (t * v₇.rot.y + v₈.rot.y), sq_nonneg (t * v₇.rot.z + v₈.rot.z),
          sq_nonneg (t * v₇.rot.w + v₈.rot.w)]
    obtain ⟨x1, y1, z1, w1⟩ := z p h1
    obtain ⟨x2, y2, z2, w2⟩ := z q h2
    have hpq : p - q ≠ 0 := sub_ne_zero.mpr hne
    have k : ∀ u v : ℝ, p * u + v = 0 → q * u + v = 0 → u = 0 := fun u v e1 e2 => by
      have : (p - q) * u = 0 := by linear_combination e1 - e2
      exact (mul_eq_zero.mp this).resolve_left hpq
    simp [Root.a, Quat.dot, k _ _ x1 x2, k _ _ y1 y2, k _ _ z1 z2, k _ _ w1 w2]
  unfold Root.s
  split_ifs with h
  · exact lt_of_le_of_lt (hnn _) h
  · rcases (hnn (Root.s₂ v₇ v₈)).lt_or_eq with h' | h'
    · exact h'
    · exfalso
      refine hboth ⟨le_antisymm ?_ (hnn _), h'.symm⟩
      rw [h']
      exact not_lt.mp h

/-- The outcome of the solver once its checks of the input have passed. -/
theorem compute_outcome {svd : Svd} {bs ws ws' : List DQuat} {tol : ℝ} {enf : Bool} (hb : bs.head? = some DQuat.identity)
    (hw : ws.head? = some DQuat.identity) (hsign : (if enf then enforceSameSign bs ws else .ok ws) = .ok ws')
    (hg : scalarGate tol bs ws' = .ok ()) {T : List (Fin 8 → ℝ)} (hT : setupTMatrix bs ws' = .ok T)
    {s : List ℝ} {V : Matrix (Fin 8) (Fin 8) ℝ} (hs : svd T = .ok (s, V)) :
    computeHandEyeCalibration svd bs ws tol enf =
      (solveKernel (splitRow (V 6)) (splitRow (V 7))).map fun dq => ⟨dq, s, badSingularValues s, ws'⟩ := by
  cases bs with
  | nil => cases hb
  | cons b bs =>
  cases ws with
  | nil => cases hw
  | cons w ws =>
  rw [List.head?_cons, Option.some.injEq] at hb hw
  subst hb hw
  unfold computeHandEyeCalibration
  have hid : pyAt (DQuat.identity :: bs) 0 = .ok DQuat.identity := rfl
  have hid' : pyAt (DQuat.identity :: ws) 0 = .ok DQuat.identity := rfl
  rw [hid, hid', Py.ok_bind, pyAssert_pos (allclose_identity_self)]
  change ((pyAssert (DQuat.identity.allclose DQuat.identity 1e-8) >>= _) : Py Calibration) = _
  rw [pyAssert_pos (allclose_identity_self)]
  have key : ((scalarGate tol (DQuat.identity :: bs) ws' >>= fun _ => setupTMatrix (DQuat.identity :: bs) ws' >>= fun T => svd T >>= fun p =>
        solveKernel (splitRow (p.2 6)) (splitRow (p.2 7)) >>= fun dq =>
          (pure ⟨dq, p.1, badSingularValues p.1, ws'⟩ : Py Calibration))) =
      (solveKernel (splitRow (V 6)) (splitRow (V 7))).map fun dq => ⟨dq, s, badSingularValues s, ws'⟩ := by
    rw [hg, Py.ok_bind, hT, Py.ok_bind, hs, Py.ok_bind]
    cases solveKernel (splitRow (V 6)) (splitRow (V 7)) <;> rfl
  cases enf with
  | true =>
    change ((enforceSameSign _ _ >>= _) : Py Calibration) = _
    rw [if_pos rfl] at hsign
    rw [hsign]
    exact key
  | false =>
    cases hsign
    exact key

/-- What the solver does with noisy measurements, after the loop that makes the signs equal. -/
theorem noisy_outcome {svd : Svd} {η : ℝ} (h0 : 0 ≤ η) {X : DQuat} (hX : Spec.IsUnit X) {enf : Bool}
    {bs ws ws' bs₀ ws₀ : List DQuat} (he : Spec.Exact bs₀ ws₀ X) (hm : Spec.Measured enf η bs₀ ws₀ bs ws)
    (hb : bs.head? = some DQuat.identity) (hw : ws.head? = some DQuat.identity) {tol : ℝ} (ht : 2 * η ≤ tol) (h5 : 2 * η ≤ 0.05)
    (hsign : (if enf then enforceSameSign bs ws else .ok ws) = .ok ws') :
    ∃ T, setupTMatrix bs ws' = .ok T ∧ ∀ s V, svd T = .ok (s, V) → Spec.IsSVD T s V →
      ∀ σ : ℝ, s[5]? = some σ → 0 < σ → 4 * η * Real.sqrt bs.length / σ * (2 + Spec.translationLength X ^ 2 / 4) ≤ 1 / 2 →
      ((∑ i : Fin 4, V 6 (Fin.castAdd 4 i) * V 6 (Fin.natAdd 4 i) ≠ 0 →
          ∃ r, computeHandEyeCalibration svd bs ws tol enf = .ok r ∧ r.singular_values = s) ∧
       (∑ i : Fin 4, V 6 (Fin.castAdd 4 i) * V 6 (Fin.natAdd 4 i) = 0 →
          computeHandEyeCalibration svd bs ws tol enf = .error .assertion)) := by
  have hnear := used_near h0 hX he hm hsign
  have hclose := near_scalars h0 hX he hm.hand hnear
  obtain ⟨T, hT⟩ := setupTMatrix_close (by norm_num at h5 ⊢; exact h5) hclose
  refine ⟨T, hT, fun s V hs hIs σ hσs hσ hγ => ?_⟩
  have hout := compute_outcome hb hw hsign (scalarGate_close ht (by linarith) hclose) hT hs
  rw [hout, ← splitRow_dot]
  refine ⟨fun ha => ?_, fun ha => ?_⟩
  · obtain ⟨hXr, hXd⟩ := isUnit_norm hX
    set γ := 4 * η * Real.sqrt bs.length / σ with hγd
    have hγ0 : 0 ≤ γ := by rw [hγd]; positivity
    have hN : 2 + Spec.translationLength X ^ 2 / 4 = 2 + ‖X.dual.toH‖ ^ 2 := by rw [translationLength_eq]; ring
    rw [hN] at hγ
    have key : ∀ ε : ℝ, ε ^ 2 = 1 → ∃ a b : ℝ, 0 < ε * (a • splitRow (V 6) + b • splitRow (V 7)).rot.dot (a • splitRow (V 6) + b • splitRow (V 7)).dual := by
      intro ε hε
      have hp := near_off_plane hX he hm.hand hnear hT hIs hσ hσs 1 ε _ rfl
      rw [one_smul] at hp
      set y := Spec.vec8 X + ε • Spec.vec8 ⟨⟨0, 0, 0, 0⟩, X.rot⟩ with hy
      have hyN : Spec.sumSq y = 2 + ‖X.dual.toH‖ ^ 2 := by
        have hx2 := norm_sq_toH X.rot
        rw [hXr] at hx2
        have hd2 := norm_sq_toH X.dual
        simp at hXd
        rw [Spec.sumSq, Fin.sum_univ_eight, hy, hd2]
        simp [Spec.vec8]
        linear_combination (-1 - ε ^ 2) * hx2 + 2 * ε * hXd + hε
      have hqy : ∑ i : Fin 4, y (Fin.castAdd 4 i) * y (Fin.natAdd 4 i) = ε := by
        have hx2 := norm_sq_toH X.rot
        rw [hXr] at hx2
        simp at hXd
        rw [Fin.sum_univ_four, hy]
        simp [Spec.vec8]
        linear_combination -ε * hx2 + hXd
      rw [hyN] at hp
      refine ⟨(V *ᵥ y) 6, (V *ᵥ y) 7, lt_of_lt_of_eq (projected_sign hIs.orthogonal hε hyN hqy hp hγ0 hγ) ?_⟩
      congr 1
      rw [Fin.sum_univ_four]
      rfl
    obtain ⟨a, b, h1⟩ := key 1 (by norm_num)
    obtain ⟨a', b', h2⟩ := key (-1) (by norm_num)
    rw [one_mul] at h1
    rw [neg_one_mul] at h2
    obtain ⟨R, hR⟩ := solveKernel_disc ha (indefinite_disc h1 (by linarith) ha)
    rw [hR]
    exact ⟨_, rfl, rfl⟩
  · rw [solveKernel_eq, pyAssert_neg]
    · rfl
    · rw [not_not, Root.a, ha]

/-- **C106**.  Measurements of exact data with an error of at most `η` per pose (as in C85) that begin with the identity, where `2 η` is within
the tolerances of the scalar parts: if the noise is small compared with the sixth singular value and the size of the true translation, the
solver returns a calibration, unless the two halves of the seventh right-singular vector are exactly orthogonal; then it fails an
assertion.  Partial because of this case, and because no rotation may be within `η` of a half turn with the loop that makes the signs equal. -/
theorem C106_outcome_partial (svd : Svd) (η : ℝ) (h0 : 0 ≤ η) (X : DQuat) (hX : Spec.IsUnit X) (enf : Bool)
    (bs ws bs₀ ws₀ : List DQuat) (he : Spec.Exact bs₀ ws₀ X) (hm : Spec.Measured enf η bs₀ ws₀ bs ws)
    (hb : bs.head? = some DQuat.identity) (hw : ws.head? = some DQuat.identity) (tol : ℝ) (ht : 2 * η ≤ tol) (h5 : 2 * η ≤ 0.05) :
    ∃ ws' T, List.Forall₂ Spec.SameUpToSign ws' ws ∧ setupTMatrix bs ws' = .ok T ∧ ∀ s V, svd T = .ok (s, V) → Spec.IsSVD T s V →
      ∀ σ : ℝ, s[5]? = some σ → 0 < σ → 4 * η * Real.sqrt bs.length / σ * (2 + Spec.translationLength X ^ 2 / 4) ≤ 1 / 2 →
      ((∑ i : Fin 4, V 6 (Fin.castAdd 4 i) * V 6 (Fin.natAdd 4 i) ≠ 0 →
          ∃ r, computeHandEyeCalibration svd bs ws tol enf = .ok r ∧ r.singular_values = s) ∧
       (∑ i : Fin 4, V 6 (Fin.castAdd 4 i) * V 6 (Fin.natAdd 4 i) = 0 →
          computeHandEyeCalibration svd bs ws tol enf = .error .assertion)) := by
  have hl : ws.length = bs.length := by
    rw [hm.eye.length_eq, hm.hand.length_eq, he.length_eq]
  obtain ⟨ws', hsign, hsame⟩ : ∃ ws', (if enf then enforceSameSign bs ws else .ok ws) = .ok ws' ∧ List.Forall₂ Spec.SameUpToSign ws' ws := by
    cases enf with
    | true =>
      obtain ⟨ws', h1, h2⟩ := enforceSameSign_signs hl
      exact ⟨ws', by rw [if_pos rfl, h1], h2⟩
    | false => exact ⟨ws, rfl, List.forall₂_same.mpr fun w _ => sameUpToSign_iff.mpr (Or.inl rfl)⟩
  obtain ⟨T, hT, h⟩ := noisy_outcome (svd := svd) h0 hX he hm hb hw ht h5 hsign
  exact ⟨ws', T, hsame, hT, h⟩

/-- Four poses: the identity, two turns about the x axis and one about the y axis; the translations of the two turns about the x axis
are measured `e` too long and `e` too short along the y axis. -/
noncomputable def balancedPoses (e : ℝ) : List DQuat :=
  [DQuat.identity, ⟨⟨3 / 5, 0, 0, 4 / 5⟩, ⟨0, e / 2, 0, 0⟩⟩, ⟨⟨3 / 5, 0, 0, 4 / 5⟩, ⟨0, -(e / 2), 0, 0⟩⟩, ⟨⟨0, 3 / 5, 0, 4 / 5⟩, ⟨0, 0, 0, 0⟩⟩]

theorem balanced_exact : Spec.Exact (balancedPoses 0) (balancedPoses 0) DQuat.identity := by
  refine .cons ?_ (.cons ?_ (.cons ?_ (.cons ?_ .nil))) <;>
  · refine handEyeEq_iff.mpr ?_; apply DQuat.ext' <;> ext <;> norm_num [DQuat.identity]

theorem balanced_same (e : ℝ) : List.Forall₂ SameScalars (balancedPoses e) (balancedPoses (-e)) :=
  .cons ⟨rfl, rfl⟩ (.cons ⟨rfl, rfl⟩ (.cons ⟨rfl, rfl⟩ (.cons ⟨rfl, rfl⟩ .nil)))

theorem balanced_unit (e : ℝ) : ∀ q ∈ balancedPoses e, Spec.IsUnit q ∧ 4 / 5 ≤ q.rot.w := by
  intro q hq
  simp only [balancedPoses, List.mem_cons, List.not_mem_nil, or_false] at hq
  rcases hq with h | h | h | h <;> rw [h, DQuat.isUnit_iff] <;> norm_num [Quat.dot, DQuat.identity]

theorem balanced_near {η e : ℝ} (h : e ^ 2 = η ^ 2) : List.Forall₂ (Spec.NearDQ η) (balancedPoses e) (balancedPoses 0) := by
  refine .cons ?_ (.cons ?_ (.cons ?_ (.cons ?_ .nil))) <;>
  · rw [Spec.NearDQ, Fin.sum_univ_eight]
    simp [Spec.vec8]
    nlinarith [sq_nonneg η]

theorem balanced_residual {e : ℝ} {T : List (Fin 8 → ℝ)} (hT : setupTMatrix (balancedPoses e) (balancedPoses (-e)) = .ok T) (y : Fin 8 → ℝ) :
    Spec.residualSq T y = 36 / 25 * (y 0 ^ 2 + 2 * y 1 ^ 2 + 3 * y 2 ^ 2 + y 4 ^ 2 + 2 * y 5 ^ 2 + 3 * y 6 ^ 2) + 2 * e ^ 2 * y 3 ^ 2 := by
  have hs := setupTMatrix_same (balanced_same e)
  rw [hT] at hs
  injection hs with hs
  rw [hs]
  simp only [balancedPoses, List.zip_cons_cons, List.zip_nil_right, List.flatMap_cons, List.flatMap_nil, List.append_nil,
    residualSq_append, residualSq_sRows]
  simp [Fin.sum_univ_eight, Fin.sum_univ_six, sMatrix, skewFromVector, Quat.vec, DQuat.identity]
  ring

/-- A right-singular vector for a small singular value is a unit vector along the fourth or the eighth axis. -/
theorem balanced_kind {e : ℝ} (he : e ≠ 0) {T : List (Fin 8 → ℝ)} (hT : setupTMatrix (balancedPoses e) (balancedPoses (-e)) = .ok T)
    {s : List ℝ} {V : Matrix (Fin 8) (Fin 8) ℝ} (h : Spec.IsSVD T s V) (k : Fin 8) (hk : s.getD k.val 0 ^ 2 < 36 / 25) :
    V k 0 = 0 ∧ V k 1 = 0 ∧ V k 2 = 0 ∧ V k 4 = 0 ∧ V k 5 = 0 ∧ V k 6 = 0 ∧ V k 3 * V k 7 = 0 := by
  obtain ⟨m, hm⟩ : ∃ m, m = s.getD k.val 0 ^ 2 := ⟨_, rfl⟩
  rw [← hm] at hk
  have hm0 : 0 ≤ m := by rw [hm]; positivity
  have h0 : Spec.residualSq T (V k) = m := by
    have := residualSq_row h k 0
    rw [add_zero, dotProduct_zero, balanced_residual hT 0] at this
    simp at this
    rw [this, hm]
    simp [List.getD_eq_getElem?_getD]
  rw [balanced_residual hT] at h0
  have key : ∀ z : Fin 8 → ℝ, _ := fun z => residualSq_row h k z
  simp only [balanced_residual hT, ← hm, dotProduct, Fin.sum_univ_eight, Pi.add_apply] at key
  have zero : ∀ {c x : ℝ}, 36 / 25 ≤ c → c * x = m * x → x = 0 := by
    intro c x hc hx
    have : (c - m) * x = 0 := by linarith
    exact (mul_eq_zero.mp this).resolve_left (by linarith)
  refine ⟨?_, ?_, ?_, ?_, ?_, ?_, ?_⟩
  · have := key ![1, 0, 0, 0, 0, 0, 0, 0]; simp at this; exact zero (c := 36 / 25) (by norm_num) (by linarith)
  · have := key ![0, 1, 0, 0, 0, 0, 0, 0]; simp at this; exact zero (c := 72 / 25) (by norm_num) (by linarith)
  · have := key ![0, 0, 1, 0, 0, 0, 0, 0]; simp at this; exact zero (c := 108 / 25) (by norm_num) (by linarith)
  · have := key ![0, 0, 0, 0, 1, 0, 0, 0]; simp at this; exact zero (c := 36 / 25) (by norm_num) (by linarith)
  · have := key ![0, 0, 0, 0, 0, 1, 0, 0]; simp at this; exact zero (c := 72 / 25) (by norm_num) (by linarith)
  · have := key ![0, 0, 0, 0, 0, 0, 1, 0]; simp at this; exact zero (c := 108 / 25) (by norm_num) (by linarith)
  · have a := key ![0, 0, 0, 1, 0, 0, 0, 0]
    have b := key ![0, 0, 0, 0, 0, 0, 0, 1]
    simp at a b
    have b : m * V k 7 = 0 := by linarith
    have a : 2 * e ^ 2 * V k 3 = m * V k 3 := by linarith
    have : e ^ 2 * (V k 3 * V k 7) = 0 := by linear_combination V k 7 / 2 * a + V k 3 / 2 * b
    exact (mul_eq_zero.mp this).resolve_left (pow_ne_zero 2 he)

/-- The singular values, and the seventh right-singular vector. -/
theorem balanced_rows {e : ℝ} (he : e ≠ 0) (h1 : e ^ 2 ≤ 1 / 100) {T : List (Fin 8 → ℝ)}
    (hT : setupTMatrix (balancedPoses e) (balancedPoses (-e)) = .ok T) {s : List ℝ} {V : Matrix (Fin 8) (Fin 8) ℝ} (h : Spec.IsSVD T s V) :
    6 / 5 ≤ s.getD 5 0 ∧ s.getD 6 0 ≤ 1 / 2 ∧ ∑ i : Fin 4, V 6 (Fin.castAdd 4 i) * V 6 (Fin.natAdd 4 i) = 0 := by
  have h8 : 8 ≤ T.length := by
    rw [setupTMatrix_length hT]; simp [balancedPoses]
  have dot : ∀ i j : Fin 8, V i ⬝ᵥ V j = if i = j then 1 else 0 := by
    intro i j
    have := congrFun (congrFun h.orthogonal i) j
    rw [one_apply] at this
    rw [← this]; rfl
  have anti : ∀ i j : ℕ, i ≤ j → j < 8 → s.getD j 0 ^ 2 ≤ s.getD i 0 ^ 2 := fun i j hij hj => by
    have := svd_antitone h h8 hij hj
    have := svd_nonneg h j
    nlinarith
  have plane : ∀ y : Fin 8 → ℝ, (V *ᵥ y) 7 = 0 → s.getD 6 0 ^ 2 * Spec.sumSq y ≤ Spec.residualSq T y := by
    intro y hy
    rw [residualSq_svd h, sumSq_svd h.orthogonal, Finset.mul_sum]
    apply Finset.sum_le_sum
    intro j _
    rw [mul_pow]
    by_cases hj : j = 7
    · rw [hj, hy]; simp
    · exact mul_le_mul_of_nonneg_right (anti j.val 6 (by have := j.isLt; have : j.val ≠ 7 := fun e => hj (Fin.ext e); omega) (by norm_num)) (sq_nonneg _)
  have s6 : s.getD 6 0 ^ 2 < 1 / 4 := by
    by_contra hc
    rw [not_lt] at hc
    have key : ∀ a b : ℝ, (V *ᵥ ![0, 0, 0, a, 0, 0, 0, b]) 7 = 0 → a ^ 2 + b ^ 2 ≤ 0 := by
      intro a b hab
      have hn : 0 ≤ Spec.sumSq ![0, 0, 0, a, 0, 0, 0, b] := Finset.sum_nonneg fun i _ => sq_nonneg _
      have := (mul_le_mul_of_nonneg_right hc hn).trans (plane _ hab)
      rw [balanced_residual hT, Spec.sumSq, Fin.sum_univ_eight] at this
      simp at this
      nlinarith [sq_nonneg a, sq_nonneg b]
    have e : ∀ a b : ℝ, (V *ᵥ ![0, 0, 0, a, 0, 0, 0, b]) 7 = a * V 7 3 + b * V 7 7 := by
      intro a b
      rw [mulVec, dotProduct, Fin.sum_univ_eight]
      simp
      ring
    have k1 := key (V 7 7) (-V 7 3) (by rw [e]; ring)
    have k2 : V 7 7 = 0 := by nlinarith [sq_nonneg (V 7 7), sq_nonneg (-V 7 3)]
    have k3 := key 0 1 (by rw [e, k2]; ring)
    norm_num at k3
  have s7 := lt_of_le_of_lt (anti 6 7 (by norm_num) (by norm_num)) s6
  have kind := fun k : Fin 8 => fun hk : s.getD k.val 0 ^ 2 < 36 / 25 => balanced_kind he hT h k hk
  have pair : ∀ i j : Fin 8, s.getD i.val 0 ^ 2 < 36 / 25 → V i 3 * V j 3 + V i 7 * V j 7 = if i = j then 1 else 0 := by
    intro i j hi
    obtain ⟨a0, a1, a2, a4, a5, a6, -⟩ := kind i hi
    rw [← dot i j, dotProduct, Fin.sum_univ_eight, a0, a1, a2, a4, a5, a6]
    ring
  have s5 : 36 / 25 ≤ s.getD 5 0 ^ 2 := by
    by_contra hc
    rw [not_le] at hc
    have p55 := pair 5 5 hc
    have p56 := pair 5 6 hc
    have p57 := pair 5 7 hc
    have p66 := pair 6 6 (by linarith [s6] : s.getD 6 0 ^ 2 < 36 / 25)
    have p67 := pair 6 7 (by linarith [s6] : s.getD 6 0 ^ 2 < 36 / 25)
    have p77 := pair 7 7 (by linarith [s7] : s.getD 7 0 ^ 2 < 36 / 25)
    simp at p55 p56 p57 p66 p67 p77
    have : (V 5 3 * V 6 7 - V 5 7 * V 6 3) ^ 2 = 1 := by
      have : (V 5 3 * V 6 7 - V 5 7 * V 6 3) ^ 2 = (V 5 3 * V 5 3 + V 5 7 * V 5 7) * (V 6 3 * V 6 3 + V 6 7 * V 6 7) - (V 5 3 * V 6 3 + V 5 7 * V 6 7) ^ 2 := by ring
      rw [this, p55, p66, p56]; norm_num
    have d : V 5 3 * V 6 7 - V 5 7 * V 6 3 ≠ 0 := fun hd => by rw [hd] at this; norm_num at this
    have z3 : V 7 3 = 0 := (mul_eq_zero.mp (show (V 5 3 * V 6 7 - V 5 7 * V 6 3) * V 7 3 = 0 by linear_combination V 6 7 * p57 - V 5 7 * p67)).resolve_left d
    have z7 : V 7 7 = 0 := (mul_eq_zero.mp (show (V 5 3 * V 6 7 - V 5 7 * V 6 3) * V 7 7 = 0 by linear_combination V 5 3 * p67 - V 6 3 * p57)).resolve_left d
    rw [z3, z7] at p77
    norm_num at p77
  have n5 := svd_nonneg h 5
  have n6 := svd_nonneg h 6
  refine ⟨by nlinarith, by nlinarith, ?_⟩
  obtain ⟨a0, a1, a2, -, -, -, a7⟩ := kind 6 (by linarith [s6] : s.getD 6 0 ^ 2 < 36 / 25)
  have e : ∑ i : Fin 4, V 6 (Fin.castAdd 4 i) * V 6 (Fin.natAdd 4 i) = V 6 0 * V 6 4 + V 6 1 * V 6 5 + V 6 2 * V 6 6 + V 6 3 * V 6 7 := by
    rw [Fin.sum_univ_four]; rfl
  rw [e, a0, a1, a2, a7]
  ring

/-- **C106** is refuted without the exception: however small the noise, there are measurements of exact data of the identity, with no rotation
near a half turn, whose noise adds up to zero and for which every correct linear algebra library makes the solver fail the assertion
`a != 0.0`, although the sixth singular value is at least `1.2` and the seventh at most one half. -/
theorem C106_balanced_refuted (η : ℝ) (h0 : 0 < η) (h1 : η ≤ 1 / 10) (tol : ℝ) (ht : 0 ≤ tol) :
    ∃ bs₀ ws₀ bs ws : List DQuat, (∀ q ∈ bs₀ ++ ws₀ ++ bs ++ ws, Spec.IsUnit q ∧ 4 / 5 ≤ q.rot.w) ∧
      Spec.Exact bs₀ ws₀ DQuat.identity ∧ Spec.Measured true η bs₀ ws₀ bs ws ∧
      bs.head? = some DQuat.identity ∧ ws.head? = some DQuat.identity ∧
      (∃ svd : Svd, (∀ T s V, svd T = .ok (s, V) → Spec.IsSVD T s V) ∧ ∀ T, 8 ≤ T.length → ∃ p, svd T = .ok p) ∧
      ∃ T, setupTMatrix bs ws = .ok T ∧ (∀ s V, Spec.IsSVD T s V → 6 / 5 ≤ s.getD 5 0 ∧ s.getD 6 0 ≤ 1 / 2) ∧
      ∀ svd : Svd, (∀ T s V, svd T = .ok (s, V) → Spec.IsSVD T s V) → (∀ T, 8 ≤ T.length → ∃ p, svd T = .ok p) →
        computeHandEyeCalibration svd bs ws tol true = .error .assertion := by
  have hs := balanced_same η
  have hT := setupTMatrix_same hs
  have hlen := setupTMatrix_length hT
  refine ⟨balancedPoses 0, balancedPoses 0, balancedPoses η, balancedPoses (-η), ?_, balanced_exact,
    ⟨balanced_near rfl, (balanced_near (neg_sq η)).imp fun _ _ h => Or.inl h, fun _ b₀ hb => ?_⟩, rfl, rfl, ?_, ?_⟩
  · intro q hq
    simp only [List.mem_append] at hq
    rcases hq with ((hq | hq) | hq) | hq <;> exact balanced_unit _ q hq
  · have := (balanced_unit 0 b₀ hb).2
    exact lt_of_lt_of_le (by linarith) (le_abs_self _)
  · obtain ⟨s, V, hsv⟩ := exists_svd _ (by rw [hlen]; simp [balancedPoses] : 8 ≤ List.length _)
    obtain ⟨svd, _, a1, a2⟩ := exists_valid_svd _ s V hsv
    exact ⟨svd, a1, a2⟩
  · refine ⟨_, hT, fun s V hIs => ?_, fun svd hsvd htotal => ?_⟩
    · obtain ⟨a, b, -⟩ := balanced_rows h0.ne' (by nlinarith) hT hIs
      exact ⟨a, b⟩
    · obtain ⟨⟨s, V⟩, hsv⟩ := htotal _ (by rw [hlen]; simp [balancedPoses] : 8 ≤ List.length _)
      obtain ⟨-, -, ha⟩ := balanced_rows h0.ne' (by nlinarith) hT (hsvd _ _ _ hsv)
      have hsign : enforceSameSign (balancedPoses η) (balancedPoses (-η)) = .ok (balancedPoses (-η)) :=
        enforceSameSign_nonneg (by simp [balancedPoses]) (fun b hb => by linarith [(balanced_unit _ b hb).2])
          (fun b hb => by linarith [(balanced_unit _ b hb).2])
      rw [compute_outcome (enf := true) rfl rfl (by rw [if_pos rfl, hsign]) (scalarGate_same ht hs) hT hsv, solveKernel_eq, pyAssert_neg]
      · rfl
      · rw [not_not, Root.a, splitRow_dot, ha]

/-- A concrete case: noise of a millimetre, and the tolerance of the code. -/
example : ∃ (bs ws : List DQuat) (svd : Svd), Spec.Exact (balancedPoses 0) (balancedPoses 0) DQuat.identity ∧
    Spec.Measured true 0.001 (balancedPoses 0) (balancedPoses 0) bs ws ∧ (∀ T s V, svd T = .ok (s, V) → Spec.IsSVD T s V) ∧
    computeHandEyeCalibration svd bs ws 1e-2 true = .error .assertion := by
  have hs := balanced_same 0.001
  have hT := setupTMatrix_same hs
  have hlen := setupTMatrix_length hT
  have hsign : enforceSameSign (balancedPoses 0.001) (balancedPoses (-0.001)) = .ok (balancedPoses (-0.001)) :=
    enforceSameSign_nonneg (by simp [balancedPoses]) (fun b hb => by linarith [(balanced_unit _ b hb).2])
      (fun b hb => by linarith [(balanced_unit _ b hb).2])
  obtain ⟨s, V, hsv⟩ := exists_svd _ (by rw [hlen]; simp [balancedPoses] : 8 ≤ List.length _)
  obtain ⟨svd, h1, h2, h3⟩ := exists_valid_svd _ s V hsv
  refine ⟨balancedPoses 0.001, balancedPoses (-0.001), svd, balanced_exact,
    ⟨balanced_near rfl, (balanced_near (neg_sq _)).imp fun _ _ h => Or.inl h, fun _ b₀ hb => ?_⟩, h2, ?_⟩
  · have := (balanced_unit 0 b₀ hb).2
    exact lt_of_lt_of_le (by norm_num; linarith) (le_abs_self _)
  · obtain ⟨-, -, ha⟩ := balanced_rows (e := 0.001) (by norm_num) (by norm_num) hT hsv
    rw [compute_outcome (enf := true) rfl rfl (by rw [if_pos rfl, hsign]) (scalarGate_same (by norm_num) hs) hT h1, solveKernel_eq, pyAssert_neg]
    · rfl
    · rw [not_not, Root.a, splitRow_dot, ha]

/-- The premises of `C106_outcome_partial` and of its first case hold together: noisy measurements of seven poses for a mounting two metres
away, with the noise small compared with the sixth singular value. -/
example : ∃ (bs ws : List DQuat) (T : List (Fin 8 → ℝ)) (s : List ℝ) (V : Matrix (Fin 8) (Fin 8) ℝ) (σ : ℝ), Spec.IsUnit twoMetres ∧
    Spec.Exact (wobblyHands 0 (4 / 5)) (wobblyEyes 0 (4 / 5)) twoMetres ∧
    Spec.Measured true (1 / 200) (wobblyHands 0 (4 / 5)) (wobblyEyes 0 (4 / 5)) bs ws ∧ bs ≠ wobblyHands 0 (4 / 5) ∧
    bs.head? = some DQuat.identity ∧ ws.head? = some DQuat.identity ∧ setupTMatrix bs ws = .ok T ∧ Spec.IsSVD T s V ∧
    s[5]? = some σ ∧ 0 < σ ∧ 4 * (1 / 200) * Real.sqrt bs.length / σ * (2 + Spec.translationLength twoMetres ^ 2 / 4) ≤ 1 / 2 ∧
    ∑ i : Fin 4, V 6 (Fin.castAdd 4 i) * V 6 (Fin.natAdd 4 i) ≠ 0 := by
  obtain ⟨w, hw, hw2⟩ : ∃ w : ℝ, 0 < w ∧ w ^ 2 = 16 / 25 - (1 / 200) ^ 2 / 4 :=
    ⟨Real.sqrt (16 / 25 - (1 / 200) ^ 2 / 4), Real.sqrt_pos.mpr (by norm_num), Real.sq_sqrt (by norm_num)⟩
  obtain ⟨n1, n2⟩ := wobbly_near (by norm_num) (by norm_num) hw hw2
  have hT := setupTMatrix_same (wobbly_same (1 / 200) w)
  have hlen := setupTMatrix_length hT
  obtain ⟨s, V, hsv⟩ := exists_svd _ (by rw [hlen]; simp [wobblyHands] : 8 ≤ List.length _)
  obtain ⟨s5, s6, ⟨x, f, g, hx, hf, hf', hg, hg', e6⟩, z, k, hz, e7⟩ := wobbly_rows (by norm_num) (by norm_num) hT hsv
  have h8 : s.length = 8 := by rw [hsv.length, hlen]; simp [wobblyHands]
  have hd : s.getD 5 0 = s[5] := by simp [List.getD_eq_getElem?_getD, h8]
  refine ⟨wobblyHands (1 / 200) w, wobblyEyes (1 / 200) w, _, s, V, s.getD 5 0, ?_, wobbly_exact,
    ⟨n1, n2.imp fun _ _ h => Or.inl h, fun _ b₀ hb => ?_⟩, fun h => ?_, rfl, rfl, hT, hsv, ?_, by linarith, ?_, ?_⟩
  · rw [DQuat.isUnit_iff]; norm_num [twoMetres, Quat.dot]
  · simp only [wobblyHands, List.mem_cons, List.not_mem_nil, or_false] at hb
    rcases hb with h' | h' | h' | h' | h' | h' | h' <;> rw [h'] <;> norm_num [DQuat.identity]
  · have := congrArg (fun l => (l.getD 1 DQuat.identity).rot.z) h
    norm_num [wobblyHands] at this
  · rw [hd]
    exact List.getElem?_eq_getElem (l := s) (by omega)
  · have h7 : Real.sqrt (wobblyHands (1 / 200) w).length ≤ 3 := by
      rw [Real.sqrt_le_left (by norm_num)]; norm_num [wobblyHands]
    have e2 : Spec.translationLength twoMetres ^ 2 = 4 := by norm_num [Spec.translationLength, twoMetres]
    rw [e2, div_mul_eq_mul_div, div_le_iff₀ (by linarith)]
    nlinarith
  · have e : ∑ i : Fin 4, V 6 (Fin.castAdd 4 i) * V 6 (Fin.natAdd 4 i) = V 6 0 * V 6 4 + V 6 1 * V 6 5 + V 6 2 * V 6 6 + V 6 3 * V 6 7 := by
      rw [Fin.sum_univ_four]; rfl
    rw [e, e6]
    simp
    exact ⟨⟨hf.ne', hx⟩, hg.ne', hf.ne', hx⟩

end HandEye
