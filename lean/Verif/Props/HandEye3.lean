import Verif.Lemmas.Solver
import Verif.Lemmas.SvdExists
import Verif.Props.HandEye2

/-! # Properties C27-C30: the hand-eye solver -/

namespace HandEye

/-- The steps of a successful run of the solver. -/
theorem compute_eq_ok {svd : Svd} {bs ws : List DQuat} {tol : ℝ} {enf : Bool} {r : Calibration}
    (h : computeHandEyeCalibration svd bs ws tol enf = .ok r) :
    ∃ T V, (∃ b0, pyAt bs 0 = .ok b0 ∧ b0.allclose DQuat.identity 1e-8) ∧
      (∃ w0, pyAt ws 0 = .ok w0 ∧ w0.allclose DQuat.identity 1e-8) ∧
      (if enf then enforceSameSign bs ws else .ok ws) = .ok r.dq_W_E_vec ∧
      scalarGate tol bs r.dq_W_E_vec = .ok () ∧ setupTMatrix bs r.dq_W_E_vec = .ok T ∧
      svd T = .ok (r.singular_values, V) ∧
      r.bad_singular_values = badSingularValues r.singular_values ∧
      solveKernel (splitRow (V 6)) (splitRow (V 7)) = .ok r.dq_H_E := by
  unfold computeHandEyeCalibration at h
  obtain ⟨b0, hb0, h⟩ := Py.bind_eq_ok.mp h
  obtain ⟨_, hb, h⟩ := Py.bind_eq_ok.mp h
  obtain ⟨w0, hw0, h⟩ := Py.bind_eq_ok.mp h
  obtain ⟨_, hw, h⟩ := Py.bind_eq_ok.mp h
  have hsplit : ∃ ws', (if enf then enforceSameSign bs ws else .ok ws) = .ok ws' ∧
      (scalarGate tol bs ws' >>= fun _ => setupTMatrix bs ws' >>= fun T => svd T >>= fun p =>
        solveKernel (splitRow (p.2 6)) (splitRow (p.2 7)) >>= fun dq =>
          (pure ⟨dq, p.1, badSingularValues p.1, ws'⟩ : Py Calibration)) = .ok r := by
    cases enf with
    | true =>
      obtain ⟨ws', h1, h2⟩ := Py.bind_eq_ok.mp h
      exact ⟨ws', h1, h2⟩
    | false => exact ⟨ws, rfl, h⟩
  obtain ⟨ws', hs, h⟩ := hsplit
  obtain ⟨_, hg, h⟩ := Py.bind_eq_ok.mp h
  obtain ⟨T, hT, h⟩ := Py.bind_eq_ok.mp h
  obtain ⟨⟨s, V⟩, hsv, h⟩ := Py.bind_eq_ok.mp h
  obtain ⟨dq, hd, h⟩ := Py.bind_eq_ok.mp h
  cases h
  exact ⟨T, V, ⟨b0, hb0, pyAssert_eq_ok.mp hb⟩, ⟨w0, hw0, pyAssert_eq_ok.mp hw⟩, hs, hg, hT, hsv,
    rfl, hd⟩

theorem twoAxes_length {bs : List DQuat} (h : Spec.TwoAxes bs) : 2 ≤ bs.length := by
  obtain ⟨b₁, h₁, b₂, h₂, hn⟩ := h
  by_contra hc
  have hl : bs.length ≤ 1 := by omega
  match bs, hl with
  | [], _ => cases h₁
  | [b], _ =>
    simp only [List.mem_singleton] at h₁ h₂
    subst h₁; subst h₂
    apply hn
    simp only [Spec.cross, Vec3.ext_iff]
    refine ⟨?_, ?_, ?_⟩ <;> ring

theorem vec8_kvec (X : DQuat) (l m : ℝ) :
    Spec.vec8 (kvec X l m) = l • Spec.vec8 X + m • Spec.vec8 ⟨⟨0, 0, 0, 0⟩, X.rot⟩ := by
  funext i
  fin_cases i <;> simp [Spec.vec8, kvec]

theorem kvec_independent {X : DQuat} (hX : Spec.IsUnit X) (c₁ c₂ : ℝ)
    (h : c₁ • Spec.vec8 X + c₂ • Spec.vec8 ⟨⟨0, 0, 0, 0⟩, X.rot⟩ = 0) : c₁ = 0 ∧ c₂ = 0 := by
  rw [← vec8_kvec] at h
  have hz : kvec X c₁ c₂ = kvec X 0 0 := by
    have h' : Spec.vec8 (kvec X c₁ c₂) = Spec.vec8 (kvec X 0 0) := by
      rw [h, vec8_kvec]; simp
    have key : ∀ a b : DQuat, Spec.vec8 a = Spec.vec8 b → a = b := by
      intro a b hab
      have := fun i => congrFun hab i
      apply DQuat.ext' <;> ext
      · exact this 0
      · exact this 1
      · exact this 2
      · exact this 3
      · exact this 4
      · exact this 5
      · exact this 6
      · exact this 7
    exact key _ _ h'
  have e1 := (kvec_dot hX c₁ c₂ c₁ c₂).2
  have e2 := (kvec_dot hX 1 0 c₁ c₂).1
  rw [hz] at e1 e2
  rw [(kvec_dot hX ..).2] at e1
  rw [(kvec_dot hX ..).1] at e2
  constructor
  · have : c₁ * c₁ = 0 := by linarith
    simpa using this
  · linarith

/-- What any valid SVD of the system of exact data looks like at its end: vanishing singular values,
and right-singular vectors that span the known kernel. -/
theorem exact_svd {bs ws : List DQuat} {X : DQuat} (hX : Spec.IsUnit X) (he : Spec.Exact bs ws X)
    (h2 : Spec.TwoAxes bs) (hr : X.rot.w ≠ 0 ∨ ∃ b ∈ bs, b.rot.vec.dot X.rot.vec ≠ 0)
    {T : List (Fin 8 → ℝ)} (hT : setupTMatrix bs ws = .ok T) {s : List ℝ}
    {V : Matrix (Fin 8) (Fin 8) ℝ} (hsvd : Spec.IsSVD T s V) :
    s.length = 8 ∧ s.getD 6 0 = 0 ∧ s.getD 7 0 = 0 ∧ ∃ l₁ m₁ l₂ m₂ : ℝ,
      splitRow (V 6) = kvec X l₁ m₁ ∧ splitRow (V 7) = kvec X l₂ m₂ ∧ l₁ * m₂ - l₂ * m₁ ≠ 0 := by
  have hlen := setupTMatrix_length hT
  have hbl := twoAxes_length h2
  have h8 : 8 ≤ T.length := by omega
  obtain ⟨T', hT', _, hs1, hs2⟩ := C25_true_calibration_solves bs ws X hX he
  rw [hT] at hT'
  cases hT'
  obtain ⟨z6, z7, k6, k7⟩ := svd_kernel hsvd h8 hs1 hs2 (kvec_independent hX)
  rw [← vec8_splitRow (V 6), solves_exact hX he hT] at k6
  rw [← vec8_splitRow (V 7), solves_exact hX he hT] at k7
  obtain ⟨l₁, m₁, e6⟩ := exact_kernel hX he h2 hr k6
  obtain ⟨l₂, m₂, e7⟩ := exact_kernel hX he h2 hr k7
  refine ⟨by rw [hsvd.length]; omega, z6, z7, l₁, m₁, l₂, m₂, e6, e7, ?_⟩
  intro hd
  have r6 : V 6 = l₁ • Spec.vec8 X + m₁ • Spec.vec8 ⟨⟨0, 0, 0, 0⟩, X.rot⟩ := by
    rw [← vec8_splitRow (V 6), e6, ← vec8_kvec]; rfl
  have r7 : V 7 = l₂ • Spec.vec8 X + m₂ • Spec.vec8 ⟨⟨0, 0, 0, 0⟩, X.rot⟩ := by
    rw [← vec8_splitRow (V 7), e7, ← vec8_kvec]; rfl
  have ind := svd_rows_independent V hsvd.orthogonal (k := 6) (l := 7) (by decide)
  have c1 := ind l₂ (-l₁) (by
    rw [r6, r7]
    funext i
    simp only [Pi.add_apply, Pi.smul_apply, smul_eq_mul, Pi.zero_apply]
    linear_combination (-Spec.vec8 ⟨⟨0, 0, 0, 0⟩, X.rot⟩ i) * hd)
  have c2 := ind m₂ (-m₁) (by
    rw [r6, r7]
    funext i
    simp only [Pi.add_apply, Pi.smul_apply, smul_eq_mul, Pi.zero_apply]
    linear_combination (Spec.vec8 X i) * hd)
  have hl1 : l₁ = 0 := by linarith [c1.2]
  have hm1 : m₁ = 0 := by linarith [c2.2]
  have := ind 1 0 (by rw [r6, hl1, hm1]; simp)
  norm_num at this

/-- On exact data the sign loop does nothing, whatever the flag. -/
theorem exact_signs {bs ws ws' : List DQuat} {X : DQuat} (hX : Spec.IsUnit X)
    (he : Spec.Exact bs ws X) {enf : Bool}
    (h : (if enf then enforceSameSign bs ws else .ok ws) = .ok ws') : ws' = ws := by
  cases enf with
  | false => cases h; rfl
  | true =>
    rw [if_pos rfl, (C24_gate bs ws X hX he 0 le_rfl).2.2] at h
    cases h; rfl

/-- A successful linear algebra call settles the outcome on exact data that starts at the identity. -/
theorem exact_outcome {svd : Svd} {bs ws : List DQuat} {X : DQuat} (hX : Spec.IsUnit X)
    (he : Spec.Exact bs ws X) (hb : bs.head? = some DQuat.identity)
    {tol : ℝ} (ht : 0 ≤ tol) (enf : Bool) {T : List (Fin 8 → ℝ)} (hT : setupTMatrix bs ws = .ok T)
    {s : List ℝ} {V : Matrix (Fin 8) (Fin 8) ℝ} (hs : svd T = .ok (s, V)) :
    computeHandEyeCalibration svd bs ws tol enf =
      (solveKernel (splitRow (V 6)) (splitRow (V 7))).map fun dq =>
        ⟨dq, s, badSingularValues s, ws⟩ := by
  obtain ⟨hg, _, hsg⟩ := C24_gate bs ws X hX he tol ht
  cases he with
  | nil => cases hb
  | @cons b w bs ws hbw he =>
    rw [List.head?_cons, Option.some.injEq] at hb
    subst hb
    have hw : w = DQuat.identity := by
      rw [handEyeEq_iff] at hbw
      have h2 := congrArg (X.conj * ·) hbw
      simp only [← mul_assoc] at h2
      rw [DQuat.conj_mul_unit hX, one_mul] at h2
      rw [← h2, show DQuat.identity = 1 from rfl, mul_one, DQuat.conj_mul_unit hX]
    subst hw
    unfold computeHandEyeCalibration
    have hid : pyAt (DQuat.identity :: bs) 0 = .ok DQuat.identity := rfl
    have hid' : pyAt (DQuat.identity :: ws) 0 = .ok DQuat.identity := rfl
    rw [hid, hid', Py.ok_bind, pyAssert_pos (allclose_identity_self)]
    change ((pyAssert (DQuat.identity.allclose DQuat.identity 1e-8) >>= _) : Py Calibration) = _
    rw [pyAssert_pos (allclose_identity_self)]
    cases enf with
    | true =>
      change ((enforceSameSign _ _ >>= _) : Py Calibration) = _
      rw [hsg]
      change ((scalarGate _ _ _ >>= _) : Py Calibration) = _
      rw [hg]
      change ((setupTMatrix _ _ >>= _) : Py Calibration) = _
      rw [hT]
      change ((svd T >>= _) : Py Calibration) = _
      rw [hs]
      change ((solveKernel _ _ >>= _) : Py Calibration) = _
      cases solveKernel (splitRow (V 6)) (splitRow (V 7)) <;> rfl
    | false =>
      change ((scalarGate _ _ _ >>= _) : Py Calibration) = _
      rw [hg]
      change ((setupTMatrix _ _ >>= _) : Py Calibration) = _
      rw [hT]
      change ((svd T >>= _) : Py Calibration) = _
      rw [hs]
      change ((solveKernel _ _ >>= _) : Py Calibration) = _
      cases solveKernel (splitRow (V 6)) (splitRow (V 7)) <;> rfl

theorem splitRow_dot (v : Fin 8 → ℝ) :
    (splitRow v).rot.dot (splitRow v).dual = ∑ i : Fin 4, v (Fin.castAdd 4 i) * v (Fin.natAdd 4 i) := by
  rw [Fin.sum_univ_four]; rfl

/-- C28.  On exact data that starts at the identity pose and has two non-parallel rotation axes, the
solver returns, unless the two halves of the seventh right-singular vector are exactly orthogonal; in
that case it fails an assertion.  Partial: the property asks for a result in every case, see
`C28_orthogonal_halves_refuted`. -/
theorem C28_outcome_partial (svd : Svd) (bs ws : List DQuat) (X : DQuat) (hX : Spec.IsUnit X)
    (he : Spec.Exact bs ws X) (h2 : Spec.TwoAxes bs)
    (hr : X.rot.w ≠ 0 ∨ ∃ b ∈ bs, b.rot.vec.dot X.rot.vec ≠ 0)
    (hb : bs.head? = some DQuat.identity) (tol : ℝ) (ht : 0 ≤ tol) (enf : Bool) :
    ∃ T, setupTMatrix bs ws = .ok T ∧ 8 ≤ T.length ∧ ∀ s V, svd T = .ok (s, V) → Spec.IsSVD T s V →
      ((∑ i : Fin 4, V 6 (Fin.castAdd 4 i) * V 6 (Fin.natAdd 4 i) ≠ 0 →
          ∃ r, computeHandEyeCalibration svd bs ws tol enf = .ok r) ∧
       (∑ i : Fin 4, V 6 (Fin.castAdd 4 i) * V 6 (Fin.natAdd 4 i) = 0 →
          computeHandEyeCalibration svd bs ws tol enf = .error .assertion)) := by
  obtain ⟨T, hT⟩ := (C24_gate bs ws X hX he tol ht).2.1
  refine ⟨T, hT, ?_, ?_⟩
  · have := setupTMatrix_length hT
    have := twoAxes_length h2
    omega
  · intro s V hs hsvd
    rw [exact_outcome hX he hb ht enf hT hs, ← splitRow_dot]
    obtain ⟨_, _, _, l₁, m₁, l₂, m₂, e6, e7, hd⟩ := exact_svd hX he h2 hr hT hsvd
    rw [e6, e7, (kvec_dot hX ..).1]
    constructor
    · intro ha
      obtain ⟨R, hR, _⟩ := solveKernel_exact hX hd ha
      rw [hR]
      exact ⟨_, rfl⟩
    · intro ha
      rw [solveKernel_eq, pyAssert_neg]
      · rfl
      · rw [not_not, Root.a, (kvec_dot hX ..).1, ha]

/-- A linear algebra library that answers `p` on the matrix `T`, and correctly on all other matrices with
at least eight rows (and raises on smaller ones). -/
theorem exists_valid_svd (T : List (Fin 8 → ℝ)) (s : List ℝ) (V : Matrix (Fin 8) (Fin 8) ℝ)
    (h : Spec.IsSVD T s V) : ∃ svd : Svd, svd T = .ok (s, V) ∧
      (∀ T' s' V', svd T' = .ok (s', V') → Spec.IsSVD T' s' V') ∧
      (∀ T', 8 ≤ T'.length → ∃ p, svd T' = .ok p) := by
  classical
  refine ⟨fun T' => if T' = T then .ok (s, V) else
    if h8 : 8 ≤ T'.length then .ok ((exists_svd T' h8).choose, (exists_svd T' h8).choose_spec.choose)
    else .error .value, by simp, ?_, ?_⟩
  · intro T' s' V' h'
    dsimp only at h'
    by_cases e : T' = T
    · rw [if_pos e] at h'
      cases h'
      rw [e]; exact h
    · rw [if_neg e] at h'
      split_ifs at h' with h8
      cases h'
      exact (exists_svd T' h8).choose_spec.choose_spec
  · intro T' h8
    by_cases e : T' = T
    · exact ⟨_, if_pos e⟩
    · simp only [if_neg e, dif_pos h8]
      exact ⟨_, rfl⟩

/-- All directions within the kernel plane are available to the linear algebra library. -/
theorem exact_turned {bs ws : List DQuat} {X : DQuat} (hX : Spec.IsUnit X) (he : Spec.Exact bs ws X)
    (h2 : Spec.TwoAxes bs) (hr : X.rot.w ≠ 0 ∨ ∃ b ∈ bs, b.rot.vec.dot X.rot.vec ≠ 0)
    {T : List (Fin 8 → ℝ)} (hT : setupTMatrix bs ws = .ok T) :
    ∃ l₁ m₁ l₂ m₂ : ℝ, l₁ * m₂ - l₂ * m₁ ≠ 0 ∧ ∀ c d : ℝ, c ^ 2 + d ^ 2 = 1 →
      ∃ s V, Spec.IsSVD T s V ∧ splitRow (V 6) = kvec X (c * l₁ + d * l₂) (c * m₁ + d * m₂) := by
  have hl := setupTMatrix_length hT
  have hb := twoAxes_length h2
  obtain ⟨s, V, hsvd⟩ := exists_svd T (by omega)
  obtain ⟨_, z6, z7, l₁, m₁, l₂, m₂, e6, e7, hd⟩ := exact_svd hX he h2 hr hT hsvd
  refine ⟨l₁, m₁, l₂, m₂, hd, fun c d hcd => ⟨s, _, isSVD_turn hsvd z6 z7 hcd, ?_⟩⟩
  have e : splitRow (c • V 6 + d • V 7) = c • splitRow (V 6) + d • splitRow (V 7) := rfl
  change splitRow (c • V 6 + d • V 7) = _
  rw [e, e6, e7]
  apply DQuat.ext' <;> ext <;> simp [kvec] <;> ring

/-- C28 is refuted: for every exact data set as above there is a correct linear algebra library with
which the solver fails an assertion; and there is one with which it returns. -/
theorem C28_orthogonal_halves_refuted (bs ws : List DQuat) (X : DQuat) (hX : Spec.IsUnit X)
    (he : Spec.Exact bs ws X) (h2 : Spec.TwoAxes bs)
    (hr : X.rot.w ≠ 0 ∨ ∃ b ∈ bs, b.rot.vec.dot X.rot.vec ≠ 0)
    (hb : bs.head? = some DQuat.identity) (tol : ℝ) (ht : 0 ≤ tol) (enf : Bool) :
    (∃ svd : Svd, (∀ T s V, svd T = .ok (s, V) → Spec.IsSVD T s V) ∧
      (∀ T, 8 ≤ T.length → ∃ p, svd T = .ok p) ∧
      computeHandEyeCalibration svd bs ws tol enf = .error .assertion) ∧
    (∃ svd : Svd, (∀ T s V, svd T = .ok (s, V) → Spec.IsSVD T s V) ∧
      (∀ T, 8 ≤ T.length → ∃ p, svd T = .ok p) ∧
      ∃ r, computeHandEyeCalibration svd bs ws tol enf = .ok r) := by
  have hout := fun svd => C28_outcome_partial svd bs ws X hX he h2 hr hb tol ht enf
  obtain ⟨T, hT⟩ := (C24_gate bs ws X hX he tol ht).2.1
  obtain ⟨l₁, m₁, l₂, m₂, hd, hturn⟩ := exact_turned hX he h2 hr hT
  constructor
  · have hpos : 0 < l₁ ^ 2 + l₂ ^ 2 := by
      rcases eq_or_ne l₁ 0 with h1 | h1
      · rcases eq_or_ne l₂ 0 with h3 | h3
        · exact absurd (by rw [h1, h3]; ring) hd
        · positivity
      · positivity
    have hq := Real.sq_sqrt hpos.le
    have hq0 : Real.sqrt (l₁ ^ 2 + l₂ ^ 2) ≠ 0 := (Real.sqrt_pos.mpr hpos).ne'
    generalize Real.sqrt (l₁ ^ 2 + l₂ ^ 2) = q at hq hq0
    obtain ⟨s, V, hsvd, h6⟩ := hturn (l₂ / q) (-l₁ / q) (by field_simp; linarith)
    obtain ⟨svd, h1, h3, h4⟩ := exists_valid_svd T s V hsvd
    refine ⟨svd, h3, h4, ?_⟩
    obtain ⟨T', hT', _, ho⟩ := hout svd
    rw [hT] at hT'
    cases hT'
    apply (ho s V h1 hsvd).2
    rw [← splitRow_dot, h6, (kvec_dot hX ..).1]
    have : l₂ / q * l₁ + -l₁ / q * l₂ = 0 := by ring
    rw [this, zero_mul]
  · have : ∃ c d : ℝ, c ^ 2 + d ^ 2 = 1 ∧ (c * l₁ + d * l₂) * (c * m₁ + d * m₂) ≠ 0 := by
      by_contra hc
      push Not at hc
      have e1 := hc 1 0 (by norm_num)
      have e2 := hc 0 1 (by norm_num)
      have e3 := hc (3 / 5) (4 / 5) (by norm_num)
      apply hd
      have e4 : l₁ * m₂ + l₂ * m₁ = 0 := by linarith
      have : (l₁ * m₂ - l₂ * m₁) ^ 2 = 0 := by
        linear_combination (l₁ * m₂ + l₂ * m₁) * e4 - 4 * l₁ * m₁ * e2
      exact pow_eq_zero_iff (two_ne_zero) |>.mp this
    obtain ⟨c, d, hcd, hne⟩ := this
    obtain ⟨s, V, hsvd, h6⟩ := hturn c d hcd
    obtain ⟨svd, h1, h3, h4⟩ := exists_valid_svd T s V hsvd
    refine ⟨svd, h3, h4, ?_⟩
    obtain ⟨T', hT', _, ho⟩ := hout svd
    rw [hT] at hT'
    cases hT'
    apply (ho s V h1 hsvd).1
    rw [← splitRow_dot, h6, (kvec_dot hX ..).1]
    exact hne

/-- The hypotheses of C27-C30 are satisfiable together, with a run that returns. -/
theorem sample_run : ∃ svd : Svd, (∀ T s V, svd T = .ok (s, V) → Spec.IsSVD T s V) ∧
    ∃ r, computeHandEyeCalibration svd sampleB sampleW 1e-2 true = .ok r := by
  obtain ⟨h1, h2, h3, h4⟩ := sample_data
  obtain ⟨_, svd, ha, _, hb⟩ := C28_orthogonal_halves_refuted sampleB sampleW sampleX h1 h2 h3
    (Or.inl h4) rfl 1e-2 (by norm_num) true
  exact ⟨svd, ha, hb⟩

example : ∃ svd : Svd, (∀ T s V, svd T = .ok (s, V) → Spec.IsSVD T s V) ∧
    computeHandEyeCalibration svd sampleB sampleW 1e-2 true = .error .assertion := by
  obtain ⟨h1, h2, h3, h4⟩ := sample_data
  obtain ⟨⟨svd, ha, _, hb⟩, _⟩ := C28_orthogonal_halves_refuted sampleB sampleW sampleX h1 h2 h3
    (Or.inl h4) rfl 1e-2 (by norm_num) true
  exact ⟨svd, ha, hb⟩

/-- C27.  On exact data with two non-parallel rotation axes, whenever the solver returns, it returns
X, with the sign that makes the scalar part non-negative.  The singular value decomposition may be any
valid one.  X may be any unit dual quaternion that is not a half turn; half turns are covered too if
their axis is not perpendicular to every rotation axis of the data. -/
theorem C27_exact_recovery (svd : Svd) (hsvd : ∀ T s V, svd T = .ok (s, V) → Spec.IsSVD T s V)
    (bs ws : List DQuat) (X : DQuat) (hX : Spec.IsUnit X) (he : Spec.Exact bs ws X)
    (h2 : Spec.TwoAxes bs) (hr : X.rot.w ≠ 0 ∨ ∃ b ∈ bs, b.rot.vec.dot X.rot.vec ≠ 0)
    (tol : ℝ) (enf : Bool) (r : Calibration)
    (h : computeHandEyeCalibration svd bs ws tol enf = .ok r) :
    Spec.SameUpToSign r.dq_H_E X ∧ 0 ≤ r.dq_H_E.rot.w := by
  obtain ⟨T, V, _, _, hs, _, hT, hsv, _, hk⟩ := compute_eq_ok h
  rw [exact_signs hX he hs] at hT
  obtain ⟨_, _, _, l₁, m₁, l₂, m₂, e6, e7, hd⟩ := exact_svd hX he h2 hr hT (hsvd _ _ _ hsv)
  rw [e6, e7] at hk
  have ha : l₁ * m₁ ≠ 0 := by
    have := (solveKernel_eq_ok.mp hk).1
    rwa [Root.a, (kvec_dot hX ..).1] at this
  obtain ⟨R, hR, h1, h2⟩ := solveKernel_exact hX hd ha
  rw [hR] at hk
  cases hk
  exact ⟨h1, h2⟩

/-- C27, the usual form: for X with positive scalar part the result is X itself. -/
theorem C27_exact_recovery_positive (svd : Svd)
    (hsvd : ∀ T s V, svd T = .ok (s, V) → Spec.IsSVD T s V)
    (bs ws : List DQuat) (X : DQuat) (hX : Spec.IsUnit X) (he : Spec.Exact bs ws X)
    (h2 : Spec.TwoAxes bs) (hw : 0 < X.rot.w) (tol : ℝ) (enf : Bool) (r : Calibration)
    (h : computeHandEyeCalibration svd bs ws tol enf = .ok r) : r.dq_H_E = X := by
  obtain ⟨h1, h3⟩ := C27_exact_recovery svd hsvd bs ws X hX he h2 (Or.inl hw.ne') tol enf r h
  rcases sameUpToSign_iff.mp h1 with h1 | h1
  · exact h1
  · rw [h1, DQuat.neg_rot, Quat.neg_w] at h3; linarith

example : ∃ svd : Svd, ∃ r, computeHandEyeCalibration svd sampleB sampleW 1e-2 true = .ok r ∧
    r.dq_H_E = ⟨⟨0, 0, 0.6, 0.8⟩, ⟨0.8, 0, 0, 0⟩⟩ := by
  obtain ⟨svd, hsvd, r, h⟩ := sample_run
  obtain ⟨h1, h2, h3, _⟩ := sample_data
  exact ⟨svd, r, h, C27_exact_recovery_positive svd hsvd sampleB sampleW sampleX h1 h2 h3
    (by norm_num [sampleX]) 1e-2 true r h⟩

/-- C29.  Whatever the data and whatever the linear algebra library returns: a returned calibration
has a unit rotation part and a non-negative scalar part; and if the quadratic that the solver sets up
has a real root, it is a unit dual quaternion. -/
theorem C29_returned_calibration (svd : Svd) (bs ws : List DQuat) (tol : ℝ) (enf : Bool)
    (r : Calibration) (h : computeHandEyeCalibration svd bs ws tol enf = .ok r) :
    r.dq_H_E.rot.norm = 1 ∧ 0 ≤ r.dq_H_E.rot.w ∧
      ∃ T V, setupTMatrix bs r.dq_W_E_vec = .ok T ∧ svd T = .ok (r.singular_values, V) ∧
        ((∃ t : ℝ, (∑ i : Fin 4, (t * V 6 (Fin.castAdd 4 i) + V 7 (Fin.castAdd 4 i)) *
            (t * V 6 (Fin.natAdd 4 i) + V 7 (Fin.natAdd 4 i))) = 0) → Spec.IsUnit r.dq_H_E) := by
  obtain ⟨T, V, _, _, hs, _, hT, hsv, _, hk⟩ := compute_eq_ok h
  obtain ⟨ha, hdisc, hlen, hR⟩ := solveKernel_eq_ok.mp hk
  have hu := scaled_unit hlen
  have hrot : r.dq_H_E.rot.dot r.dq_H_E.rot = 1 := by
    rw [hR]
    rcases posW_eq_or (Real.sqrt (1 / Root.len (splitRow (V 6)) (splitRow (V 7))
      (Root.s (splitRow (V 6)) (splitRow (V 7)))) • (Root.s (splitRow (V 6)) (splitRow (V 7)) •
        splitRow (V 6) + splitRow (V 7))) with e | e <;> rw [e]
    · exact hu
    · rw [DQuat.neg_rot, Quat.dot_neg_neg]; exact hu
  refine ⟨Quat.norm_eq_one.mpr hrot, by rw [hR]; exact posW_nonneg _, T, V, hT, hsv, ?_⟩
  rintro ⟨t, ht⟩
  have hq : Root.a (splitRow (V 6)) (splitRow (V 7)) * t ^ 2 +
      Root.b (splitRow (V 6)) (splitRow (V 7)) * t + Root.c (splitRow (V 6)) (splitRow (V 7)) = 0 := by
    rw [← combo_orth, ← ht, Fin.sum_univ_four]
    rfl
  have hd : 0 ≤ Root.disc (splitRow (V 6)) (splitRow (V 7)) := by
    have : Root.disc (splitRow (V 6)) (splitRow (V 7)) =
        (2 * Root.a (splitRow (V 6)) (splitRow (V 7)) * t + Root.b (splitRow (V 6)) (splitRow (V 7))) ^ 2 := by
      rw [Root.disc]
      linear_combination (-4 * Root.a (splitRow (V 6)) (splitRow (V 7))) * hq
    rw [this]; exact sq_nonneg _
  have ho : r.dq_H_E.rot.dot r.dq_H_E.dual = 0 := by
    have hz := combo_orth (splitRow (V 6)) (splitRow (V 7)) (Root.s (splitRow (V 6)) (splitRow (V 7)))
    rw [root_solves ha hd] at hz
    rw [hR]
    generalize Real.sqrt _ = g at *
    have hz' : (g • (Root.s (splitRow (V 6)) (splitRow (V 7)) • splitRow (V 6) + splitRow (V 7))).rot.dot
        (g • (Root.s (splitRow (V 6)) (splitRow (V 7)) • splitRow (V 6) + splitRow (V 7))).dual = 0 := by
      rw [DQuat.smul_rot, DQuat.smul_dual, Quat.smul_dot, Quat.dot_smul, hz]; ring
    rcases posW_eq_or (g • (Root.s (splitRow (V 6)) (splitRow (V 7)) •
        splitRow (V 6) + splitRow (V 7))) with e | e <;> rw [e]
    · exact hz'
    · rw [DQuat.neg_rot, DQuat.neg_dual, Quat.dot_neg_neg]; exact hz'
  exact DQuat.isUnit_iff.mpr ⟨hrot, ho⟩

example : ∃ svd : Svd, ∃ r, computeHandEyeCalibration svd sampleB sampleW 1e-2 true = .ok r ∧
    r.dq_H_E.rot.norm = 1 := by
  obtain ⟨svd, _, r, h⟩ := sample_run
  exact ⟨svd, r, h, (C29_returned_calibration svd _ _ _ _ r h).1⟩

/-- The chosen root makes the quadratic as small as possible, and of those it is the one with the longer rotation
part. -/
theorem root_best {v₇ v₈ : DQuat} (ha : Root.a v₇ v₈ ≠ 0) (t : ℝ) :
    |Root.a v₇ v₈ * Root.s v₇ v₈ ^ 2 + Root.b v₇ v₈ * Root.s v₇ v₈ + Root.c v₇ v₈| ≤
      |Root.a v₇ v₈ * t ^ 2 + Root.b v₇ v₈ * t + Root.c v₇ v₈| ∧
    (|Root.a v₇ v₈ * t ^ 2 + Root.b v₇ v₈ * t + Root.c v₇ v₈| ≤
      |Root.a v₇ v₈ * Root.s v₇ v₈ ^ 2 + Root.b v₇ v₈ * Root.s v₇ v₈ + Root.c v₇ v₈| →
      Root.len v₇ v₈ t ≤ Root.len v₇ v₈ (Root.s v₇ v₈)) := by
  have hl : Root.len v₇ v₈ (Root.s₁ v₇ v₈) ≤ Root.len v₇ v₈ (Root.s v₇ v₈) ∧
      Root.len v₇ v₈ (Root.s₂ v₇ v₈) ≤ Root.len v₇ v₈ (Root.s v₇ v₈) := by
    unfold Root.s
    split_ifs with h
    · exact ⟨le_rfl, h.le⟩
    · exact ⟨not_lt.mp h, le_rfl⟩
  by_cases hd : 0 ≤ Root.disc v₇ v₈
  · rw [root_solves ha hd, abs_zero]
    refine ⟨abs_nonneg _, fun h => ?_⟩
    have h0 := abs_eq_zero.mp (le_antisymm h (abs_nonneg _))
    have hsq : Real.sqrt (Root.disc v₇ v₈) ^ 2 = Root.disc v₇ v₈ := Real.sq_sqrt hd
    have hsq' : Root.disc v₇ v₈ = Root.b v₇ v₈ * Root.b v₇ v₈ - 4 * Root.a v₇ v₈ * Root.c v₇ v₈ := rfl
    have hprod : (2 * Root.a v₇ v₈ * t + Root.b v₇ v₈ - Real.sqrt (Root.disc v₇ v₈)) *
        (2 * Root.a v₇ v₈ * t + Root.b v₇ v₈ + Real.sqrt (Root.disc v₇ v₈)) = 0 := by
      linear_combination (4 * Root.a v₇ v₈) * h0 - hsq - hsq'
    rcases mul_eq_zero.mp hprod with e | e
    · have : t = Root.s₁ v₇ v₈ := by
        unfold Root.s₁
        rw [if_neg (not_lt.mpr hd), eq_div_iff (by simpa using ha)]
        linear_combination e
      rw [this]
      exact hl.1
    · have : t = Root.s₂ v₇ v₈ := by
        unfold Root.s₂
        rw [if_neg (not_lt.mpr hd), eq_div_iff (by simpa using ha)]
        linear_combination e
      rw [this]
      exact hl.2
  · have hd' := not_le.mp hd
    have hs : Root.s v₇ v₈ = -Root.b v₇ v₈ / (2 * Root.a v₇ v₈) := by
      unfold Root.s Root.s₁ Root.s₂
      simp [hd']
    have hD : Root.disc v₇ v₈ = Root.b v₇ v₈ * Root.b v₇ v₈ - 4 * Root.a v₇ v₈ * Root.c v₇ v₈ := rfl
    rw [hD] at hd'
    generalize Root.len v₇ v₈ = len
    generalize hS : Root.s v₇ v₈ = s at *
    generalize Root.a v₇ v₈ = a at *
    generalize Root.b v₇ v₈ = b at *
    generalize Root.c v₇ v₈ = c at *
    have e1 : a * (a * s ^ 2 + b * s + c) = (4 * a * c - b * b) / 4 := by
      rw [hs]; field_simp; ring
    have e2 : a * (a * t ^ 2 + b * t + c) = (4 * a * c - b * b) / 4 + (a * (t - s)) ^ 2 := by
      have h2 : 2 * a * s + b = 0 := by rw [hs]; field_simp; ring
      rw [← e1]; linear_combination (a * (t - s)) * h2
    have p1 : 0 ≤ a * (a * s ^ 2 + b * s + c) := by rw [e1]; linarith
    have p2 : 0 ≤ a * (a * t ^ 2 + b * t + c) := by rw [e2]; nlinarith [sq_nonneg (a * (t - s))]
    have ha' : 0 < |a| := abs_pos.mpr ha
    constructor
    · refine le_of_mul_le_mul_left ?_ ha'
      rw [← abs_mul, ← abs_mul, abs_of_nonneg p1, abs_of_nonneg p2, e1, e2]
      linarith [sq_nonneg (a * (t - s))]
    · intro h
      have h' := mul_le_mul_of_nonneg_left h ha'.le
      rw [← abs_mul, ← abs_mul, abs_of_nonneg p1, abs_of_nonneg p2, e1, e2] at h'
      have h0 : a * (t - s) = 0 := by
        have := sq_nonneg (a * (t - s))
        exact pow_eq_zero_iff (two_ne_zero) |>.mp (le_antisymm (by linarith) this)
      have : t = s := by
        rcases mul_eq_zero.mp h0 with e | e
        · exact absurd e ha
        · linarith
      rw [this]

/-- **C29**, which combination: the returned calibration is a multiple of a combination `s v₇ + v₈` of the two last
right-singular vectors; `s` makes the product of the rotation part and the dual part of the combination (zero for
rigid motions) as small as possible in absolute value, and if there are several such `s`, the rotation part is the
longest one. -/
theorem C29_best_combination (svd : Svd) (bs ws : List DQuat) (tol : ℝ) (enf : Bool)
    (r : Calibration) (h : computeHandEyeCalibration svd bs ws tol enf = .ok r) :
    ∃ T V, setupTMatrix bs r.dq_W_E_vec = .ok T ∧ svd T = .ok (r.singular_values, V) ∧
      ∃ s k : ℝ, k ≠ 0 ∧
        r.dq_H_E = ⟨⟨k * (s * V 6 0 + V 7 0), k * (s * V 6 1 + V 7 1), k * (s * V 6 2 + V 7 2), k * (s * V 6 3 + V 7 3)⟩,
          ⟨k * (s * V 6 4 + V 7 4), k * (s * V 6 5 + V 7 5), k * (s * V 6 6 + V 7 6), k * (s * V 6 7 + V 7 7)⟩⟩ ∧
        ∀ t : ℝ, |∑ i : Fin 4, (s * V 6 (Fin.castAdd 4 i) + V 7 (Fin.castAdd 4 i)) *
            (s * V 6 (Fin.natAdd 4 i) + V 7 (Fin.natAdd 4 i))| ≤
          |∑ i : Fin 4, (t * V 6 (Fin.castAdd 4 i) + V 7 (Fin.castAdd 4 i)) *
            (t * V 6 (Fin.natAdd 4 i) + V 7 (Fin.natAdd 4 i))| ∧
          (|∑ i : Fin 4, (t * V 6 (Fin.castAdd 4 i) + V 7 (Fin.castAdd 4 i)) *
              (t * V 6 (Fin.natAdd 4 i) + V 7 (Fin.natAdd 4 i))| ≤
            |∑ i : Fin 4, (s * V 6 (Fin.castAdd 4 i) + V 7 (Fin.castAdd 4 i)) *
              (s * V 6 (Fin.natAdd 4 i) + V 7 (Fin.natAdd 4 i))| →
            ∑ i : Fin 4, (t * V 6 (Fin.castAdd 4 i) + V 7 (Fin.castAdd 4 i)) ^ 2 ≤
              ∑ i : Fin 4, (s * V 6 (Fin.castAdd 4 i) + V 7 (Fin.castAdd 4 i)) ^ 2) := by
  obtain ⟨T, V, _, _, hs, _, hT, hsv, _, hk⟩ := compute_eq_ok h
  obtain ⟨ha, hdisc, hlen, hR⟩ := solveKernel_eq_ok.mp hk
  have hq : ∀ t : ℝ, ∑ i : Fin 4, (t * V 6 (Fin.castAdd 4 i) + V 7 (Fin.castAdd 4 i)) *
      (t * V 6 (Fin.natAdd 4 i) + V 7 (Fin.natAdd 4 i)) = Root.a (splitRow (V 6)) (splitRow (V 7)) * t ^ 2 +
      Root.b (splitRow (V 6)) (splitRow (V 7)) * t + Root.c (splitRow (V 6)) (splitRow (V 7)) := by
    intro t
    rw [← combo_orth, Fin.sum_univ_four]
    rfl
  have hn : ∀ t : ℝ, ∑ i : Fin 4, (t * V 6 (Fin.castAdd 4 i) + V 7 (Fin.castAdd 4 i)) ^ 2 =
      Root.len (splitRow (V 6)) (splitRow (V 7)) t := by
    intro t
    rw [Fin.sum_univ_four]
    simp only [sq]
    rfl
  refine ⟨T, V, hT, hsv, Root.s (splitRow (V 6)) (splitRow (V 7)), ?_⟩
  have hpos : 0 < Real.sqrt (1 / Root.len (splitRow (V 6)) (splitRow (V 7)) (Root.s (splitRow (V 6)) (splitRow (V 7)))) :=
    Real.sqrt_pos.mpr (by positivity)
  have hbest := root_best ha
  simp only [hq, hn]
  generalize Real.sqrt _ = g at hR hpos
  generalize Root.s (splitRow (V 6)) (splitRow (V 7)) = s at *
  rcases posW_eq_or (g • (s • splitRow (V 6) + splitRow (V 7))) with e | e
  · exact ⟨g, hpos.ne', by rw [hR, e]; rfl, hbest⟩
  · refine ⟨-g, neg_ne_zero.mpr hpos.ne', ?_, hbest⟩
    rw [hR, e]
    apply DQuat.ext' <;> ext <;> simp [splitRow] <;> ring

example : ∃ (svd : Svd) (r : Calibration) (V : Fin 8 → Fin 8 → ℝ) (s k : ℝ),
    computeHandEyeCalibration svd sampleB sampleW 1e-2 true = .ok r ∧ k ≠ 0 ∧
      r.dq_H_E.rot.w = k * (s * V 6 3 + V 7 3) := by
  obtain ⟨svd, _, r, h⟩ := sample_run
  obtain ⟨T, V, -, -, s, k, hk, he, -⟩ := C29_best_combination svd _ _ _ _ r h
  exact ⟨svd, r, V, s, k, h, hk, by rw [he]⟩

theorem bad_fold (l : List (ℝ × ℕ)) (b0 : Bool) :
    (l.foldl (fun bad p => if p.2 < 6 then (if p.1 < 5e-1 then true else bad)
      else (if p.1 > 5e-1 then true else bad)) b0 = true) ↔
    b0 = true ∨ ∃ p ∈ l, (p.2 < 6 ∧ p.1 < 0.5) ∨ (6 ≤ p.2 ∧ p.1 > 0.5) := by
  induction l generalizing b0 with
  | nil => simp
  | cons p l ih =>
    rw [List.foldl_cons, ih]
    simp only [List.mem_cons, exists_eq_or_imp]
    by_cases h6 : p.2 < 6
    · by_cases hp : p.1 < 5e-1
      · have hp' : p.1 < 0.5 := by norm_num at hp ⊢; exact hp
        simp [h6, hp, hp']
      · have hp' : ¬ p.1 < 0.5 := by norm_num at hp ⊢; exact hp
        have h6' : ¬ 6 ≤ p.2 := by omega
        simp [h6, hp, h6']
    · have h6' : 6 ≤ p.2 := by omega
      by_cases hp : p.1 > 5e-1
      · have hp' : p.1 > 0.5 := by norm_num at hp ⊢; exact hp
        simp [h6, hp, h6']
      · have hp' : ¬ p.1 > 0.5 := by norm_num at hp ⊢; exact hp
        simp [h6, hp, h6']

theorem bad_iff (s : List ℝ) : badSingularValues s = true ↔
    ∃ i, ∃ h : i < s.length, (i < 6 ∧ s[i] < 0.5) ∨ (6 ≤ i ∧ s[i] > 0.5) := by
  unfold badSingularValues
  rw [bad_fold]
  simp only [Bool.false_eq_true, false_or]
  constructor
  · rintro ⟨⟨x, i⟩, hp, h⟩
    obtain ⟨hi, hx⟩ := List.mem_zipIdx' hp
    rw [hx] at h
    exact ⟨i, hi, h⟩
  · rintro ⟨i, hi, h⟩
    exact ⟨(s[i], i), List.mk_mem_zipIdx_iff_getElem?.mpr (by simp [hi]), h⟩

/-- C30: the flag of a returned calibration is the rank test on the returned singular values. -/
theorem C30_flag (svd : Svd) (bs ws : List DQuat) (tol : ℝ) (enf : Bool) (r : Calibration)
    (h : computeHandEyeCalibration svd bs ws tol enf = .ok r) :
    r.bad_singular_values = true ↔ ∃ i, ∃ hi : i < r.singular_values.length,
      (i < 6 ∧ r.singular_values[i] < 0.5) ∨ (6 ≤ i ∧ r.singular_values[i] > 0.5) := by
  obtain ⟨_, _, _, _, _, _, _, _, hb, _⟩ := compute_eq_ok h
  rw [hb, bad_iff]

/-- C30: on exact data with two non-parallel rotation axes there are eight singular values, and the
flag says whether the sixth one is below 0.5. -/
theorem C30_flag_exact (svd : Svd) (hsvd : ∀ T s V, svd T = .ok (s, V) → Spec.IsSVD T s V)
    (bs ws : List DQuat) (X : DQuat) (hX : Spec.IsUnit X) (he : Spec.Exact bs ws X)
    (h2 : Spec.TwoAxes bs) (hr : X.rot.w ≠ 0 ∨ ∃ b ∈ bs, b.rot.vec.dot X.rot.vec ≠ 0)
    (tol : ℝ) (enf : Bool) (r : Calibration)
    (h : computeHandEyeCalibration svd bs ws tol enf = .ok r) :
    ∃ h8 : r.singular_values.length = 8,
      (r.bad_singular_values = true ↔ r.singular_values[5] < 0.5) := by
  obtain ⟨T, V, _, _, hs, _, hT, hsv, hb, _⟩ := compute_eq_ok h
  rw [exact_signs hX he hs] at hT
  have hS := hsvd _ _ _ hsv
  obtain ⟨hl, z6, z7, _⟩ := exact_svd hX he h2 hr hT hS
  refine ⟨hl, ?_⟩
  rw [hb, bad_iff]
  clear hs h hsv hb
  have hd : ∀ k (hk : k < r.singular_values.length), r.singular_values.getD k 0 = r.singular_values[k] := fun k hk => by
    simp [List.getD_eq_getElem?_getD, hk]
  rw [hd 6 (by omega)] at z6
  rw [hd 7 (by omega)] at z7
  constructor
  · rintro ⟨i, hi, ⟨h6, hx⟩ | ⟨h6, hx⟩⟩
    · rcases Nat.lt_or_ge i 5 with h5 | h5
      · have := List.pairwise_iff_getElem.mp hS.sorted i 5 hi (by omega) h5
        linarith
      · have : i = 5 := by omega
        subst this; exact hx
    · have : i = 6 ∨ i = 7 := by omega
      rcases this with rfl | rfl
      · rw [z6] at hx; norm_num at hx
      · rw [z7] at hx; norm_num at hx
  · intro hx
    exact ⟨5, by omega, Or.inl ⟨by omega, hx⟩⟩

example : ∃ svd : Svd, ∃ r, computeHandEyeCalibration svd sampleB sampleW 1e-2 true = .ok r ∧
    ∃ h8 : r.singular_values.length = 8,
      (r.bad_singular_values = true ↔ r.singular_values[5] < 0.5) := by
  obtain ⟨svd, hsvd, r, h⟩ := sample_run
  obtain ⟨h1, h2, h3, h4⟩ := sample_data
  exact ⟨svd, r, h, C30_flag_exact svd hsvd _ _ _ h1 h2 h3 (Or.inl h4) _ _ r h⟩

example : badSingularValues [3, 2, 2, 1, 0.6, 0.5, 0, 0] = false := by
  rw [← Bool.not_eq_true, bad_iff]
  rintro ⟨i, hi, h | h⟩
  · obtain ⟨h6, h⟩ := h
    interval_cases i <;> norm_num at h
  · obtain ⟨h6, h⟩ := h
    simp only [List.length_cons, List.length_nil] at hi
    interval_cases i <;> norm_num at h

example : badSingularValues [3, 2, 2, 1, 0.6, 0.4, 0, 0] = true :=
  (bad_iff _).mpr ⟨5, by simp, Or.inl ⟨by norm_num, by norm_num⟩⟩

end HandEye
