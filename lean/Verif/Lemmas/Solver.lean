import Verif.Lemmas.Svd
import Verif.Props.HandEye2

/-! # Lemmas about the closing steps of the hand-eye solver -/

namespace HandEye

namespace Root

/-- The coefficients of the quadratic. -/
def a (v₇ _v₈ : DQuat) : ℝ := v₇.rot.dot v₇.dual
/-- See `a`. -/
def b (v₇ v₈ : DQuat) : ℝ := v₇.rot.dot v₈.dual + v₈.rot.dot v₇.dual
/-- See `a`. -/
def c (_v₇ v₈ : DQuat) : ℝ := v₈.rot.dot v₈.dual
/-- The discriminant. -/
def disc (v₇ v₈ : DQuat) : ℝ := b v₇ v₈ * b v₇ v₈ - 4 * a v₇ v₈ * c v₇ v₈
/-- The squared length of the rotation part of `s v₇ + v₈`. -/
def len (v₇ v₈ : DQuat) (s : ℝ) : ℝ := (s • v₇ + v₈).rot.dot (s • v₇ + v₈).rot
/-- The two roots. -/
noncomputable def s₁ (v₇ v₈ : DQuat) : ℝ :=
  (-b v₇ v₈ + Real.sqrt (if disc v₇ v₈ < 0 then 0 else disc v₇ v₈)) / (2 * a v₇ v₈)
/-- See `s₁`. -/
noncomputable def s₂ (v₇ v₈ : DQuat) : ℝ :=
  (-b v₇ v₈ - Real.sqrt (if disc v₇ v₈ < 0 then 0 else disc v₇ v₈)) / (2 * a v₇ v₈)
/-- The chosen root. -/
noncomputable def s (v₇ v₈ : DQuat) : ℝ :=
  if len v₇ v₈ (s₁ v₇ v₈) > len v₇ v₈ (s₂ v₇ v₈) then s₁ v₇ v₈ else s₂ v₇ v₈

end Root

theorem root_len (v₇ v₈ : DQuat) (t : ℝ) :
    t * t * v₇.rot.dot v₇.rot + 2 * t * v₇.rot.dot v₈.rot + v₈.rot.dot v₈.rot = Root.len v₇ v₈ t := by
  simp only [Root.len, Quat.dot, DQuat.add_rot, DQuat.smul_rot, Quat.add_x, Quat.add_y, Quat.add_z,
    Quat.add_w, Quat.smul_x, Quat.smul_y, Quat.smul_z, Quat.smul_w]
  ring

theorem scaled_unit {v₇ v₈ : DQuat} {t : ℝ} (h : Root.len v₇ v₈ t > 0) :
    (Real.sqrt (1 / Root.len v₇ v₈ t) • (t • v₇ + v₈)).rot.dot
      (Real.sqrt (1 / Root.len v₇ v₈ t) • (t • v₇ + v₈)).rot = 1 := by
  rw [DQuat.smul_rot, Quat.smul_dot, Quat.dot_smul, ← mul_assoc, Real.mul_self_sqrt (by positivity)]
  rw [← Root.len]
  field_simp

theorem smul_combo (v₇ v₈ : DQuat) (t l : ℝ) : (t * l) • v₇ + l • v₈ = l • (t • v₇ + v₈) := by
  apply DQuat.ext' <;> ext <;> simp <;> ring

/-- The closing steps of the solver without the detours: the normalisation has no effect. -/
theorem solveKernel_eq (v₇ v₈ : DQuat) : solveKernel v₇ v₈ = (do
    pyAssert (Root.a v₇ v₈ ≠ 0)
    pyAssert (¬ Root.disc v₇ v₈ < -1e-2)
    pyAssert (Root.len v₇ v₈ (Root.s v₇ v₈) > 0)
    return posW (Real.sqrt (1 / Root.len v₇ v₈ (Root.s v₇ v₈)) • (Root.s v₇ v₈ • v₇ + v₈))) := by
  unfold solveKernel
  simp only [root_len]
  change (do
    pyAssert (Root.a v₇ v₈ ≠ 0)
    pyAssert (¬ Root.disc v₇ v₈ < -1e-2)
    let __x ← (if Root.len v₇ v₈ (Root.s₁ v₇ v₈) > Root.len v₇ v₈ (Root.s₂ v₇ v₈) then do
        pyAssert (Root.len v₇ v₈ (Root.s₁ v₇ v₈) > 0)
        return (Root.s₁ v₇ v₈ * Real.sqrt (1 / Root.len v₇ v₈ (Root.s₁ v₇ v₈)),
          Real.sqrt (1 / Root.len v₇ v₈ (Root.s₁ v₇ v₈)))
      else do
        pyAssert (Root.len v₇ v₈ (Root.s₂ v₇ v₈) > 0)
        return (Root.s₂ v₇ v₈ * Real.sqrt (1 / Root.len v₇ v₈ (Root.s₂ v₇ v₈)),
          Real.sqrt (1 / Root.len v₇ v₈ (Root.s₂ v₇ v₈))) : Py (ℝ × ℝ))
    let dq ← (__x.1 • v₇ + __x.2 • v₈).normalize
    return posW dq) = _
  have key : ∀ t, (do
      let __x ← (do
        pyAssert (Root.len v₇ v₈ t > 0)
        return (t * Real.sqrt (1 / Root.len v₇ v₈ t), Real.sqrt (1 / Root.len v₇ v₈ t)) : Py (ℝ × ℝ))
      let dq ← (__x.1 • v₇ + __x.2 • v₈).normalize
      return posW dq) = (do
      pyAssert (Root.len v₇ v₈ t > 0)
      return posW (Real.sqrt (1 / Root.len v₇ v₈ t) • (t • v₇ + v₈)) : Py DQuat) := by
    intro t
    by_cases hl : Root.len v₇ v₈ t > 0
    · simp only [pyAssert_pos hl, Py.ok_bind, Py.pure_eq]
      rw [smul_combo, DQuat.normalize_unit (scaled_unit hl), Py.ok_bind]
    · simp only [pyAssert_neg hl, Py.error_bind]
  congr 1; funext _
  congr 1; funext _
  unfold Root.s
  split_ifs
  · exact key _
  · exact key _

theorem solveKernel_eq_ok {v₇ v₈ R : DQuat} : solveKernel v₇ v₈ = .ok R ↔
    Root.a v₇ v₈ ≠ 0 ∧ ¬ Root.disc v₇ v₈ < -1e-2 ∧ Root.len v₇ v₈ (Root.s v₇ v₈) > 0 ∧
      R = posW (Real.sqrt (1 / Root.len v₇ v₈ (Root.s v₇ v₈)) • (Root.s v₇ v₈ • v₇ + v₈)) := by
  rw [solveKernel_eq]
  by_cases h1 : Root.a v₇ v₈ ≠ 0
  · by_cases h2 : ¬ Root.disc v₇ v₈ < -1e-2
    · by_cases h3 : Root.len v₇ v₈ (Root.s v₇ v₈) > 0
      · rw [pyAssert_pos h1, Py.ok_bind, pyAssert_pos h2, Py.ok_bind, pyAssert_pos h3, Py.ok_bind]
        constructor
        · intro h; cases h; exact ⟨h1, h2, h3, rfl⟩
        · rintro ⟨_, _, _, rfl⟩; rfl
      · rw [pyAssert_pos h1, Py.ok_bind, pyAssert_pos h2, Py.ok_bind, pyAssert_neg h3, Py.error_bind]
        exact ⟨(by intro h; cases h), fun h => absurd h.2.2.1 h3⟩
    · rw [pyAssert_pos h1, Py.ok_bind, pyAssert_neg h2, Py.error_bind]
      exact ⟨(by intro h; cases h), fun h => absurd h.2.1 h2⟩
  · rw [pyAssert_neg h1, Py.error_bind]
    exact ⟨(by intro h; cases h), fun h => absurd h.1 h1⟩

/-- The chosen root solves the quadratic if it has real roots. -/
theorem root_solves {v₇ v₈ : DQuat} (ha : Root.a v₇ v₈ ≠ 0) (hd : 0 ≤ Root.disc v₇ v₈) :
    Root.a v₇ v₈ * Root.s v₇ v₈ ^ 2 + Root.b v₇ v₈ * Root.s v₇ v₈ + Root.c v₇ v₈ = 0 := by
  have hsq : Real.sqrt (Root.disc v₇ v₈) ^ 2 = Root.disc v₇ v₈ := Real.sq_sqrt hd
  have hd' := hsq
  rw [Root.disc] at hsq
  unfold Root.s Root.s₁ Root.s₂
  rw [if_neg (not_lt.mpr hd)]
  rw [show Root.disc v₇ v₈ = Root.b v₇ v₈ * Root.b v₇ v₈ - 4 * Root.a v₇ v₈ * Root.c v₇ v₈ from rfl] at *
  generalize Real.sqrt (Root.b v₇ v₈ * Root.b v₇ v₈ - 4 * Root.a v₇ v₈ * Root.c v₇ v₈) = q at *
  generalize Root.a v₇ v₈ = a at *
  generalize Root.b v₇ v₈ = b at *
  generalize Root.c v₇ v₈ = c at *
  split_ifs
  · field_simp; linear_combination hd'
  · field_simp; linear_combination hd'

theorem combo_orth (v₇ v₈ : DQuat) (t : ℝ) : (t • v₇ + v₈).rot.dot (t • v₇ + v₈).dual
    = Root.a v₇ v₈ * t ^ 2 + Root.b v₇ v₈ * t + Root.c v₇ v₈ := by
  simp only [Root.a, Root.b, Root.c, Quat.dot, DQuat.add_rot, DQuat.smul_rot, DQuat.add_dual,
    DQuat.smul_dual, Quat.add_x, Quat.add_y, Quat.add_z,
    Quat.add_w, Quat.smul_x, Quat.smul_y, Quat.smul_z, Quat.smul_w]
  ring

/-- A kernel vector of exact data. -/
def kvec (X : DQuat) (l m : ℝ) : DQuat := ⟨l • X.rot, l • X.dual + m • X.rot⟩

theorem kvec_dot {X : DQuat} (hX : Spec.IsUnit X) (l m l' m' : ℝ) :
    (kvec X l m).rot.dot (kvec X l' m').dual = l * m' ∧
    (kvec X l m).rot.dot (kvec X l' m').rot = l * l' := by
  simp only [kvec, Quat.smul_dot, Quat.dot_add, Quat.dot_smul, DQuat.IsUnit.rot hX,
    DQuat.IsUnit.orth hX]
  constructor <;> ring

theorem kvec_combo (X : DQuat) (t l m l' m' : ℝ) :
    t • kvec X l m + kvec X l' m' = kvec X (t * l + l') (t * m + m') := by
  apply DQuat.ext' <;> ext <;> simp [kvec] <;> ring

theorem kvec_smul (X : DQuat) (t l m : ℝ) : t • kvec X l m = kvec X (t * l) (t * m) := by
  apply DQuat.ext' <;> ext <;> simp [kvec] <;> ring

/-- On the kernel of exact data, in any basis, the closing steps give X up to sign, unless the
first basis vector makes the leading coefficient vanish. -/
theorem solveKernel_exact {X : DQuat} (hX : Spec.IsUnit X) {l₁ m₁ l₂ m₂ : ℝ}
    (hd : l₁ * m₂ - l₂ * m₁ ≠ 0) (ha : l₁ * m₁ ≠ 0) :
    ∃ R, solveKernel (kvec X l₁ m₁) (kvec X l₂ m₂) = .ok R ∧ Spec.SameUpToSign R X ∧ 0 ≤ R.rot.w := by
  obtain ⟨hl, hm⟩ := mul_ne_zero_iff.mp ha
  have ea : Root.a (kvec X l₁ m₁) (kvec X l₂ m₂) = l₁ * m₁ := (kvec_dot hX ..).1
  have eb : Root.b (kvec X l₁ m₁) (kvec X l₂ m₂) = l₁ * m₂ + l₂ * m₁ := by
    rw [Root.b, (kvec_dot hX ..).1, (kvec_dot hX ..).1]
  have ec : Root.c (kvec X l₁ m₁) (kvec X l₂ m₂) = l₂ * m₂ := (kvec_dot hX ..).1
  have ed : Root.disc (kvec X l₁ m₁) (kvec X l₂ m₂) = (l₁ * m₂ - l₂ * m₁) ^ 2 := by
    rw [Root.disc, ea, eb, ec]; ring
  have el : ∀ t, Root.len (kvec X l₁ m₁) (kvec X l₂ m₂) t = (t * l₁ + l₂) ^ 2 := by
    intro t
    rw [Root.len, kvec_combo, (kvec_dot hX ..).2]; ring
  have hdisc : ¬ Root.disc (kvec X l₁ m₁) (kvec X l₂ m₂) < 0 := by
    rw [ed]; exact not_lt.mpr (sq_nonneg _)
  -- the root with the longer rotation part
  have hs : Root.s (kvec X l₁ m₁) (kvec X l₂ m₂) = -m₂ / m₁ := by
    rw [Root.s, el, el, Root.s₁, Root.s₂, if_neg hdisc, ed, Real.sqrt_sq_eq_abs, ea, eb]
    rcases lt_or_gt_of_ne hd with hneg | hpos
    · rw [abs_of_neg hneg]
      have e1 : (-(l₁ * m₂ + l₂ * m₁) + -(l₁ * m₂ - l₂ * m₁)) / (2 * (l₁ * m₁)) = -m₂ / m₁ := by
        field_simp; ring
      have e2 : (-(l₁ * m₂ + l₂ * m₁) - -(l₁ * m₂ - l₂ * m₁)) / (2 * (l₁ * m₁)) = -l₂ / l₁ := by
        field_simp; ring
      rw [e1, e2, if_pos]
      have z : (-l₂ / l₁ * l₁ + l₂) ^ 2 = 0 := by field_simp; ring
      rw [z]
      have : -m₂ / m₁ * l₁ + l₂ = -(l₁ * m₂ - l₂ * m₁) / m₁ := by field_simp; ring
      rw [this]
      have : -(l₁ * m₂ - l₂ * m₁) / m₁ ≠ 0 := div_ne_zero (neg_ne_zero.mpr hd) hm
      positivity
    · rw [abs_of_pos hpos]
      have e1 : (-(l₁ * m₂ + l₂ * m₁) + (l₁ * m₂ - l₂ * m₁)) / (2 * (l₁ * m₁)) = -l₂ / l₁ := by
        field_simp; ring
      have e2 : (-(l₁ * m₂ + l₂ * m₁) - (l₁ * m₂ - l₂ * m₁)) / (2 * (l₁ * m₁)) = -m₂ / m₁ := by
        field_simp; ring
      rw [e1, e2, if_neg]
      have z : (-l₂ / l₁ * l₁ + l₂) ^ 2 = 0 := by field_simp; ring
      rw [z]
      exact not_lt.mpr (sq_nonneg _)
  have hlen : Root.len (kvec X l₁ m₁) (kvec X l₂ m₂) (-m₂ / m₁) > 0 := by
    rw [el]
    have : -m₂ / m₁ * l₁ + l₂ = -(l₁ * m₂ - l₂ * m₁) / m₁ := by field_simp; ring
    rw [this]
    have : -(l₁ * m₂ - l₂ * m₁) / m₁ ≠ 0 := div_ne_zero (neg_ne_zero.mpr hd) hm
    positivity
  have hu := scaled_unit hlen
  refine ⟨_, solveKernel_eq_ok.mpr ⟨by rw [ea]; exact ha, ?_, by rw [hs]; exact hlen, rfl⟩, ?_,
    posW_nonneg _⟩
  · rw [ed]; nlinarith [sq_nonneg (l₁ * m₂ - l₂ * m₁)]
  · rw [hs]
    generalize Real.sqrt _ = g at *
    have hz : -m₂ / m₁ * m₁ + m₂ = 0 := by field_simp; ring
    rw [kvec_combo, kvec_smul, hz, mul_zero] at hu ⊢
    rw [(kvec_dot hX ..).2] at hu
    generalize g * (-m₂ / m₁ * l₁ + l₂) = e at *
    have he : e = 1 ∨ e = -1 := by
      have : (e - 1) * (e + 1) = 0 := by linear_combination hu
      rcases mul_eq_zero.mp this with h | h
      · left; linarith
      · right; linarith
    have hk : kvec X e 0 = X ∨ kvec X e 0 = -X := by
      rcases he with rfl | rfl
      · left; apply DQuat.ext' <;> simp [kvec]
      · right; apply DQuat.ext' <;> simp [kvec]
    rw [sameUpToSign_iff]
    rcases posW_eq_or (kvec X e 0) with h | h <;> rcases hk with h' | h' <;> rw [h, h'] <;> simp

end HandEye
