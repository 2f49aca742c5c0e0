import Verif.Lemmas.Kernel
import Verif.Lemmas.Slerp

/-! # Properties C24-C26: the linear system of the hand-eye solver -/

namespace HandEye

/-- C24: pose pairs that satisfy the hand-eye equation have equal scalar parts, real and dual. -/
theorem C24_scalar_parts (b X w : DQuat) (hX : Spec.IsUnit X) (h : Spec.HandEyeEq b X w) :
    b.rot.w = w.rot.w ∧ b.dual.w = w.dual.w := sameScalars_of_exact hX h

/-- C24: hence on exact data of any length neither the scalar-part gate of the solver (for any
non-negative tolerance) nor the one inside the construction of the linear system raises, and the sign
loop changes nothing. -/
theorem C24_gate (bs ws : List DQuat) (X : DQuat) (hX : Spec.IsUnit X) (h : Spec.Exact bs ws X)
    (tol : ℝ) (ht : 0 ≤ tol) :
    scalarGate tol bs ws = .ok () ∧ (∃ T, setupTMatrix bs ws = .ok T) ∧
      enforceSameSign bs ws = .ok ws := by
  have hs : List.Forall₂ SameScalars bs ws := h.imp fun _ _ => sameScalars_of_exact hX
  refine ⟨scalarGate_same ht hs, ⟨_, setupTMatrix_same hs⟩, ?_⟩
  clear h
  induction hs with
  | nil => rfl
  | cons hbw _ ih =>
    rw [enforceSameSign, ih, Py.ok_bind, if_neg]
    · rfl
    · rw [hbw.1]; rintro (⟨h1, h2⟩ | ⟨h1, h2⟩) <;> linarith

/-- A concrete case: a quarter-ish turn and a shift, seen through a rotated and shifted eye. -/
example : Spec.IsUnit ⟨⟨0, 0, 0.6, 0.8⟩, ⟨0.8, 0, 0, 0⟩⟩ ∧
    Spec.Exact [⟨⟨0, 0.6, 0, 0.8⟩, ⟨1, 0, 0, 0⟩⟩]
      [⟨⟨0.576, 0.168, 0, 0.8⟩, ⟨0.28, -0.96, -0.768, 0⟩⟩] ⟨⟨0, 0, 0.6, 0.8⟩, ⟨0.8, 0, 0, 0⟩⟩ := by
  constructor
  · rw [DQuat.isUnit_iff]; norm_num [Quat.dot]
  · refine .cons ?_ .nil
    rw [handEyeEq_iff]
    apply DQuat.ext' <;> ext <;> norm_num

theorem vec8_splitRow (y : Fin 8 → ℝ) : Spec.vec8 (splitRow y) = y := by
  funext i
  fin_cases i <;> rfl

/-- The system that the solver builds from exact data, as conditions on dual quaternions. -/
theorem solves_exact {bs ws : List DQuat} {X : DQuat} {T : List (Fin 8 → ℝ)} (hX : Spec.IsUnit X)
    (h : Spec.Exact bs ws X) (hT : setupTMatrix bs ws = .ok T) (y : DQuat) :
    Spec.Solves T (Spec.vec8 y) ↔ ∀ p ∈ bs.zip ws, (p.1 * y - y * p.2).rot.vec = ⟨0, 0, 0⟩ ∧
      (p.1 * y - y * p.2).dual.vec = ⟨0, 0, 0⟩ := by
  have hs : List.Forall₂ SameScalars bs ws := h.imp fun _ _ => sameScalars_of_exact hX
  rw [setupTMatrix_same hs] at hT
  cases hT
  rw [solves_flatMap]
  have hz : ∀ p ∈ bs.zip ws, SameScalars p.1 p.2 := fun p hp =>
    (List.forall₂_iff_zip.mp hs).2 hp
  exact forall₂_congr fun p hp => solves_block (hz p hp) y

theorem exact_zip {bs ws : List DQuat} {X : DQuat} (h : Spec.Exact bs ws X) {p : DQuat × DQuat}
    (hp : p ∈ bs.zip ws) : p.1 * X = X * p.2 :=
  handEyeEq_iff.mp ((List.forall₂_iff_zip.mp h).2 hp)

/-- C25: on exact data the matrix T has six rows per pose pair, and both `(X_rot; X_dual)` and
`(0; X_rot)` solve `T y = 0`. -/
theorem C25_true_calibration_solves (bs ws : List DQuat) (X : DQuat) (hX : Spec.IsUnit X)
    (h : Spec.Exact bs ws X) :
    ∃ T, setupTMatrix bs ws = .ok T ∧ T.length = 6 * bs.length ∧
      Spec.Solves T (Spec.vec8 X) ∧ Spec.Solves T (Spec.vec8 ⟨⟨0, 0, 0, 0⟩, X.rot⟩) := by
  obtain ⟨T, hT⟩ := (C24_gate bs ws X hX h 0 le_rfl).2.1
  refine ⟨T, hT, setupTMatrix_length hT, ?_, ?_⟩
  · rw [solves_exact hX h hT]
    intro p hp
    rw [exact_zip h hp, sub_self]
    exact ⟨rfl, rfl⟩
  · rw [solves_exact hX h hT]
    intro p hp
    have e := congrArg DQuat.rot (exact_zip h hp)
    simp only [DQuat.mul_rot] at e
    have e' : p.1 * (⟨0, X.rot⟩ : DQuat) - ⟨0, X.rot⟩ * p.2 = 0 := by
      apply DQuat.ext'
      · simp
      · simp only [DQuat.sub_dual, DQuat.mul_dual, mul_zero, zero_mul, e, add_zero, zero_add,
          sub_self, DQuat.zero_dual]
    rw [show (⟨⟨0, 0, 0, 0⟩, X.rot⟩ : DQuat) = ⟨0, X.rot⟩ from rfl, e']
    exact ⟨rfl, rfl⟩

/-- C26: if two of the rotations have non-parallel axes, the solutions of `T y = 0` are exactly the
combinations of `(X_rot; X_dual)` and `(0; X_rot)`.
Partial: X must not be a half turn about an axis perpendicular to all rotation axes of the data
(`C26_halfturn_refuted`). -/
theorem C26_kernel_partial (bs ws : List DQuat) (X : DQuat) (hX : Spec.IsUnit X)
    (h : Spec.Exact bs ws X) (h2 : Spec.TwoAxes bs)
    (hr : X.rot.w ≠ 0 ∨ ∃ b ∈ bs, b.rot.vec.dot X.rot.vec ≠ 0) (T : List (Fin 8 → ℝ))
    (hT : setupTMatrix bs ws = .ok T) (y : Fin 8 → ℝ) :
    Spec.Solves T y ↔ ∃ l m : ℝ, ∀ i, y i = l * Spec.vec8 X i +
      m * Spec.vec8 ⟨⟨0, 0, 0, 0⟩, X.rot⟩ i := by
  constructor
  · intro hy
    rw [← vec8_splitRow y, solves_exact hX h hT] at hy
    obtain ⟨l, m, hlm⟩ := exact_kernel hX h h2 hr hy
    refine ⟨l, m, fun i => ?_⟩
    rw [← vec8_splitRow y, hlm]
    fin_cases i <;> simp [Spec.vec8]
  · rintro ⟨l, m, hlm⟩
    obtain ⟨T', hT', _, h1, h2⟩ := C25_true_calibration_solves bs ws X hX h
    rw [hT] at hT'
    cases hT'
    intro row hrow
    have e1 := h1 row hrow
    have e2 := h2 row hrow
    have : ∑ j, row j * y j = l * ∑ j, row j * Spec.vec8 X j +
        m * ∑ j, row j * Spec.vec8 ⟨⟨0, 0, 0, 0⟩, X.rot⟩ j := by
      rw [Finset.mul_sum, Finset.mul_sum, ← Finset.sum_add_distrib]
      exact Finset.sum_congr rfl fun j _ => by rw [hlm j]; ring
    rw [this, e1, e2]; ring

/-- Concrete exact data with two axes and a hand-eye transform that rotates and translates. -/
def sampleX : DQuat := ⟨⟨0, 0, 0.6, 0.8⟩, ⟨0.8, 0, 0, 0⟩⟩
/-- See `sampleX`. -/
def sampleB : List DQuat :=
  [⟨⟨0, 0, 0, 1⟩, ⟨0, 0, 0, 0⟩⟩, ⟨⟨0, 0.6, 0, 0.8⟩, ⟨1, 0, 0, 0⟩⟩, ⟨⟨0.8, 0, 0, 0.6⟩, ⟨0, 1, 2, 0⟩⟩]
/-- See `sampleX`. -/
def sampleW : List DQuat :=
  [⟨⟨0, 0, 0, 1⟩, ⟨0, 0, 0, 0⟩⟩, ⟨⟨0.576, 0.168, 0, 0.8⟩, ⟨0.28, -0.96, -0.768, 0⟩⟩,
   ⟨⟨0.224, -0.768, 0, 0.6⟩, ⟨0.96, 0.28, 2.768, 0⟩⟩]

/-- The sample data meets the hypotheses of C25-C28. -/
theorem sample_data : Spec.IsUnit sampleX ∧ Spec.Exact sampleB sampleW sampleX ∧
    Spec.TwoAxes sampleB ∧ sampleX.rot.w ≠ 0 := by
  refine ⟨by rw [DQuat.isUnit_iff]; norm_num [Quat.dot, sampleX],
    .cons ?_ (.cons ?_ (.cons ?_ .nil)), ⟨⟨⟨0, 0.6, 0, 0.8⟩, ⟨1, 0, 0, 0⟩⟩, by simp [sampleB],
      ⟨⟨0.8, 0, 0, 0.6⟩, ⟨0, 1, 2, 0⟩⟩, by simp [sampleB], ?_⟩, by norm_num [sampleX]⟩
  · rw [handEyeEq_iff]; apply DQuat.ext' <;> ext <;> norm_num [sampleX]
  · rw [handEyeEq_iff]; apply DQuat.ext' <;> ext <;> norm_num [sampleX]
  · rw [handEyeEq_iff]; apply DQuat.ext' <;> ext <;> norm_num [sampleX]
  · norm_num [Spec.cross, Quat.vec]

/-- C26: under the same conditions X and -X are the only unit dual quaternions among the solutions.
Partial for the same reason. -/
theorem C26_unique_partial (bs ws : List DQuat) (X : DQuat) (hX : Spec.IsUnit X)
    (h : Spec.Exact bs ws X) (h2 : Spec.TwoAxes bs)
    (hr : X.rot.w ≠ 0 ∨ ∃ b ∈ bs, b.rot.vec.dot X.rot.vec ≠ 0) (T : List (Fin 8 → ℝ))
    (hT : setupTMatrix bs ws = .ok T) (Y : DQuat) (hY : Spec.IsUnit Y) (hs : Spec.Solves T (Spec.vec8 Y)) :
    Spec.SameUpToSign Y X := by
  rw [solves_exact hX h hT] at hs
  obtain ⟨l, m, rfl⟩ := exact_kernel hX h h2 hr hs
  have u1 := DQuat.IsUnit.rot hY
  have u2 := DQuat.IsUnit.orth hY
  rw [Quat.smul_dot, Quat.dot_smul, DQuat.IsUnit.rot hX] at u1
  rw [Quat.smul_dot, Quat.dot_add, Quat.dot_smul, Quat.dot_smul, DQuat.IsUnit.rot hX,
    DQuat.IsUnit.orth hX] at u2
  have hl : l = 1 ∨ l = -1 := by
    have : (l - 1) * (l + 1) = 0 := by linear_combination u1
    rcases mul_eq_zero.mp this with h | h
    · left; linarith
    · right; linarith
  have hm : m = 0 := by
    rcases hl with rfl | rfl <;> linarith
  subst hm
  rw [sameUpToSign_iff]
  rcases hl with rfl | rfl
  · left; apply DQuat.ext' <;> simp
  · right; apply DQuat.ext' <;> simp

/-- C26, the missing case in general: if X is a half turn about an axis perpendicular to all rotation
axes, the system always has further solutions, although the rotation axes are not parallel. -/
theorem C26_perpendicular_halfturn_refuted (bs ws : List DQuat) (X : DQuat) (hX : Spec.IsUnit X)
    (h : Spec.Exact bs ws X) (h2 : Spec.TwoAxes bs) (hw : X.rot.w = 0)
    (hp : ∀ b ∈ bs, b.rot.vec.dot X.rot.vec = 0) (T : List (Fin 8 → ℝ))
    (hT : setupTMatrix bs ws = .ok T) :
    ∃ y, Spec.Solves T y ∧ ¬ ∃ l m : ℝ, ∀ i, y i = l * Spec.vec8 X i +
      m * Spec.vec8 ⟨⟨0, 0, 0, 0⟩, X.rot⟩ i := by
  obtain ⟨b₁, hb₁, b₂, hb₂, hn⟩ := h2
  set p : Quat := Quat.ofVec b₁.rot.vec with hpdef
  have hp0 : p ≠ 0 := by
    intro h0
    have e : b₁.rot.vec = ⟨0, 0, 0⟩ := DQuat.ofVec_injective (h0.trans (by ext <;> simp))
    apply hn
    rw [e]; simp [Spec.cross]
  refine ⟨Spec.vec8 ⟨0, p * X.rot⟩, ?_, ?_⟩
  · rw [solves_exact hX h hT]
    intro q hq
    have e := congrArg DQuat.rot (exact_zip h hq)
    simp only [DQuat.mul_rot] at e
    have hqm : q.1 ∈ bs := (List.of_mem_zip hq).1
    have e' : (q.1 * (⟨0, p * X.rot⟩ : DQuat) - ⟨0, p * X.rot⟩ * q.2).dual
        = (q.1.rot * p - p * q.1.rot) * X.rot := by
      simp only [DQuat.sub_dual, DQuat.mul_dual, mul_zero, zero_mul, add_zero, zero_add]
      rw [mul_assoc p, ← e]; noncomm_ring
    refine ⟨?_, ?_⟩
    · simp only [DQuat.sub_rot, DQuat.mul_rot, mul_zero, zero_mul, sub_zero]; rfl
    · rw [e', vec_mul_pure (commutator_vec _ _).1, (commutator_vec _ _).2, hw]
      have o1 := hp _ hqm
      have o2 := hp _ hb₁
      rw [hpdef, Quat.vec_ofVec]
      generalize q.1.rot.vec = a at *
      generalize b₁.rot.vec = c at *
      generalize X.rot.vec = r at *
      simp only [Vec3.ext_iff, Vec3.add_x, Vec3.add_y, Vec3.add_z, Vec3.smul_x, Vec3.smul_y,
        Vec3.smul_z, Spec.cross, Vec3.dot] at o1 o2 ⊢
      refine ⟨?_, ?_, ?_⟩ <;> grind
  · rintro ⟨l, m, hlm⟩
    have hrot : (p * X.rot) = m • X.rot := by
      have hl0 : l • X.rot = 0 := by
        have h0 := hlm 0; have h1 := hlm 1; have h2 := hlm 2; have h3 := hlm 3
        simp [Spec.vec8] at h0 h1 h2 h3
        ext <;> simp <;> tauto
      have hl : l = 0 := by
        have := congrArg (fun q => q.dot X.rot) hl0
        simp only [Quat.smul_dot, DQuat.IsUnit.rot hX, mul_one] at this
        rw [this]; simp [Quat.dot]
      subst hl
      have h0 := hlm 4; have h1 := hlm 5; have h2 := hlm 6; have h3 := hlm 7
      simp only [Spec.vec8, zero_mul, zero_add] at h0 h1 h2 h3
      ext
      · exact h0
      · exact h1
      · exact h2
      · exact h3
    have hpm : p = m • (1 : Quat) := by
      have := congrArg (· * X.rot.conj) hrot
      simpa only [mul_assoc, Quat.mul_conj_unit (DQuat.IsUnit.rot hX), mul_one, Quat.smul_mul]
        using this
    have : m = 0 := by
      have := congrArg Quat.w hpm
      simp [hpdef] at this
      exact this.symm
    apply hp0
    rw [hpm, this, zero_smul]

theorem halfturn_data : Spec.IsUnit ⟨⟨0, 0, 1, 0⟩, ⟨0, 0, 0, 0⟩⟩ ∧
    Spec.Exact [⟨⟨0, 0, 0, 1⟩, ⟨0, 0, 0, 0⟩⟩, ⟨⟨0.6, 0, 0, 0.8⟩, ⟨0, 0, 0, 0⟩⟩, ⟨⟨0, 0.6, 0, 0.8⟩, ⟨0, 0, 0, 0⟩⟩]
      [⟨⟨0, 0, 0, 1⟩, ⟨0, 0, 0, 0⟩⟩, ⟨⟨-0.6, 0, 0, 0.8⟩, ⟨0, 0, 0, 0⟩⟩, ⟨⟨0, -0.6, 0, 0.8⟩, ⟨0, 0, 0, 0⟩⟩]
      ⟨⟨0, 0, 1, 0⟩, ⟨0, 0, 0, 0⟩⟩ ∧
    Spec.TwoAxes [⟨⟨0, 0, 0, 1⟩, ⟨0, 0, 0, 0⟩⟩, ⟨⟨0.6, 0, 0, 0.8⟩, ⟨0, 0, 0, 0⟩⟩, ⟨⟨0, 0.6, 0, 0.8⟩, ⟨0, 0, 0, 0⟩⟩] := by
  refine ⟨by rw [DQuat.isUnit_iff]; norm_num [Quat.dot],
    .cons ?_ (.cons ?_ (.cons ?_ .nil)), ⟨⟨⟨0.6, 0, 0, 0.8⟩, ⟨0, 0, 0, 0⟩⟩, by simp,
      ⟨⟨0, 0.6, 0, 0.8⟩, ⟨0, 0, 0, 0⟩⟩, by simp, ?_⟩⟩
  · rw [handEyeEq_iff]; apply DQuat.ext' <;> ext <;> norm_num
  · rw [handEyeEq_iff]; apply DQuat.ext' <;> ext <;> norm_num
  · rw [handEyeEq_iff]; apply DQuat.ext' <;> ext <;> norm_num
  · norm_num [Spec.cross, Quat.vec]

/-- C26 is false as stated: exact data with two perpendicular rotation axes (x and y) and X the half
turn about z leaves a solution that is no combination of the two. -/
theorem C26_halfturn_refuted :
    ∃ bs ws X, Spec.IsUnit X ∧ Spec.Exact bs ws X ∧ Spec.TwoAxes bs ∧
      ∃ T, setupTMatrix bs ws = .ok T ∧ ∃ y, Spec.Solves T y ∧
        ¬ ∃ l m : ℝ, ∀ i, y i = l * Spec.vec8 X i + m * Spec.vec8 ⟨⟨0, 0, 0, 0⟩, X.rot⟩ i := by
  obtain ⟨h1, h2, h3⟩ := halfturn_data
  obtain ⟨T, hT⟩ := (C24_gate _ _ _ h1 h2 0 le_rfl).2.1
  refine ⟨_, _, _, h1, h2, h3, T, hT,
    C26_perpendicular_halfturn_refuted _ _ _ h1 h2 h3 rfl ?_ T hT⟩
  intro b hb
  simp only [List.mem_cons, List.not_mem_nil, or_false] at hb
  rcases hb with rfl | rfl | rfl <;> simp [Vec3.dot]

end HandEye
