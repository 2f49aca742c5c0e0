import Verif.Spec.LinearSystem
import Verif.Props.HandEye1
import Mathlib.Algebra.BigOperators.Fin
import Mathlib.Tactic.FinCases

/-! # Lemmas about the linear system of the hand-eye solver -/

namespace HandEye

theorem scalar_ok (a : DQuat) :
    a.scalar = .ok ⟨⟨0, 0, 0, a.rot.w⟩, ⟨0, 0, 0, a.dual.w⟩⟩ := by
  have h : (0.5 : ℝ) • (a + a.conj) = ⟨⟨0, 0, 0, a.rot.w⟩, ⟨0, 0, 0, a.dual.w⟩⟩ := by
    apply DQuat.ext' <;> ext <;> simp <;> ring
  unfold DQuat.scalar
  rw [h]
  simp only
  rw [pyAssert_pos]
  · rfl
  · have := npIsclose_self 0 (atol := 1e-6) (by norm_num)
    exact ⟨this, this, this, this, this, this⟩

/-- Equal scalar parts. -/
def SameScalars (b w : DQuat) : Prop := b.rot.w = w.rot.w ∧ b.dual.w = w.dual.w

theorem allclose_self (a : DQuat) {tol : ℝ} (h : 0 ≤ tol) : a.allclose a tol := by
  refine ⟨⟨?_, ?_, ?_, ?_⟩, ?_, ?_, ?_, ?_⟩ <;> exact npIsclose_self _ h

theorem sameScalars_of_exact {b X w : DQuat} (hX : Spec.IsUnit X) (h : Spec.HandEyeEq b X w) :
    SameScalars b w := by
  rw [handEyeEq_iff] at h
  have hb : b = X * w * X.conj := by rw [← h, mul_assoc, DQuat.mul_conj_unit hX, mul_one]
  have := conj_scalar_parts (a := w) hX
  rw [← hb] at this
  exact this

theorem scalarGate_same {tol : ℝ} (ht : 0 ≤ tol) {bs ws : List DQuat}
    (h : List.Forall₂ SameScalars bs ws) : scalarGate tol bs ws = .ok () := by
  induction h with
  | nil => rfl
  | cons hbw _ ih =>
    rw [scalarGate, scalar_ok, scalar_ok, Py.ok_bind, Py.ok_bind, hbw.1, hbw.2,
      pyAssert_pos (allclose_self _ ht), Py.ok_bind, ih]

theorem setupSMatrix_same {b w : DQuat} (h : SameScalars b w) :
    setupSMatrix b w = .ok (sMatrix b w) := by
  rw [setupSMatrix, scalar_ok, scalar_ok, Py.ok_bind, Py.ok_bind, h.1, h.2,
    pyAssert_pos (allclose_self _ (by norm_num)), Py.ok_bind]
  rfl

theorem setupTMatrix_same {bs ws : List DQuat} (h : List.Forall₂ SameScalars bs ws) :
    setupTMatrix bs ws = .ok ((bs.zip ws).flatMap fun p => sRows (sMatrix p.1 p.2)) := by
  induction h with
  | nil => rfl
  | cons hbw _ ih =>
    rw [setupTMatrix, setupSMatrix_same hbw, Py.ok_bind, ih, Py.ok_bind]
    rfl

theorem setupTMatrix_length {bs ws : List DQuat} {T : List (Fin 8 → ℝ)}
    (h : setupTMatrix bs ws = .ok T) : T.length = 6 * bs.length := by
  induction bs generalizing ws T with
  | nil => rw [setupTMatrix] at h; cases h; rfl
  | cons b bs ih =>
    cases ws with
    | nil => rw [setupTMatrix] at h; cases h
    | cons w ws =>
      rw [setupTMatrix] at h
      obtain ⟨S, _, h⟩ := Py.bind_eq_ok.mp h
      obtain ⟨T', hT', h⟩ := Py.bind_eq_ok.mp h
      cases h
      simp only [List.length_append, sRows, List.length_ofFn, ih hT', List.length_cons]
      ring

theorem solves_append {T T' : List (Fin 8 → ℝ)} {y : Fin 8 → ℝ} :
    Spec.Solves (T ++ T') y ↔ Spec.Solves T y ∧ Spec.Solves T' y := by
  simp only [Spec.Solves, List.mem_append]
  exact ⟨fun h => ⟨fun r hr => h r (Or.inl hr), fun r hr => h r (Or.inr hr)⟩,
    fun h r hr => hr.elim (h.1 r) (h.2 r)⟩

theorem solves_flatMap {α : Type} {l : List α} {f : α → List (Fin 8 → ℝ)} {y : Fin 8 → ℝ} :
    Spec.Solves (l.flatMap f) y ↔ ∀ a ∈ l, Spec.Solves (f a) y := by
  simp only [Spec.Solves, List.mem_flatMap]
  exact ⟨fun h a ha r hr => h r ⟨a, ha, hr⟩, fun h r ⟨a, ha, hr⟩ => h a ha r hr⟩

/-- A block of the system says that the vector parts of `b y - y w` vanish. -/
theorem solves_block {b w : DQuat} (h : SameScalars b w) (y : DQuat) :
    Spec.Solves (sRows (sMatrix b w)) (Spec.vec8 y) ↔
      (b * y - y * w).rot.vec = ⟨0, 0, 0⟩ ∧ (b * y - y * w).dual.vec = ⟨0, 0, 0⟩ := by
  obtain ⟨h1, h2⟩ := h
  have key : Spec.Solves (sRows (sMatrix b w)) (Spec.vec8 y) ↔
      ∀ i, ∑ j, sMatrix b w i j * Spec.vec8 y j = 0 := by
    simp only [Spec.Solves, sRows, List.mem_ofFn]
    exact ⟨fun h i => h _ ⟨i, rfl⟩, fun h r ⟨i, hi⟩ => hi ▸ h i⟩
  rw [key]
  have e0 : ∑ j, sMatrix b w 0 j * Spec.vec8 y j = (b * y - y * w).rot.x := by
    simp [Fin.sum_univ_eight, sMatrix, Spec.vec8, skewFromVector, Matrix.of_apply, h1]; ring
  have e1 : ∑ j, sMatrix b w 1 j * Spec.vec8 y j = (b * y - y * w).rot.y := by
    simp [Fin.sum_univ_eight, sMatrix, Spec.vec8, skewFromVector, h1]; ring
  have e2 : ∑ j, sMatrix b w 2 j * Spec.vec8 y j = (b * y - y * w).rot.z := by
    simp [Fin.sum_univ_eight, sMatrix, Spec.vec8, skewFromVector, h1]; ring
  have e3 : ∑ j, sMatrix b w 3 j * Spec.vec8 y j = (b * y - y * w).dual.x := by
    simp [Fin.sum_univ_eight, sMatrix, Spec.vec8, skewFromVector, h1, h2]; ring
  have e4 : ∑ j, sMatrix b w 4 j * Spec.vec8 y j = (b * y - y * w).dual.y := by
    simp [Fin.sum_univ_eight, sMatrix, Spec.vec8, skewFromVector, h1, h2]; ring
  have e5 : ∑ j, sMatrix b w 5 j * Spec.vec8 y j = (b * y - y * w).dual.z := by
    simp [Fin.sum_univ_eight, sMatrix, Spec.vec8, skewFromVector, h1, h2]; ring
  rw [Fin.forall_fin_succ, Fin.forall_fin_succ, Fin.forall_fin_succ, Fin.forall_fin_succ,
    Fin.forall_fin_succ, Fin.forall_fin_succ]
  simp only [Vec3.ext_iff, Quat.vec_x, Quat.vec_y, Quat.vec_z]
  rw [← e0, ← e1, ← e2, ← e3, ← e4, ← e5]
  simp only [IsEmpty.forall_iff, and_true]
  tauto

end HandEye
