import Verif.Model.Py
import Mathlib.Tactic.Linarith

/-! # Lemmas about the Python vocabulary -/

namespace HandEye

@[simp] theorem Py.ok_bind {α β : Type} (a : α) (f : α → Py β) :
    (Except.ok a >>= f : Py β) = f a := rfl

@[simp] theorem Py.error_bind {α β : Type} (e : PyErr) (f : α → Py β) :
    (Except.error e >>= f : Py β) = .error e := rfl

@[simp] theorem Py.pure_eq {α : Type} (a : α) : (pure a : Py α) = .ok a := rfl

/-- A sequenced computation succeeds iff both steps do. -/
theorem Py.bind_eq_ok {α β : Type} {x : Py α} {f : α → Py β} {b : β} :
    (x >>= f) = .ok b ↔ ∃ a, x = .ok a ∧ f a = .ok b := by
  cases x with
  | error e => simp
  | ok a => simp

theorem pyAssert_pos {p : Prop} [Decidable p] (h : p) : pyAssert p = .ok () := by
  simp [pyAssert, h]

theorem pyAssert_neg {p : Prop} [Decidable p] (h : ¬ p) : pyAssert p = .error .assertion := by
  simp [pyAssert, h]

theorem pyAssert_eq_ok {p : Prop} [Decidable p] {u : Unit} : pyAssert p = .ok u ↔ p := by
  by_cases h : p <;> simp [pyAssert, h]

theorem npDiv_ok {a b : ℝ} (h : b ≠ 0) : npDiv a b = .ok (a / b) := by simp [npDiv, h]

theorem npDiv_zero (a : ℝ) : npDiv a 0 = .error .nonFinite := by simp [npDiv]

theorem npDiv_eq_ok {a b c : ℝ} : npDiv a b = .ok c ↔ b ≠ 0 ∧ a / b = c := by
  by_cases h : b = 0 <;> simp [npDiv, h]

theorem npSqrt_ok {a : ℝ} (h : 0 ≤ a) : npSqrt a = .ok (Real.sqrt a) := by
  simp [npSqrt, not_lt.mpr h]

theorem npArccos_ok {a : ℝ} (h : -1 ≤ a) (h' : a ≤ 1) : npArccos a = .ok (Real.arccos a) := by
  simp [npArccos, h, h']

theorem npArccos_error {a : ℝ} (h : ¬ (-1 ≤ a ∧ a ≤ 1)) : npArccos a = .error .nonFinite := by
  simp only [npArccos, if_neg h]

theorem npIsclose_self (a : ℝ) {atol : ℝ} (h : 0 ≤ atol) : npIsclose a a atol := by
  simp only [npIsclose, sub_self, abs_zero]
  positivity

/-- `List.mapM` in `Py`, unfolded. -/
theorem Py.mapM_nil {α β : Type} (f : α → Py β) : List.mapM f [] = .ok [] := rfl

theorem Py.mapM_cons {α β : Type} (f : α → Py β) (a : α) (l : List α) :
    List.mapM f (a :: l) = (do let b ← f a; let bs ← List.mapM f l; return b :: bs) := by
  rw [List.mapM_cons]

/-- `List.mapM` succeeds iff every element does, with the list of results. -/
theorem Py.mapM_eq_ok {α β : Type} {f : α → Py β} {l : List α} {bs : List β} :
    List.mapM f l = .ok bs ↔ List.Forall₂ (fun a b => f a = .ok b) l bs := by
  induction l generalizing bs with
  | nil =>
    rw [Py.mapM_nil, List.forall₂_nil_left_iff]
    constructor
    · intro h; cases h; rfl
    · rintro rfl; rfl
  | cons a l ih =>
    rw [Py.mapM_cons, Py.bind_eq_ok, List.forall₂_cons_left_iff]
    constructor
    · rintro ⟨b, hb, h⟩
      obtain ⟨bs', h1, h2⟩ := Py.bind_eq_ok.mp h
      cases h2
      exact ⟨b, bs', hb, ih.mp h1, rfl⟩
    · rintro ⟨b, bs', hb, h, rfl⟩
      exact ⟨b, hb, Py.bind_eq_ok.mpr ⟨bs', ih.mpr h, rfl⟩⟩

/-- `List.mapM` of an everywhere successful function is `List.map`. -/
theorem Py.mapM_ok {α β : Type} {f : α → Py β} {g : α → β} {l : List α}
    (h : ∀ a ∈ l, f a = .ok (g a)) : List.mapM f l = .ok (l.map g) := by
  rw [Py.mapM_eq_ok, List.forall₂_map_right_iff]
  exact List.forall₂_same.mpr h

end HandEye
