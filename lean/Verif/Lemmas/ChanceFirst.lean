import Verif.Lemmas.Chance
import Mathlib.Data.Fintype.Fin

/-! # The chance that the first of several draws with one of two properties has the first one -/

namespace HandEye

theorem average_cases {D : Type} [Fintype D] [Nonempty D] {A B : D → Prop} (hAB : ∀ d, A d → ¬ B d) (f : D → ℝ) {x y : ℝ} (hA : ∀ d, A d → f d = x)
    (hB : ∀ d, B d → f d = 0) (hC : ∀ d, ¬ A d → ¬ B d → f d = y) :
    (∑ d, f d) / Fintype.card D = Spec.chance A * x + (1 - (Spec.chance A + Spec.chance B)) * y := by
  classical
  have hc : (Fintype.card D : ℝ) ≠ 0 := by exact_mod_cast Fintype.card_ne_zero
  have e : ∀ d, f d = (if A d then x - y else 0) + (if B d then -y else 0) + y := by
    intro d
    by_cases ha : A d
    · simp [ha, hAB d ha, hA d ha]
    · by_cases hb : B d
      · simp [ha, hb, hB d hb]
      · simp [ha, hb, hC d ha hb]
  rw [Finset.sum_congr rfl fun d _ => e d, Finset.sum_add_distrib, Finset.sum_add_distrib, ← Finset.sum_filter, ← Finset.sum_filter]
  simp only [Finset.sum_const, nsmul_eq_mul, Finset.card_univ, chance_eq]
  field_simp
  ring

theorem count_cons {D : Type} {N : ℕ} (C : D → Prop) [DecidablePred C] (d : D) (ω : Fin N → D) :
    (Finset.univ.filter fun i => C (Fin.cons (α := fun _ => D) d ω i)).card =
      (if C d then 1 else 0) + (Finset.univ.filter fun i => C (ω i)).card := by
  simp only [Finset.card_filter]
  rw [Fin.sum_univ_succ]
  simp

theorem chance_or {D : Type} [Fintype D] {A B : D → Prop} (hAB : ∀ d, A d → ¬ B d) : Spec.chance (fun d => A d ∨ B d) = Spec.chance A + Spec.chance B := by
  classical
  simp only [chance_eq]
  rw [← add_div, Finset.filter_or, Finset.card_union_of_disjoint, Nat.cast_add]
  rw [Finset.disjoint_filter]
  exact fun d _ => hAB d

open Classical in
/-- Among independent draws, whether the first of those with one of two properties has the first of them does not depend on how many there are. -/
theorem chance_first {D : Type} [Fintype D] [Nonempty D] {A B : D → Prop} (hAB : ∀ d, A d → ¬ B d) (N m : ℕ) :
    (Spec.chance A + Spec.chance B) * Spec.chance (fun ω : Fin N → D => (∃ i, A (ω i) ∧ ∀ j < i, ¬ B (ω j)) ∧
        m + 1 ≤ (Finset.univ.filter fun i => A (ω i) ∨ B (ω i)).card) =
      Spec.chance A * (1 - fewer (Spec.chance A + Spec.chance B) N (m + 1)) := by
  have hsum := chance_or hAB
  induction N generalizing m with
  | zero =>
    rw [fewer_zero, chance_zero (E := fun ω : Fin 0 → D => _)]
    · ring
    · rintro ω ⟨⟨i, -⟩, -⟩
      exact i.elim0
  | succ N ih =>
    rw [chance_cons, average_cases hAB _ (x := 1 - fewer (Spec.chance A + Spec.chance B) N m)
      (y := Spec.chance fun ω : Fin N → D => (∃ i, A (ω i) ∧ ∀ j < i, ¬ B (ω j)) ∧ m + 1 ≤ (Finset.univ.filter fun i => A (ω i) ∨ B (ω i)).card),
      fewer_step]
    · have := ih m
      linear_combination (1 - (Spec.chance A + Spec.chance B)) * this
    · intro d hd
      have h : Spec.chance (fun ω : Fin N → D => (Finset.univ.filter fun i => A (ω i) ∨ B (ω i)).card < m) = fewer (Spec.chance A + Spec.chance B) N m := by
        rw [← hsum]
        unfold fewer
        rw [← chance_count_lt N (fun d : D => A d ∨ B d) m]
        congr!
      rw [← h, ← chance_not]
      refine chance_congr fun ω => ?_
      rw [count_cons (fun d => A d ∨ B d), if_pos (Or.inl hd), not_lt]
      refine ⟨fun h => by omega, fun h => ⟨⟨0, hd, fun j hj => absurd hj (by simp)⟩, by omega⟩⟩
    · intro d hd
      refine chance_zero ?_
      rintro ω ⟨⟨i, hi, hj⟩, -⟩
      have hne : i ≠ 0 := by
        rintro rfl
        exact hAB d hi hd
      exact hj 0 (Fin.pos_of_ne_zero hne) hd
    · intro d h1 h2
      refine chance_congr fun ω => ?_
      rw [count_cons (fun d => A d ∨ B d), if_neg (by simp [h1, h2]), Nat.zero_add]
      refine and_congr_left' ?_
      rw [Fin.exists_fin_succ]
      simp only [Fin.cons_zero, h1, false_and, Fin.cons_succ, false_or]
      refine exists_congr fun i => and_congr_right' ?_
      rw [Fin.forall_fin_succ]
      simp [h2]

end HandEye
