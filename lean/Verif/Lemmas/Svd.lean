import Verif.Spec.LinearSystem
import Mathlib.LinearAlgebra.Matrix.NonsingularInverse
import Mathlib.Tactic.Linarith
import Mathlib.Tactic.FinCases

/-! # Lemmas about singular value decompositions -/

namespace HandEye

open Matrix

theorem solves_iff {T : List (Fin 8 → ℝ)} {y : Fin 8 → ℝ} :
    Spec.Solves T y ↔ Spec.ofRows T *ᵥ y = 0 := by
  constructor
  · intro h
    funext i
    exact h T[i] (List.getElem_mem _)
  · intro h row hrow
    obtain ⟨i, hi, rfl⟩ := List.getElem_of_mem hrow
    exact congrFun h ⟨i, hi⟩

/-- Multiplying a vector with the rectangular diagonal matrix. -/
theorem diag_mulVec {m : ℕ} (s : List ℝ) (z : Fin 8 → ℝ) (i : Fin m) :
    (Spec.diag m s *ᵥ z) i = if h : i.val < 8 then s.getD i.val 0 * z ⟨i.val, h⟩ else 0 := by
  simp only [Spec.diag, mulVec, dotProduct, of_apply, ite_mul, zero_mul]
  split_ifs with h
  · rw [Finset.sum_eq_single ⟨i.val, h⟩]
    · simp
    · intro j _ hj
      rw [if_neg]
      intro e; apply hj; ext; exact e.symm
    · simp
  · apply Finset.sum_eq_zero
    intro j _
    rw [if_neg]
    intro e; omega

theorem mulVec_of_svd {T : List (Fin 8 → ℝ)} {s : List ℝ} {V : Matrix (Fin 8) (Fin 8) ℝ}
    (h : Spec.IsSVD T s V) (h8 : 8 ≤ T.length) (y : Fin 8 → ℝ) :
    Spec.Solves T y ↔ ∀ j : Fin 8, s.getD j.val 0 * (V *ᵥ y) j = 0 := by
  obtain ⟨U, hU, hT⟩ := h.factor
  have hU' : U.transpose * U = 1 := mul_eq_one_comm.mp hU
  rw [solves_iff, hT, ← mulVec_mulVec, ← mulVec_mulVec]
  have e1 : U *ᵥ (Spec.diag T.length s *ᵥ (V *ᵥ y)) = 0 ↔
      Spec.diag T.length s *ᵥ (V *ᵥ y) = 0 := by
    constructor
    · intro h0
      have := congrArg (U.transpose *ᵥ ·) h0
      simpa only [mulVec_mulVec, ← Matrix.mul_assoc, hU', one_mulVec, mulVec_zero, Matrix.one_mul] using this
    · intro h0; rw [h0, mulVec_zero]
  rw [e1]
  constructor
  · intro h0 j
    have := congrFun h0 ⟨j.val, by omega⟩
    rw [diag_mulVec] at this
    simpa using this
  · intro h0
    funext i
    rw [diag_mulVec]
    split_ifs with hi
    · exact h0 ⟨i.val, hi⟩
    · rfl

theorem svd_antitone {T : List (Fin 8 → ℝ)} {s : List ℝ} {V : Matrix (Fin 8) (Fin 8) ℝ}
    (h : Spec.IsSVD T s V) (h8 : 8 ≤ T.length) {i j : ℕ} (hij : i ≤ j) (hj : j < 8) :
    s.getD j 0 ≤ s.getD i 0 := by
  have hl : s.length = 8 := by rw [h.length]; omega
  have hd : ∀ k (hk : k < s.length), s.getD k 0 = s[k] := fun k hk => by
    simp [List.getD_eq_getElem?_getD, hk]
  rw [hd j (by omega), hd i (by omega)]
  rcases Nat.lt_or_eq_of_le hij with hlt | rfl
  · exact List.pairwise_iff_getElem.mp h.sorted i j (by omega) (by omega) hlt
  · exact le_rfl

theorem svd_nonneg {T : List (Fin 8 → ℝ)} {s : List ℝ} {V : Matrix (Fin 8) (Fin 8) ℝ}
    (h : Spec.IsSVD T s V) (j : ℕ) : 0 ≤ s.getD j 0 := by
  rw [List.getD_eq_getElem?_getD]
  cases hs : s[j]? with
  | none => exact le_rfl
  | some a => exact h.nonneg a (List.mem_of_getElem? hs)

theorem svd_row (V : Matrix (Fin 8) (Fin 8) ℝ) (h : V * V.transpose = 1) (k : Fin 8) :
    V *ᵥ (V k) = Pi.single k 1 := by
  funext j
  have := congrFun (congrFun h j) k
  rw [mul_apply] at this
  simp only [mulVec, dotProduct, transpose_apply, one_apply, Pi.single_apply] at this ⊢
  exact this

/-- If the null space contains two independent vectors, the last two singular values vanish and the
last two rows of V solve the system. -/
theorem svd_kernel {T : List (Fin 8 → ℝ)} {s : List ℝ} {V : Matrix (Fin 8) (Fin 8) ℝ}
    (h : Spec.IsSVD T s V) (h8 : 8 ≤ T.length) {k₁ k₂ : Fin 8 → ℝ} (h1 : Spec.Solves T k₁)
    (h2 : Spec.Solves T k₂) (hi : ∀ c₁ c₂ : ℝ, c₁ • k₁ + c₂ • k₂ = 0 → c₁ = 0 ∧ c₂ = 0) :
    s.getD 6 0 = 0 ∧ s.getD 7 0 = 0 ∧ Spec.Solves T (V 6) ∧ Spec.Solves T (V 7) := by
  have hVt : V.transpose * V = 1 := mul_eq_one_comm.mp h.orthogonal
  have h6 : s.getD 6 0 = 0 := by
    by_contra h0
    have hpos : 0 < s.getD 6 0 := lt_of_le_of_ne (svd_nonneg h 6) (Ne.symm h0)
    have hz : ∀ k, Spec.Solves T k → ∀ j : Fin 8, j.val ≤ 6 → (V *ᵥ k) j = 0 := by
      intro k hk j hj
      have := (mulVec_of_svd h h8 k).mp hk j
      rcases mul_eq_zero.mp this with h' | h'
      · have := svd_antitone h h8 hj (by omega)
        linarith
      · exact h'
    have hdep : (V *ᵥ k₂) 7 • k₁ + (-(V *ᵥ k₁) 7) • k₂ = 0 := by
      have e : V *ᵥ ((V *ᵥ k₂) 7 • k₁ + (-(V *ᵥ k₁) 7) • k₂) = 0 := by
        rw [mulVec_add, mulVec_smul, mulVec_smul]
        funext j
        by_cases hj : j.val ≤ 6
        · simp [hz k₁ h1 j hj, hz k₂ h2 j hj]
        · have : j = 7 := by ext; simp; omega
          subst this
          simp
          ring
      have := congrArg (V.transpose *ᵥ ·) e
      simpa only [mulVec_mulVec, hVt, one_mulVec, mulVec_zero] using this
    obtain ⟨e1, e2⟩ := hi _ _ hdep
    have hk : k₁ = 0 := by
      have e : V *ᵥ k₁ = 0 := by
        funext j
        by_cases hj : j.val ≤ 6
        · exact hz k₁ h1 j hj
        · have : j = 7 := by ext; simp; omega
          subst this
          simpa using e2
      have := congrArg (V.transpose *ᵥ ·) e
      simpa only [mulVec_mulVec, hVt, one_mulVec, mulVec_zero] using this
    have := hi 1 0 (by rw [hk]; simp)
    norm_num at this
  have h7 : s.getD 7 0 = 0 :=
    le_antisymm ((svd_antitone h h8 (i := 6) (j := 7) (by omega) (by omega)).trans h6.le) (svd_nonneg h 7)
  refine ⟨h6, h7, ?_, ?_⟩
  · rw [mulVec_of_svd h h8]
    intro j
    rw [svd_row V h.orthogonal]
    by_cases hj : j = 6
    · subst hj; rw [show ((6 : Fin 8) : ℕ) = 6 from rfl, h6, zero_mul]
    · rw [Pi.single_eq_of_ne hj, mul_zero]
  · rw [mulVec_of_svd h h8]
    intro j
    rw [svd_row V h.orthogonal]
    by_cases hj : j = 7
    · subst hj; rw [show ((7 : Fin 8) : ℕ) = 7 from rfl, h7, zero_mul]
    · rw [Pi.single_eq_of_ne hj, mul_zero]

/-- Two different rows of V are independent. -/
theorem svd_rows_independent (V : Matrix (Fin 8) (Fin 8) ℝ) (h : V * V.transpose = 1) {k l : Fin 8}
    (hkl : k ≠ l) (c₁ c₂ : ℝ) (h0 : c₁ • V k + c₂ • V l = 0) : c₁ = 0 ∧ c₂ = 0 := by
  have := congrArg (V *ᵥ ·) h0
  simp only [mulVec_add, mulVec_smul, svd_row V h, mulVec_zero] at this
  have e1 := congrFun this k
  have e2 := congrFun this l
  simp [hkl, hkl.symm] at e1 e2
  exact ⟨e1, e2⟩

end HandEye
