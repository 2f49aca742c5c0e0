import Verif.Model.RoundedSolver
import Verif.Lemmas.NearSvd
import Verif.Lemmas.Rounded

/-! # Lemmas about the linear system in floating-point arithmetic -/

namespace HandEye

open Matrix

/-- The rows of the system without rounding and without the assertions. -/
def systemRows (bs ws : List DQuat) : List (Fin 8 → ℝ) := (List.zipWith (fun b w => sRows (sMatrix b w)) bs ws).flatten

theorem frobSq_append (T T' : List (Fin 8 → ℝ)) : Spec.frobSq (T ++ T') = Spec.frobSq T + Spec.frobSq T' := by
  simp [Spec.frobSq]

theorem diffSq_append {T₁ T₁' : List (Fin 8 → ℝ)} (h : T₁.length = T₁'.length) (T₂ T₂' : List (Fin 8 → ℝ)) :
    Spec.diffSq (T₁ ++ T₂) (T₁' ++ T₂') = Spec.diffSq T₁ T₁' + Spec.diffSq T₂ T₂' := by
  unfold Spec.diffSq
  rw [List.zipWith_append h, List.sum_append]

theorem sRows_length (S : Matrix (Fin 6) (Fin 8) ℝ) : (sRows S).length = 6 := by simp [sRows]

theorem frobSq_sRows (S : Matrix (Fin 6) (Fin 8) ℝ) : Spec.frobSq (sRows S) = ∑ i, ∑ j, S i j ^ 2 := by
  simp only [Spec.frobSq, sRows, List.map_ofFn, List.sum_ofFn, Function.comp_apply, Spec.sumSq]

theorem diffSq_sRows (S S' : Matrix (Fin 6) (Fin 8) ℝ) : Spec.diffSq (sRows S) (sRows S') = ∑ i, ∑ j, (S i j - S' i j) ^ 2 := by
  simp [Spec.diffSq, sRows, List.ofFn_succ, Spec.sumSq, Fin.sum_univ_succ]

/-- Every entry of a block has at most one rounding. -/
theorem sMatrix_rounded {u : ℝ} {A : Arith} (h : Spec.Machine u A) (b w : DQuat) (i : Fin 6) (j : Fin 8) :
    (sMatrix b w i j - A.sMatrix b w i j) ^ 2 ≤ u ^ 2 * sMatrix b w i j ^ 2 := by
  have key : ∀ x : ℝ, (x - A.fl x) ^ 2 ≤ u ^ 2 * x ^ 2 := by
    intro x
    have := pow_le_pow_left₀ (abs_nonneg _) (h.rounds x) 2
    rw [sq_abs, mul_pow, sq_abs] at this
    linarith [show (x - A.fl x) ^ 2 = (A.fl x - x) ^ 2 by ring]
  have key' : ∀ x : ℝ, (-x + A.fl x) ^ 2 ≤ u ^ 2 * x ^ 2 := fun x => by
    linarith [key x, show (-x + A.fl x) ^ 2 = (x - A.fl x) ^ 2 by ring]
  fin_cases i <;> fin_cases j <;>
    simp only [sMatrix, Arith.sMatrix, skewFromVector, Arith.vecAdd, Arith.vecSub, Fin.zero_eta, Fin.mk_one, Fin.reduceFinMk, Fin.isValue,
      Matrix.of_apply, Matrix.cons_val, Matrix.cons_val_zero, Matrix.cons_val_one, Vec3.add_x, Vec3.add_y, Vec3.add_z, Vec3.sub_x, Vec3.sub_y,
      Vec3.sub_z, Quat.vec, sub_neg_eq_add, neg_sq] <;>
    first
    | exact key _
    | exact key' _
    | norm_num

theorem setupT_rows {u : ℝ} {A : Arith} (hA : Spec.Machine u A) : ∀ {bs ws : List DQuat} {T : List (Fin 8 → ℝ)}, A.setupT bs ws = .ok T →
    T.length = (systemRows bs ws).length ∧ Spec.diffSq (systemRows bs ws) T ≤ u ^ 2 * Spec.frobSq (systemRows bs ws) := by
  intro bs
  induction bs with
  | nil =>
    intro ws T h
    rw [Arith.setupT] at h
    cases h
    simp [systemRows, Spec.diffSq, Spec.frobSq]
  | cons b bs ih =>
    intro ws T h
    cases ws with
    | nil => rw [Arith.setupT] at h; cases h
    | cons w ws =>
    rw [Arith.setupT] at h
    obtain ⟨S, hS, h⟩ := Py.bind_eq_ok.mp h
    obtain ⟨T1, hT1, h⟩ := Py.bind_eq_ok.mp h
    cases h
    unfold Arith.setupS at hS
    simp only [Py.bind_eq_ok] at hS
    obtain ⟨_, _, _, _, _, _, hS⟩ := hS
    cases hS
    obtain ⟨i1, i2⟩ := ih hT1
    have e : systemRows (b :: bs) (w :: ws) = sRows (sMatrix b w) ++ systemRows bs ws := rfl
    rw [e]
    refine ⟨by rw [List.length_append, List.length_append, sRows_length, sRows_length, i1], ?_⟩
    rw [diffSq_append (by rw [sRows_length, sRows_length]), frobSq_append, mul_add]
    refine add_le_add ?_ i2
    rw [diffSq_sRows, frobSq_sRows, Finset.mul_sum]
    refine Finset.sum_le_sum fun i _ => ?_
    rw [Finset.mul_sum]
    exact Finset.sum_le_sum fun j _ => sMatrix_rounded hA b w i j

theorem setupTMatrix_rows : ∀ {bs ws : List DQuat} {T : List (Fin 8 → ℝ)}, setupTMatrix bs ws = .ok T → T = systemRows bs ws := by
  intro bs
  induction bs with
  | nil =>
    intro ws T h
    rw [setupTMatrix] at h
    cases h
    rfl
  | cons b bs ih =>
    intro ws T h
    cases ws with
    | nil => rw [setupTMatrix] at h; cases h
    | cons w ws =>
    rw [setupTMatrix] at h
    obtain ⟨S, hS, h⟩ := Py.bind_eq_ok.mp h
    obtain ⟨T1, hT1, h⟩ := Py.bind_eq_ok.mp h
    cases h
    unfold setupSMatrix at hS
    simp only [Py.bind_eq_ok] at hS
    obtain ⟨_, _, _, _, _, _, hS⟩ := hS
    cases hS
    rw [ih hT1]
    rfl

theorem systemRows_noise {η : ℝ} {y : Fin 8 → ℝ} : ∀ {bs ws bs₀ ws₀ : List DQuat}, List.Forall₂ (Spec.NearDQ η) bs bs₀ →
    List.Forall₂ (Spec.NearDQ η) ws ws₀ → Spec.Solves (systemRows bs₀ ws₀) y →
    Spec.residualSq (systemRows bs ws) y ≤ bs.length * (16 * η ^ 2 * Spec.sumSq y) := by
  intro bs ws bs₀ ws₀ hb
  induction hb generalizing ws ws₀ with
  | nil => intro _ _; simp [systemRows, Spec.residualSq]
  | @cons b b₀ bs bs₀ hb hbs ih =>
    intro hw hs
    have hy := sumSq_nonneg y
    cases hw with
    | nil =>
      have : Spec.residualSq (systemRows (b :: bs) []) y = 0 := by simp [systemRows, Spec.residualSq]
      rw [this]
      positivity
    | @cons w w₀ ws ws₀ hw hws =>
      have e : ∀ (b w : DQuat) (bs ws : List DQuat), systemRows (b :: bs) (w :: ws) = sRows (sMatrix b w) ++ systemRows bs ws := fun _ _ _ _ => rfl
      rw [e] at hs ⊢
      obtain ⟨hs1, hs2⟩ := solves_append.mp hs
      have h1 := sMatrix_bound hb hw hs1
      have h2 := ih hws hs2
      rw [residualSq_append, List.length_cons]
      push_cast
      linarith

theorem frobSq_system {M : ℝ} : ∀ {bs ws : List DQuat}, (∀ b ∈ bs, Spec.sumSq (Spec.vec8 b) ≤ M ^ 2) → (∀ w ∈ ws, Spec.sumSq (Spec.vec8 w) ≤ M ^ 2) →
    Spec.frobSq (systemRows bs ws) ≤ bs.length * (16 * M ^ 2) := by
  intro bs
  induction bs with
  | nil => intro ws _ _; simp [systemRows, Spec.frobSq]
  | cons b bs ih =>
    intro ws hb hw
    cases ws with
    | nil =>
      have : Spec.frobSq (systemRows (b :: bs) []) = 0 := by simp [systemRows, Spec.frobSq]
      rw [this]
      positivity
    | cons w ws =>
      have e : systemRows (b :: bs) (w :: ws) = sRows (sMatrix b w) ++ systemRows bs ws := rfl
      have i := ih (fun b h => hb b (List.mem_cons_of_mem _ h)) (fun w h => hw w (List.mem_cons_of_mem _ h))
      have near : ∀ a : DQuat, Spec.sumSq (Spec.vec8 a) ≤ M ^ 2 → Spec.NearDQ M a ⟨⟨0, 0, 0, 0⟩, ⟨0, 0, 0, 0⟩⟩ := by
        intro a ha
        refine le_trans (le_of_eq ?_) ha
        unfold Spec.sumSq
        rw [Fin.sum_univ_eight, Fin.sum_univ_eight]
        simp [Spec.vec8]
      have f := sMatrix_frobenius (near b (hb b (List.mem_cons_self ..))) (near w (hw w (List.mem_cons_self ..)))
      have z : ∀ i j, sMatrix ⟨⟨0, 0, 0, 0⟩, ⟨0, 0, 0, 0⟩⟩ ⟨⟨0, 0, 0, 0⟩, ⟨0, 0, 0, 0⟩⟩ i j = 0 := by
        intro i j
        fin_cases i <;> fin_cases j <;> simp [sMatrix, skewFromVector]
      simp only [z, sub_zero] at f
      rw [e, frobSq_append, frobSq_sRows, List.length_cons]
      push_cast
      linarith

/-- The residual of a solution for the exact data in the matrix whose exact decomposition the library returns. -/
theorem rounded_residual {u κ η M : ℝ} {A : Arith} (hA : Spec.Machine u A) (h0 : 0 ≤ η) (hM : 0 ≤ M) (hκ : 0 ≤ κ) {bs ws bs₀ ws₀ : List DQuat}
    {T T' : List (Fin 8 → ℝ)} {y : Fin 8 → ℝ} (hT : A.setupT bs ws = .ok T) (hb : List.Forall₂ (Spec.NearDQ η) bs bs₀)
    (hw : List.Forall₂ (Spec.NearDQ η) ws ws₀) (hs : Spec.Solves (systemRows bs₀ ws₀) y) (hMb : ∀ b ∈ bs, Spec.sumSq (Spec.vec8 b) ≤ M ^ 2)
    (hMw : ∀ w ∈ ws, Spec.sumSq (Spec.vec8 w) ≤ M ^ 2) (hl : T'.length = T.length) (hd : Spec.diffSq T T' ≤ κ ^ 2 * Spec.frobSq T) :
    Spec.residualSq T' y ≤ (4 * (η + (u + 1.001 * κ) * M)) ^ 2 * bs.length * Spec.sumSq y := by
  have hu := hA.nonneg
  have hu1 := hA.small
  obtain ⟨l1, d1⟩ := setupT_rows hA hT
  set R := systemRows bs ws with hR
  set Y := len8 y with hY
  set n := Real.sqrt (bs.length : ℝ) with hn
  have hn0 : 0 ≤ n := Real.sqrt_nonneg _
  have hn2 : n ^ 2 = bs.length := Real.sq_sqrt (by positivity)
  have hY0 : 0 ≤ Y := len8_nonneg _
  have hY2 : Y ^ 2 = Spec.sumSq y := len8_sq _
  have hF : Real.sqrt (Spec.frobSq R) ≤ 4 * M * n := by
    apply Real.sqrt_le_iff.mpr ⟨by positivity, ?_⟩
    refine (frobSq_system hMb hMw).trans (le_of_eq ?_)
    rw [mul_pow, hn2]; ring
  have r0 : Real.sqrt (Spec.residualSq R y) ≤ 4 * η * n * Y := by
    apply Real.sqrt_le_iff.mpr ⟨by positivity, ?_⟩
    refine (systemRows_noise hb hw hs).trans (le_of_eq ?_)
    rw [mul_pow, mul_pow, hn2, hY2]; ring
  have s1 : Real.sqrt (Spec.diffSq R T) ≤ u * (4 * M * n) := by
    refine (Real.sqrt_le_sqrt d1).trans ?_
    rw [Real.sqrt_mul (sq_nonneg _), Real.sqrt_sq hu]
    gcongr
  have f1 : Real.sqrt (Spec.frobSq T) ≤ 1.001 * (4 * M * n) := by
    apply Real.sqrt_le_iff.mpr ⟨by positivity, ?_⟩
    refine (frobSq_perturbed l1).trans ?_
    apply pow_le_pow_left₀ (by positivity)
    have : u * (4 * M * n) ≤ 1 / 1000 * (4 * M * n) := by gcongr
    linarith
  have s2 : Real.sqrt (Spec.diffSq T T') ≤ κ * (1.001 * (4 * M * n)) := by
    refine (Real.sqrt_le_sqrt hd).trans ?_
    rw [Real.sqrt_mul (sq_nonneg _), Real.sqrt_sq hκ]
    gcongr
  have r1 : Real.sqrt (Spec.residualSq T y) ≤ 4 * η * n * Y + u * (4 * M * n) * Y := by
    apply Real.sqrt_le_iff.mpr ⟨by positivity, ?_⟩
    refine (residual_perturbed y l1).trans ?_
    apply pow_le_pow_left₀ (by positivity)
    rw [Real.sqrt_mul (diffSq_nonneg _ _)]
    change _ + _ * Y ≤ _
    gcongr
  refine (residual_perturbed y hl).trans ?_
  have e : (4 * (η + (u + 1.001 * κ) * M)) ^ 2 * bs.length * Spec.sumSq y =
      (4 * η * n * Y + u * (4 * M * n) * Y + κ * (1.001 * (4 * M * n)) * Y) ^ 2 := by
    rw [← hn2, ← hY2]; ring
  rw [e]
  apply pow_le_pow_left₀ (by positivity)
  rw [Real.sqrt_mul (diffSq_nonneg _ _)]
  change _ + _ * Y ≤ _
  gcongr

end HandEye
