import Verif.Lemmas.Svd
import Mathlib.Analysis.Matrix.Spectrum
import Mathlib.LinearAlgebra.Matrix.DotProduct

/-! # Every system has a singular value decomposition -/

namespace HandEye

open Matrix

/-- A matrix with orthonormal columns that are given on a part of the index set. -/
theorem exists_orthogonal {m : ℕ} (u : Fin m → Fin m → ℝ) (S : Set (Fin m))
    (h : ∀ i ∈ S, ∀ j ∈ S, u i ⬝ᵥ u j = if i = j then 1 else 0) :
    ∃ U : Matrix (Fin m) (Fin m) ℝ, U * U.transpose = 1 ∧ ∀ j ∈ S, ∀ i, U i j = u j i := by
  have ho : Orthonormal ℝ (S.domRestrict fun i => (WithLp.toLp 2 (u i) : EuclideanSpace ℝ (Fin m))) := by
    rw [orthonormal_iff_ite]
    rintro ⟨i, hi⟩ ⟨j, hj⟩
    have := h j hj i hi
    simp only [Set.domRestrict_apply, EuclideanSpace.inner_toLp_toLp, star_trivial, this, Subtype.mk.injEq]
    by_cases hij : i = j
    · simp [hij]
    · simp [hij, Ne.symm hij]
  obtain ⟨b, hb⟩ := ho.exists_orthonormalBasis_extension_of_card_eq (by simp)
  refine ⟨Matrix.of fun i j => b j i, ?_, ?_⟩
  · apply mul_eq_one_comm.mp
    ext i j
    have := orthonormal_iff_ite.mp b.orthonormal j i
    rw [EuclideanSpace.inner_eq_star_dotProduct] at this
    simp only [star_trivial] at this
    rw [mul_apply, one_apply]
    simp only [dotProduct] at this
    simp only [transpose_apply, of_apply]
    rw [this]
    by_cases hij : i = j
    · simp [hij]
    · simp [hij, Ne.symm hij]
  · intro j hj i
    rw [of_apply, hb j hj]

/-- Right-singular vectors and singular values with the right Gram matrix can be completed to a
singular value decomposition. -/
theorem isSVD_of_gram {T : List (Fin 8 → ℝ)} (h8 : 8 ≤ T.length) (s : Fin 8 → ℝ)
    (hs : ∀ i, 0 ≤ s i) (hm : Antitone s) (V : Matrix (Fin 8) (Fin 8) ℝ)
    (hV : V * V.transpose = 1)
    (hg : ∀ i j, (Spec.ofRows T *ᵥ V i) ⬝ᵥ (Spec.ofRows T *ᵥ V j) = if i = j then s i ^ 2 else 0) :
    Spec.IsSVD T (List.ofFn s) V := by
  have hVt : V.transpose * V = 1 := mul_eq_one_comm.mp hV
  refine ⟨by simp; omega, ?_, ?_, hV, ?_⟩
  · intro x hx
    obtain ⟨i, rfl⟩ := List.mem_ofFn.mp hx
    exact hs i
  · rw [List.pairwise_iff_getElem]
    intro i j hi hj hij
    simp only [List.getElem_ofFn]
    exact hm (by simp [Fin.le_def]; omega)
  · let A := Spec.ofRows T
    let u : Fin T.length → Fin T.length → ℝ := fun i =>
      if h : i.val < 8 then (1 / s ⟨i.val, h⟩) • (A *ᵥ V ⟨i.val, h⟩) else 0
    obtain ⟨U, hU, hc⟩ := exists_orthogonal u {i | ∃ h : i.val < 8, s ⟨i.val, h⟩ ≠ 0} (by
      rintro i ⟨hi, hi0⟩ j ⟨hj, hj0⟩
      simp only [u, dif_pos hi, dif_pos hj, smul_dotProduct, dotProduct_smul, smul_eq_mul]
      rw [hg]
      by_cases hij : i = j
      · subst hij; simp only [if_true]; field_simp
      · rw [if_neg, if_neg hij]
        · ring
        · intro e; apply hij; ext; exact Fin.mk.inj_iff.mp e)
    refine ⟨U, hU, ?_⟩
    have key : A * V.transpose = U * Spec.diag T.length (List.ofFn s) := by
      ext i j
      have hj8 : j.val < T.length := by omega
      have e1 : (A * V.transpose) i j = (A *ᵥ V j) i := by
        simp [mul_apply, mulVec, dotProduct]
      have e2 : (U * Spec.diag T.length (List.ofFn s)) i j = U i ⟨j.val, hj8⟩ * s j := by
        rw [mul_apply, Finset.sum_eq_single ⟨j.val, hj8⟩]
        · simp only [Spec.diag, of_apply, if_true]
          rw [List.getD_eq_getElem?_getD, List.getElem?_ofFn]
          simp
        · intro k _ hk
          simp only [Spec.diag, of_apply]
          rw [if_neg, mul_zero]
          intro e; apply hk; ext; exact e
        · simp
      rw [e1, e2]
      by_cases h0 : s j = 0
      · have := hg j j
        rw [if_pos rfl, h0] at this
        have hz : A *ᵥ V j = 0 := dotProduct_self_eq_zero.mp (by simpa using this)
        rw [hz, h0]; simp
      · rw [hc ⟨j.val, hj8⟩ ⟨j.isLt, h0⟩ i]
        simp only [u, dif_pos j.isLt, Pi.smul_apply, smul_eq_mul]
        field_simp
    calc Spec.ofRows T = A * (V.transpose * V) := by rw [hVt, Matrix.mul_one]
      _ = _ := by rw [← Matrix.mul_assoc, key]

/-- Every system with at least eight rows has a singular value decomposition. -/
theorem exists_svd (T : List (Fin 8 → ℝ)) (h8 : 8 ≤ T.length) : ∃ s V, Spec.IsSVD T s V := by
  let A := Spec.ofRows T
  have hA : (A.transpose * A).IsHermitian := by
    rw [← Matrix.conjTranspose_eq_transpose_of_trivial]
    exact Matrix.isHermitian_conjTranspose_mul_self A
  let ev : Fin 8 → ℝ := hA.eigenvalues₀
  have hanti : Antitone ev := hA.eigenvalues₀_antitone
  -- the equivalence that sorts the eigenvalues
  let σ : Fin (Fintype.card (Fin 8)) ≃ Fin 8 := Fintype.equivOfCardEq (Fintype.card_fin _)
  have hσ : ∀ i : Fin 8, hA.eigenvalues (σ i) = ev i := by
    intro i
    exact congrArg hA.eigenvalues₀ (σ.symm_apply_apply i)
  let b := hA.eigenvectorBasis
  let V : Matrix (Fin 8) (Fin 8) ℝ := Matrix.of fun i j => b (σ i) j
  have hdot : ∀ i j : Fin 8, (V i) ⬝ᵥ (V j) = if i = j then 1 else 0 := by
    intro i j
    have := orthonormal_iff_ite.mp b.orthonormal (σ j) (σ i)
    rw [EuclideanSpace.inner_eq_star_dotProduct] at this
    simp only [star_trivial] at this
    change (b (σ i)).ofLp ⬝ᵥ (b (σ j)).ofLp = _
    rw [this]
    by_cases hij : i = j
    · simp [hij]
    · have : σ j ≠ σ i := fun h => hij (σ.injective h).symm
      simp [hij, this]
  have hgram : ∀ i j : Fin 8, (A *ᵥ V i) ⬝ᵥ (A *ᵥ V j) = if i = j then ev i else 0 := by
    intro i j
    have h1 : (A.transpose * A) *ᵥ V j = ev j • V j := by
      have := hA.mulVec_eigenvectorBasis (σ j)
      rw [hσ] at this
      exact this
    have h2 : (A *ᵥ V i) ⬝ᵥ (A *ᵥ V j) = V i ⬝ᵥ ((A.transpose * A) *ᵥ V j) := by
      rw [← mulVec_mulVec, dotProduct_mulVec (V i), vecMul_transpose]
    rw [h2, h1, dotProduct_smul, hdot]
    by_cases hij : i = j
    · simp [hij]
    · simp [hij]
  have hnn : ∀ i, 0 ≤ ev i := by
    intro i
    have := hgram i i
    rw [if_pos rfl] at this
    rw [← this]
    exact Finset.sum_nonneg fun k _ => mul_self_nonneg _
  refine ⟨List.ofFn fun i => Real.sqrt (ev i), V, isSVD_of_gram h8 _ (fun i => Real.sqrt_nonneg _)
    (fun i j hij => Real.sqrt_le_sqrt (hanti hij)) V ?_ ?_⟩
  · ext i j
    rw [mul_apply, one_apply, ← hdot i j]
    rfl
  · intro i j
    rw [hgram i j, Real.sq_sqrt (hnn i)]

/-- If the last two singular values vanish, the last two right-singular vectors may be turned within
their plane. -/
theorem isSVD_turn {T : List (Fin 8 → ℝ)} {s : List ℝ} {V : Matrix (Fin 8) (Fin 8) ℝ}
    (h : Spec.IsSVD T s V) (h6 : s.getD 6 0 = 0) (h7 : s.getD 7 0 = 0) {c d : ℝ}
    (hcd : c ^ 2 + d ^ 2 = 1) :
    Spec.IsSVD T s (Matrix.of fun i => if i = 6 then c • V 6 + d • V 7
      else if i = 7 then -d • V 6 + c • V 7 else V i) := by
  obtain ⟨hlen, hnn, hso, hV, U, hU, hf⟩ := h
  have hd : ∀ i j : Fin 8, V i ⬝ᵥ V j = if i = j then 1 else 0 := by
    intro i j
    have := congrFun (congrFun hV i) j
    rw [mul_apply, one_apply] at this
    exact this
  refine ⟨hlen, hnn, hso, ?_, U, hU, ?_⟩
  · ext i j
    rw [mul_apply, one_apply]
    change (if i = 6 then c • V 6 + d • V 7 else if i = 7 then -d • V 6 + c • V 7 else V i) ⬝ᵥ
      (if j = 6 then c • V 6 + d • V 7 else if j = 7 then -d • V 6 + c • V 7 else V j) = _
    by_cases hi6 : i = 6
    · by_cases hj6 : j = 6
      · simp [hi6, hj6, hd]; linear_combination hcd
      · by_cases hj7 : j = 7
        · simp [hi6, hj7, hd]; ring
        · simp [hi6, hj6, hj7, hd, Ne.symm hj6, Ne.symm hj7]
    · by_cases hi7 : i = 7
      · by_cases hj6 : j = 6
        · simp [hi7, hj6, hd]; ring
        · by_cases hj7 : j = 7
          · simp [hi7, hj7, hd]; linear_combination hcd
          · simp [hi7, hj6, hj7, hd, Ne.symm hj6, Ne.symm hj7]
      · by_cases hj6 : j = 6
        · simp [hi6, hi7, hj6, hd]
        · by_cases hj7 : j = 7
          · simp [hi6, hi7, hj7, hd]
          · simp [hi6, hi7, hj6, hj7, hd]
  · rw [hf, Matrix.mul_assoc, Matrix.mul_assoc]
    congr 1
    ext i k
    have e : ∀ W : Matrix (Fin 8) (Fin 8) ℝ, (Spec.diag T.length s * W) i k =
        (Spec.diag T.length s *ᵥ (fun j => W j k)) i := fun W => rfl
    rw [e, e, diag_mulVec, diag_mulVec]
    split_ifs with hi
    · by_cases hi6 : i.val = 6
      · have hz : s.getD i.val 0 = 0 := by rw [hi6, h6]
        rw [hz, zero_mul, zero_mul]
      · by_cases hi7 : i.val = 7
        · have hz : s.getD i.val 0 = 0 := by rw [hi7, h7]
          rw [hz, zero_mul, zero_mul]
        · simp only [of_apply]
          rw [if_neg, if_neg]
          · intro e; exact hi7 (Fin.ext_iff.mp e)
          · intro e; exact hi6 (Fin.ext_iff.mp e)
    · rfl

end HandEye
