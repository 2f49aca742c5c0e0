import Verif.Props.Noise2
import Verif.Lemmas.Ransac
import Mathlib.Analysis.SpecialFunctions.Trigonometric.Bounds

/-! # Property C85, continued: the solver takes the wrong root of its quadratic -/

open Quaternion Matrix

namespace HandEye

/-- Seven poses of the hand: the identity, two turns about an axis that wobbles by `η` around the y axis, two turns about the x axis
and two about the z axis.  The true ones have `η = 0` and `w = 4 / 5`. -/
noncomputable def wobblyHands (η w : ℝ) : List DQuat :=
  [DQuat.identity, ⟨⟨0, 3 / 5, η / 2, w⟩, ⟨0, 1 / 2, 0, -(3 / 10) / w⟩⟩, ⟨⟨0, 3 / 5, -(η / 2), w⟩, ⟨0, 0, 0, 0⟩⟩,
    ⟨⟨3 / 5, 0, 0, 4 / 5⟩, ⟨0, 0, -(3 / 5), 0⟩⟩, ⟨⟨3 / 5, 0, 0, 4 / 5⟩, ⟨0, 0, -(3 / 5), 0⟩⟩,
    ⟨⟨0, 0, 3 / 5, 4 / 5⟩, ⟨3 / 5, 0, 0, 0⟩⟩, ⟨⟨0, 0, 3 / 5, 4 / 5⟩, ⟨3 / 5, 0, 0, 0⟩⟩]

/-- The poses of the eye; the axis wobbles the other way. -/
noncomputable def wobblyEyes (η w : ℝ) : List DQuat :=
  [DQuat.identity, ⟨⟨0, 3 / 5, -(η / 2), w⟩, ⟨0, 1 / 2, 0, -(3 / 10) / w⟩⟩, ⟨⟨0, 3 / 5, η / 2, w⟩, ⟨0, 0, 0, 0⟩⟩,
    ⟨⟨3 / 5, 0, 0, 4 / 5⟩, ⟨0, 0, 3 / 5, 0⟩⟩, ⟨⟨3 / 5, 0, 0, 4 / 5⟩, ⟨0, 0, 3 / 5, 0⟩⟩,
    ⟨⟨0, 0, 3 / 5, 4 / 5⟩, ⟨-(3 / 5), 0, 0, 0⟩⟩, ⟨⟨0, 0, 3 / 5, 4 / 5⟩, ⟨-(3 / 5), 0, 0, 0⟩⟩]

/-- The true mounting: no rotation, two metres along the y axis. -/
def twoMetres : DQuat := ⟨⟨0, 0, 0, 1⟩, ⟨0, 1, 0, 0⟩⟩

theorem wobbly_exact : Spec.Exact (wobblyHands 0 (4 / 5)) (wobblyEyes 0 (4 / 5)) twoMetres := by
  refine .cons ?_ (.cons ?_ (.cons ?_ (.cons ?_ (.cons ?_ (.cons ?_ (.cons ?_ .nil)))))) <;>
  · rw [handEyeEq_iff]; apply DQuat.ext' <;> ext <;> norm_num [twoMetres, DQuat.identity]

theorem wobbly_same (η w : ℝ) : List.Forall₂ SameScalars (wobblyHands η w) (wobblyEyes η w) :=
  .cons ⟨rfl, rfl⟩ (.cons ⟨rfl, rfl⟩ (.cons ⟨rfl, rfl⟩ (.cons ⟨rfl, rfl⟩ (.cons ⟨rfl, rfl⟩ (.cons ⟨rfl, rfl⟩ (.cons ⟨rfl, rfl⟩ .nil))))))

theorem wobbly_unit {η w : ℝ} (hw : 0 < w) (h : w ^ 2 = 16 / 25 - η ^ 2 / 4) :
    (∀ q ∈ wobblyHands η w, Spec.IsUnit q) ∧ ∀ q ∈ wobblyEyes η w, Spec.IsUnit q := by
  constructor <;>
  · intro q hq
    simp only [wobblyHands, wobblyEyes, List.mem_cons, List.not_mem_nil, or_false] at hq
    rcases hq with h' | h' | h' | h' | h' | h' | h' <;> rw [h', DQuat.isUnit_iff] <;>
      simp only [Quat.dot, DQuat.identity] <;> constructor <;> first | (field_simp; done) | (field_simp; ring1) | nlinarith

/-- The residual of the linear system. -/
theorem wobbly_residual {η w : ℝ} {T : List (Fin 8 → ℝ)} (hT : setupTMatrix (wobblyHands η w) (wobblyEyes η w) = .ok T) (y : Fin 8 → ℝ) :
    Spec.residualSq T y = 169 / 25 * y 0 ^ 2 + 144 / 25 * y 1 ^ 2 + 169 / 25 * y 2 ^ 2 + (144 / 25 + 2 * η ^ 2) * y 3 ^ 2 +
      144 / 25 * y 4 ^ 2 + 144 / 25 * y 5 ^ 2 + 144 / 25 * y 6 ^ 2 + 2 * η ^ 2 * y 7 ^ 2 + 12 / 5 * (y 0 * y 4) + 12 / 5 * (y 2 * y 6) -
      288 / 25 * (y 3 * y 5) - 2 * η * (y 0 * y 7) := by
  have hs := setupTMatrix_same (wobbly_same η w)
  rw [hT] at hs
  injection hs with hs
  rw [hs]
  simp only [wobblyHands, wobblyEyes, List.zip_cons_cons, List.zip_nil_right, List.flatMap_cons, List.flatMap_nil, List.append_nil,
    residualSq_append, residualSq_sRows]
  simp [Fin.sum_univ_eight, Fin.sum_univ_six, sMatrix, skewFromVector, Quat.vec, DQuat.identity]
  ring

/-- A right-singular vector under the residual. -/
theorem residualSq_row {T : List (Fin 8 → ℝ)} {s : List ℝ} {V : Matrix (Fin 8) (Fin 8) ℝ} (h : Spec.IsSVD T s V) (k : Fin 8) (z : Fin 8 → ℝ) :
    Spec.residualSq T (V k + z) = s.getD k.val 0 ^ 2 * (1 + 2 * (V k ⬝ᵥ z)) + Spec.residualSq T z := by
  rw [residualSq_svd h, residualSq_svd h, mulVec_add, svd_row V h.orthogonal]
  have e : V k ⬝ᵥ z = (V *ᵥ z) k := rfl
  rw [e]
  have : ∀ j : Fin 8, (s.getD j.val 0 * ((Pi.single k 1 + V *ᵥ z : Fin 8 → ℝ) j)) ^ 2 =
      (if j = k then s.getD k.val 0 ^ 2 * (1 + 2 * (V *ᵥ z) k) else 0) + (s.getD j.val 0 * (V *ᵥ z) j) ^ 2 := by
    intro j
    rw [Pi.add_apply, Pi.single_apply]
    split_ifs with hj
    · subst hj; ring
    · ring
  simp only [this, Finset.sum_add_distrib, Finset.sum_ite_eq', Finset.mem_univ, if_true]

/-- The equations of a right-singular vector. -/
theorem wobbly_eigen {η w : ℝ} {T : List (Fin 8 → ℝ)} (hT : setupTMatrix (wobblyHands η w) (wobblyEyes η w) = .ok T)
    {s : List ℝ} {V : Matrix (Fin 8) (Fin 8) ℝ} (h : Spec.IsSVD T s V) (k : Fin 8) {m : ℝ} (hm : m = s.getD k.val 0 ^ 2) :
    169 / 25 * V k 0 + 6 / 5 * V k 4 - η * V k 7 = m * V k 0 ∧ 144 / 25 * V k 1 = m * V k 1 ∧
    169 / 25 * V k 2 + 6 / 5 * V k 6 = m * V k 2 ∧ (144 / 25 + 2 * η ^ 2) * V k 3 - 144 / 25 * V k 5 = m * V k 3 ∧
    6 / 5 * V k 0 + 144 / 25 * V k 4 = m * V k 4 ∧ 144 / 25 * V k 5 - 144 / 25 * V k 3 = m * V k 5 ∧
    6 / 5 * V k 2 + 144 / 25 * V k 6 = m * V k 6 ∧ 2 * η ^ 2 * V k 7 - η * V k 0 = m * V k 7 := by
  have h0 : Spec.residualSq T (V k) = m := by
    have := residualSq_row h k 0
    rw [add_zero, dotProduct_zero, wobbly_residual hT 0] at this
    simp at this
    rw [this, hm]
    simp [List.getD_eq_getElem?_getD]
  rw [wobbly_residual hT] at h0
  have key : ∀ z : Fin 8 → ℝ, _ := fun z => residualSq_row h k z
  simp only [wobbly_residual hT, ← hm, dotProduct, Fin.sum_univ_eight, Pi.add_apply] at key
  refine ⟨?_, ?_, ?_, ?_, ?_, ?_, ?_, ?_⟩
  · have := key ![1, 0, 0, 0, 0, 0, 0, 0]; simp at this; linarith
  · have := key ![0, 1, 0, 0, 0, 0, 0, 0]; simp at this; linarith
  · have := key ![0, 0, 1, 0, 0, 0, 0, 0]; simp at this; linarith
  · have := key ![0, 0, 0, 1, 0, 0, 0, 0]; simp at this; linarith
  · have := key ![0, 0, 0, 0, 1, 0, 0, 0]; simp at this; linarith
  · have := key ![0, 0, 0, 0, 0, 1, 0, 0]; simp at this; linarith
  · have := key ![0, 0, 0, 0, 0, 0, 1, 0]; simp at this; linarith
  · have := key ![0, 0, 0, 0, 0, 0, 0, 1]; simp at this; linarith

theorem wobbly_second {η m : ℝ} (h0 : 0 < η) (h1 : η ≤ 1 / 10) (hm0 : 0 ≤ m) (hm : m < 1 / 4) {a b c : ℝ} (h7 : c ≠ 0)
    (e0 : 169 / 25 * a + 6 / 5 * b - η * c = m * a) (e4 : 6 / 5 * a + 144 / 25 * b = m * b) (e7 : 2 * η ^ 2 * c - η * a = m * c) :
    η ^ 2 < m ∧ ∃ f, 0 < f ∧ f ≤ 4 / 25 * η ∧ a = f * c := by
  have hη : 0 < η ^ 2 := by positivity
  have hp : 0 < 144 / 25 - m := by linarith
  have e : c * ((2 * η ^ 2 - m) * ((169 / 25 - m) * (144 / 25 - m) - 36 / 25) - η ^ 2 * (144 / 25 - m)) = 0 := by
    linear_combination ((169 / 25 - m) * (144 / 25 - m) - 36 / 25) * e7 + η * (144 / 25 - m) * e0 - η * (6 / 5) * e4
  have e := (mul_eq_zero.mp e).resolve_left h7
  have g1 : 25 / 4 * (144 / 25 - m) ≤ (169 / 25 - m) * (144 / 25 - m) - 36 / 25 := by nlinarith
  have g2 : 0 < (169 / 25 - m) * (144 / 25 - m) - 36 / 25 := lt_of_lt_of_le (by positivity) g1
  have pos : 0 < 2 * η ^ 2 - m := by
    have : 0 < (2 * η ^ 2 - m) * ((169 / 25 - m) * (144 / 25 - m) - 36 / 25) := by
      have : 0 < η ^ 2 * (144 / 25 - m) := mul_pos hη hp
      linarith
    exact pos_of_mul_pos_left this g2.le
  have le : (2 * η ^ 2 - m) * (25 / 4) ≤ η ^ 2 := by
    have : (2 * η ^ 2 - m) * (25 / 4) * (144 / 25 - m) ≤ η ^ 2 * (144 / 25 - m) := by
      have := mul_le_mul_of_nonneg_left g1 pos.le
      linarith
    exact le_of_mul_le_mul_right this hp
  refine ⟨by linarith, (2 * η ^ 2 - m) / η, div_pos pos h0, ?_, ?_⟩
  · rw [div_le_iff₀ h0]; linarith
  · rw [div_mul_eq_mul_div, eq_div_iff h0.ne']; linarith

/-- The right-singular vectors for small singular values are of one of two kinds. -/
theorem wobbly_kinds {η m : ℝ} (h0 : 0 < η) (h1 : η ≤ 1 / 10) (hm0 : 0 ≤ m) (hm : m < 1 / 4) {y : Fin 8 → ℝ} (hy : y ⬝ᵥ y = 1)
    (h : 169 / 25 * y 0 + 6 / 5 * y 4 - η * y 7 = m * y 0 ∧ 144 / 25 * y 1 = m * y 1 ∧
      169 / 25 * y 2 + 6 / 5 * y 6 = m * y 2 ∧ (144 / 25 + 2 * η ^ 2) * y 3 - 144 / 25 * y 5 = m * y 3 ∧
      6 / 5 * y 0 + 144 / 25 * y 4 = m * y 4 ∧ 144 / 25 * y 5 - 144 / 25 * y 3 = m * y 5 ∧
      6 / 5 * y 2 + 144 / 25 * y 6 = m * y 6 ∧ 2 * η ^ 2 * y 7 - η * y 0 = m * y 7) :
    y 1 = 0 ∧ y 2 = 0 ∧ y 6 = 0 ∧
      ((m ≤ η ^ 2 ∧ y 0 = 0 ∧ y 4 = 0 ∧ y 7 = 0 ∧ y 3 ≠ 0 ∧ ∃ g, 0 < g ∧ y 5 = g * y 3) ∨
       (η ^ 2 < m ∧ y 3 = 0 ∧ y 5 = 0 ∧ y 7 ≠ 0 ∧
          ∃ f g, 0 < f ∧ f ≤ 4 / 25 * η ∧ 0 < g ∧ g ≤ 6 / 25 ∧ y 0 = f * y 7 ∧ y 4 = -(g * y 0))) := by
  obtain ⟨e0, e1, e2, e3, e4, e5, e6, e7⟩ := h
  have hη : η ^ 2 ≤ 1 / 100 := by nlinarith
  have z1 : y 1 = 0 := by
    have : (144 / 25 - m) * y 1 = 0 := by linarith
    exact (mul_eq_zero.mp this).resolve_left (by linarith)
  have z26 : y 2 = 0 ∧ y 6 = 0 := by
    have a1 : y 2 * ((169 / 25 - m) * (144 / 25 - m) - 36 / 25) = 0 := by linear_combination (144 / 25 - m) * e2 - 6 / 5 * e6
    have a2 : y 2 = 0 := (mul_eq_zero.mp a1).resolve_right (by nlinarith)
    have a3 : (144 / 25 - m) * y 6 = 0 := by linear_combination e6 - 6 / 5 * a2
    exact ⟨a2, (mul_eq_zero.mp a3).resolve_left (by linarith)⟩
  refine ⟨z1, z26.1, z26.2, ?_⟩
  have hp : 0 < 144 / 25 - m := by linarith
  have y5 : y 5 = 144 / 25 / (144 / 25 - m) * y 3 := by
    rw [div_mul_eq_mul_div, eq_div_iff hp.ne']; linarith
  have y4 : y 4 = -(6 / 5 / (144 / 25 - m) * y 0) := by
    rw [div_mul_eq_mul_div, ← neg_div, eq_div_iff hp.ne']; linarith
  have hA : y 3 ≠ 0 → m ≤ η ^ 2 := by
    intro h3
    have : y 3 * ((144 / 25 + 2 * η ^ 2 - m) * (144 / 25 - m) - (144 / 25) ^ 2) = 0 := by
      linear_combination (144 / 25 - m) * e3 + 144 / 25 * e5
    have := (mul_eq_zero.mp this).resolve_left h3
    by_contra hc
    rw [not_le] at hc
    nlinarith
  have hB : y 7 ≠ 0 → η ^ 2 < m ∧ ∃ f, 0 < f ∧ f ≤ 4 / 25 * η ∧ y 0 = f * y 7 := fun h7 => wobbly_second h0 h1 hm0 hm h7 e0 e4 e7
  rw [dotProduct, Fin.sum_univ_eight, z1, z26.1, z26.2] at hy
  by_cases h7 : y 7 = 0
  · left
    have y0 : y 0 = 0 := by
      have : η * y 0 = 0 := by rw [h7] at e7; linarith
      exact (mul_eq_zero.mp this).resolve_left h0.ne'
    have z4 : y 4 = 0 := by rw [y4, y0]; ring
    have h3 : y 3 ≠ 0 := by
      intro h3
      rw [y5, y0, z4, h3, h7] at hy
      norm_num at hy
    exact ⟨hA h3, y0, z4, h7, h3, _, by positivity, y5⟩
  · right
    obtain ⟨hm', f, f0, f1, hf⟩ := hB h7
    have h3 : y 3 = 0 := by
      by_contra h3
      exact absurd (hA h3) (not_le.mpr hm')
    refine ⟨hm', h3, by rw [y5, h3]; ring, h7, f, 6 / 5 / (144 / 25 - m), f0, f1, by positivity, ?_, hf, y4⟩
    rw [div_le_iff₀ hp]
    linarith

/-- The seventh right-singular vector is of the second kind, the eighth of the first, and the sixth singular value is not small. -/
theorem wobbly_rows {η w : ℝ} (h0 : 0 < η) (h1 : η ≤ 1 / 10) {T : List (Fin 8 → ℝ)}
    (hT : setupTMatrix (wobblyHands η w) (wobblyEyes η w) = .ok T) {s : List ℝ} {V : Matrix (Fin 8) (Fin 8) ℝ} (h : Spec.IsSVD T s V) :
    1 / 2 ≤ s.getD 5 0 ∧ s.getD 6 0 ≤ 1 / 2 ∧
      (∃ x f g : ℝ, x ≠ 0 ∧ 0 < f ∧ f ≤ 4 / 25 * η ∧ 0 < g ∧ g ≤ 6 / 25 ∧ V 6 = ![f * x, 0, 0, 0, -(g * (f * x)), 0, 0, x]) ∧
      ∃ z g : ℝ, z ≠ 0 ∧ V 7 = ![0, 0, 0, z, 0, g * z, 0, 0] := by
  have hη : η ^ 2 ≤ 1 / 100 := by nlinarith
  have h8 : 8 ≤ T.length := by
    rw [setupTMatrix_length hT]; simp [wobblyHands]
  have dot : ∀ i j : Fin 8, V i ⬝ᵥ V j = if i = j then 1 else 0 := by
    intro i j
    have := congrFun (congrFun h.orthogonal i) j
    rw [one_apply] at this
    rw [← this]; rfl
  have kind := fun k : Fin 8 => fun hk : s.getD k.val 0 ^ 2 < 1 / 4 =>
    wobbly_kinds h0 h1 (sq_nonneg _) hk (by rw [dot, if_pos rfl]) (wobbly_eigen hT h k rfl)
  have differ : ∀ i j : Fin 8, i ≠ j → s.getD i.val 0 ^ 2 < 1 / 4 → s.getD j.val 0 ^ 2 < 1 / 4 →
      ¬ (s.getD i.val 0 ^ 2 ≤ η ^ 2 ↔ s.getD j.val 0 ^ 2 ≤ η ^ 2) := by
    intro i j hij hi hj hiff
    have hd := dot i j
    rw [if_neg hij, dotProduct, Fin.sum_univ_eight] at hd
    obtain ⟨a1, a2, a6, ⟨am, a0, a4, a7, a3, g, g0, a5⟩ | ⟨am, a3, a5, a7, f, g, f0, -, g0, -, a0, a4⟩⟩ := kind i hi <;>
    obtain ⟨b1, b2, b6, ⟨bm, b0, b4, b7, b3, g', g0', b5⟩ | ⟨bm, b3, b5, b7, f', g', f0', -, g0', -, b0, b4⟩⟩ := kind j hj
    · rw [a1, a2, a6, a0, a4, a7, a5, b5] at hd
      have : (1 + g * g') * (V i 3 * V j 3) = 0 := by linarith
      exact (mul_ne_zero (by positivity) (mul_ne_zero a3 b3)) this
    · exact absurd (hiff.mp am) (not_le.mpr bm)
    · exact absurd (hiff.mpr bm) (not_le.mpr am)
    · rw [a1, a2, a6, a3, a5, a4, b4, a0, b0] at hd
      have : (1 + f * f' + g * g' * f * f') * (V i 7 * V j 7) = 0 := by linarith
      exact (mul_ne_zero (by positivity) (mul_ne_zero a7 b7)) this
  have anti : ∀ i j : ℕ, i ≤ j → j < 8 → s.getD j 0 ^ 2 ≤ s.getD i 0 ^ 2 := fun i j hij hj => by
    have := svd_antitone h h8 hij hj
    have := svd_nonneg h j
    nlinarith
  have plane : ∀ y : Fin 8 → ℝ, (V *ᵥ y) 7 = 0 → s.getD 6 0 ^ 2 * Spec.sumSq y ≤ Spec.residualSq T y := by
    intro y hy
    rw [residualSq_svd h, sumSq_svd h.orthogonal, Finset.mul_sum]
    apply Finset.sum_le_sum
    intro j _
    rw [mul_pow]
    by_cases hj : j = 7
    · rw [hj, hy]; simp
    · exact mul_le_mul_of_nonneg_right (anti j.val 6 (by have := j.isLt; have : j.val ≠ 7 := fun e => hj (Fin.ext e); omega) (by norm_num)) (sq_nonneg _)
  have s6 : s.getD 6 0 ^ 2 < 1 / 4 := by
    by_contra hc
    rw [not_lt] at hc
    have key : ∀ a b : ℝ, (V *ᵥ ![0, 0, 0, a, 0, a, 0, b]) 7 = 0 → a ^ 2 + b ^ 2 ≤ 0 := by
      intro a b hab
      have hn : 0 ≤ Spec.sumSq ![0, 0, 0, a, 0, a, 0, b] := Finset.sum_nonneg fun i _ => sq_nonneg _
      have := (mul_le_mul_of_nonneg_right hc hn).trans (plane _ hab)
      rw [wobbly_residual hT, Spec.sumSq, Fin.sum_univ_eight] at this
      simp at this
      nlinarith [sq_nonneg a, sq_nonneg b]
    have e : ∀ a b : ℝ, (V *ᵥ ![0, 0, 0, a, 0, a, 0, b]) 7 = a * (V 7 3 + V 7 5) + b * V 7 7 := by
      intro a b
      rw [mulVec, dotProduct, Fin.sum_univ_eight]
      simp
      ring
    have k1 := key (V 7 7) (-(V 7 3 + V 7 5)) (by rw [e]; ring)
    have k2 : V 7 7 = 0 := by nlinarith [sq_nonneg (V 7 7), sq_nonneg (-(V 7 3 + V 7 5))]
    have k3 := key 0 1 (by rw [e, k2]; ring)
    norm_num at k3
  have s7 : s.getD 7 0 ^ 2 < 1 / 4 := lt_of_le_of_lt (anti 6 7 (by norm_num) (by norm_num)) s6
  have d67 := differ 6 7 (by decide) s6 s7
  have s5 : 1 / 4 ≤ s.getD 5 0 ^ 2 := by
    by_contra hc
    rw [not_le] at hc
    have d56 := differ 5 6 (by decide) hc s6
    have d57 := differ 5 7 (by decide) hc s7
    tauto
  have n5 := svd_nonneg h 5
  have n6 := svd_nonneg h 6
  refine ⟨by nlinarith, by nlinarith, ?_, ?_⟩
  · obtain ⟨a1, a2, a6, ⟨am, -⟩ | ⟨am, a3, a5, a7, f, g, f0, f1, g0, g1, a0, a4⟩⟩ := kind 6 s6
    · exact absurd ⟨fun _ => (anti 6 7 (by norm_num) (by norm_num)).trans am, fun _ => am⟩ d67
    · refine ⟨V 6 7, f, g, a7, f0, f1, g0, g1, ?_⟩
      funext i
      fin_cases i <;> simp [a0, a1, a2, a3, a4, a5, a6]
  · obtain ⟨a1, a2, a6, ⟨am, a0, a4, a7, a3, g, g0, a5⟩ | ⟨am, -⟩⟩ := kind 7 s7
    · refine ⟨V 7 3, g, a3, ?_⟩
      funext i
      fin_cases i <;> simp [a0, a1, a2, a7, a4, a5, a6]
    · exact absurd ⟨fun hh => absurd (lt_of_lt_of_le am (anti 6 7 (by norm_num) (by norm_num))) (not_lt.mpr hh), fun hh => absurd am (not_lt.mpr hh)⟩ d67

/-- From two right-singular vectors of these kinds the solver takes the wrong root. -/
theorem wobbly_root {η x f g z k : ℝ} (h0 : 0 < η) (h1 : η ≤ 1 / 10) (hx : x ≠ 0) (hf : 0 < f) (hf' : f ≤ 4 / 25 * η) (hg : 0 < g)
    (hg' : g ≤ 6 / 25) (hz : z ≠ 0) :
    ∃ R, solveKernel (splitRow ![f * x, 0, 0, 0, -(g * (f * x)), 0, 0, x]) (splitRow ![0, 0, 0, z, 0, k * z, 0, 0]) = .ok R ∧
      Spec.IsUnit R ∧ Spec.cosHalf R.rot twoMetres.rot ≤ 1 / 25 * η ∧ 12 / η ≤ Spec.translationLength R := by
  obtain ⟨v, hv⟩ : ∃ v, v = splitRow ![f * x, 0, 0, 0, -(g * (f * x)), 0, 0, x] := ⟨_, rfl⟩
  obtain ⟨u, hu⟩ : ∃ u, u = splitRow ![0, 0, 0, z, 0, k * z, 0, 0] := ⟨_, rfl⟩
  rw [← hv, ← hu]
  have ea : Root.a v u = -(g * (f * x) ^ 2) := by rw [hv]; simp [Root.a, splitRow, Quat.dot]; ring
  have eb : Root.b v u = z * x := by rw [hv, hu]; simp [Root.b, splitRow, Quat.dot]
  have ec : Root.c v u = 0 := by rw [hu]; simp [Root.c, splitRow, Quat.dot]
  have el : ∀ t, Root.len v u t = (t * (f * x)) ^ 2 + z ^ 2 := by
    intro t; rw [hv, hu]; simp [Root.len, splitRow, Quat.dot]; ring
  have ha : Root.a v u ≠ 0 := by rw [ea]; exact neg_ne_zero.mpr (by positivity)
  have ed : Root.disc v u = (z * x) * (z * x) := by rw [Root.disc, eb, ec]; ring
  have hd : ¬ Root.disc v u < 0 := by rw [ed]; exact not_lt.mpr (mul_self_nonneg _)
  have es : Root.s v u = z / (g * f ^ 2 * x) := by
    have hpos : 0 < (z / (g * f ^ 2 * x) * (f * x)) ^ 2 := by positivity
    unfold Root.s
    rw [el, el, Root.s₁, Root.s₂, if_neg hd, ed, Real.sqrt_mul_self_eq_abs, ea, eb]
    rcases abs_choice (z * x) with h | h <;> rw [h]
    · have e1 : (-(z * x) + z * x) / (2 * -(g * (f * x) ^ 2)) = 0 := by rw [neg_add_cancel, zero_div]
      have e2 : (-(z * x) - z * x) / (2 * -(g * (f * x) ^ 2)) = z / (g * f ^ 2 * x) := by field_simp; ring
      rw [e1, e2, if_neg]
      rw [not_lt, zero_mul]
      nlinarith
    · have e1 : (-(z * x) - -(z * x)) / (2 * -(g * (f * x) ^ 2)) = 0 := by rw [sub_self, zero_div]
      have e2 : (-(z * x) + -(z * x)) / (2 * -(g * (f * x) ^ 2)) = z / (g * f ^ 2 * x) := by field_simp; ring
      rw [e1, e2, if_pos]
      rw [zero_mul]
      nlinarith
  have hlen : Root.len v u (Root.s v u) = z ^ 2 * (1 + (g * f) ^ 2) / (g * f) ^ 2 := by
    rw [el, es]; field_simp
  have hl : Root.len v u (Root.s v u) > 0 := by rw [hlen]; positivity
  refine ⟨_, solveKernel_eq_ok.mpr ⟨ha, fun h => hd (by linarith), hl, rfl⟩, ?_⟩
  obtain ⟨Q, hQ⟩ : ∃ Q, Q = Real.sqrt (1 / Root.len v u (Root.s v u)) • (Root.s v u • v + u) := ⟨_, rfl⟩
  have hQ1 : Q.rot.dot Q.rot = 1 := by rw [hQ]; exact scaled_unit hl
  have hQ2 : Q.rot.dot Q.dual = 0 := by
    rw [hQ, DQuat.smul_rot, DQuat.smul_dual, Quat.smul_dot, Quat.dot_smul, combo_orth, root_solves ha (not_lt.mp hd)]
    ring
  have hsq : Real.sqrt (1 / Root.len v u (Root.s v u)) ^ 2 = (g * f) ^ 2 / (z ^ 2 * (1 + (g * f) ^ 2)) := by
    rw [Real.sq_sqrt (by positivity), hlen, one_div_div]
  have hw : Q.rot.w ^ 2 = (g * f) ^ 2 / (1 + (g * f) ^ 2) := by
    have : Q.rot.w = Real.sqrt (1 / Root.len v u (Root.s v u)) * z := by
      rw [hQ, hu, hv]; simp [splitRow]
    rw [this, mul_pow, hsq]
    field_simp
  have hdw : Q.dual.w ^ 2 = 1 / (f ^ 2 * (1 + (g * f) ^ 2)) := by
    have : Q.dual.w = Real.sqrt (1 / Root.len v u (Root.s v u)) * (Root.s v u * x) := by
      rw [hQ]
      generalize Root.len v u (Root.s v u) = l
      generalize Root.s v u = t
      rw [hu, hv]; simp [splitRow]
    rw [this, mul_pow, hsq, es]
    field_simp
  rw [← hQ]
  have hgf : g * f ≤ 1 / 25 * η := by nlinarith
  have hgf0 : 0 < g * f := by positivity
  have hw' : |Q.rot.w| ≤ 1 / 25 * η := by
    apply abs_le_of_sq_le_sq _ (by positivity)
    rw [hw, div_le_iff₀ (by positivity)]
    nlinarith
  have ht : 12 / η ≤ Spec.translationLength Q := by
    have h6 : (6 / η) ^ 2 ≤ Q.dual.w ^ 2 := by
      rw [hdw, div_pow, div_le_div_iff₀ (by positivity) (by positivity)]
      have : f ^ 2 ≤ (4 / 25 * η) ^ 2 := by gcongr
      have : (g * f) ^ 2 ≤ 1 / 100 := by nlinarith
      nlinarith
    have : 6 / η ≤ Real.sqrt (Q.dual.x ^ 2 + Q.dual.y ^ 2 + Q.dual.z ^ 2 + Q.dual.w ^ 2) := by
      apply Real.le_sqrt_of_sq_le
      nlinarith [sq_nonneg Q.dual.x, sq_nonneg Q.dual.y, sq_nonneg Q.dual.z]
    rw [Spec.translationLength, show 12 / η = 2 * (6 / η) by ring]
    linarith
  have hc : Spec.cosHalf Q.rot twoMetres.rot ≤ 1 / 25 * η := by
    have : Q.rot.x ^ 2 + Q.rot.y ^ 2 + Q.rot.z ^ 2 + Q.rot.w ^ 2 = 1 := by
      rw [← hQ1]; simp only [Quat.dot]; ring
    rw [Spec.cosHalf, this]
    simpa [twoMetres] using hw'
  have hU : Spec.IsUnit Q := by rw [DQuat.isUnit_iff]; exact ⟨hQ1, hQ2⟩
  rcases posW_eq_or Q with e | e <;> rw [e]
  · exact ⟨hU, hc, ht⟩
  · refine ⟨isUnit_neg' _ hU, ?_, ?_⟩
    · have : Spec.cosHalf (-Q).rot twoMetres.rot = Spec.cosHalf Q.rot twoMetres.rot := by
        simp [Spec.cosHalf, twoMetres]
      rw [this]; exact hc
    · have : Spec.translationLength (-Q) = Spec.translationLength Q := by simp [Spec.translationLength]
      rw [this]; exact ht

/-- Rotations whose quaternions are almost orthogonal are almost a half turn apart. -/
theorem rotationAngle_ge {p q : Quat} {c : ℝ} (h : Spec.cosHalf p q ≤ c) : 180 - 180 * c ≤ Spec.rotationAngle p q := by
  have h0 : 0 ≤ Spec.cosHalf p q := by unfold Spec.cosHalf; positivity
  have hpi := Real.pi_pos
  rw [Spec.rotationAngle]
  rcases le_total (Spec.cosHalf p q) 1 with h1 | h1
  · have ha := Real.mul_le_sin (Real.arcsin_nonneg.mpr h0) (Real.arcsin_le_pi_div_two _)
    rw [Real.sin_arcsin (by linarith) h1] at ha
    rw [Real.arccos_eq_pi_div_two_sub_arcsin]
    have e : 360 / Real.pi * (Real.pi / 2 - Real.arcsin (Spec.cosHalf p q)) = 180 - 180 * (2 / Real.pi * Real.arcsin (Spec.cosHalf p q)) := by
      field_simp; ring
    rw [e]
    linarith
  · have : 0 ≤ 360 / Real.pi * Real.arccos (Spec.cosHalf p q) := mul_nonneg (by positivity) (Real.arccos_nonneg _)
    linarith

/-- Every pose is measured with an error of at most `η`. -/
theorem wobbly_near {η w : ℝ} (h0 : 0 < η) (h1 : η ≤ 1 / 10) (hw : 0 < w) (h : w ^ 2 = 16 / 25 - η ^ 2 / 4) :
    List.Forall₂ (Spec.NearDQ η) (wobblyHands η w) (wobblyHands 0 (4 / 5)) ∧
      List.Forall₂ (Spec.NearDQ η) (wobblyEyes η w) (wobblyEyes 0 (4 / 5)) := by
  have hself : ∀ a : DQuat, Spec.NearDQ η a a := fun a => by
    simp only [Spec.NearDQ, sub_self]
    norm_num
    positivity
  have hη : η ^ 2 ≤ 1 / 100 := by nlinarith
  have w1 : 3 / 4 ≤ w := by nlinarith
  have w2 : w ≤ 4 / 5 := by nlinarith [sq_nonneg η]
  have d1 : 4 / 5 - w ≤ η / 4 := by
    have : (4 / 5 - w) * (31 / 20) ≤ η ^ 2 / 4 := by nlinarith
    nlinarith
  have d2 : (w - 4 / 5) ^ 2 ≤ η ^ 2 / 16 := by nlinarith
  have d3 : (-(3 / 10) / w + 3 / 8) ^ 2 ≤ η ^ 2 / 16 := by
    have e : -(3 / 10) / w + 3 / 8 = -(3 / 8 * (4 / 5 - w) / w) := by field_simp; ring
    have : 3 / 8 * (4 / 5 - w) / w ≤ η / 4 := by rw [div_le_iff₀ hw]; nlinarith
    have : 0 ≤ 3 / 8 * (4 / 5 - w) / w := div_nonneg (by linarith) hw.le
    rw [e]
    nlinarith
  refine ⟨.cons (hself _) (.cons ?_ (.cons ?_ (.cons (hself _) (.cons (hself _) (.cons (hself _) (.cons (hself _) .nil)))))),
    .cons (hself _) (.cons ?_ (.cons ?_ (.cons (hself _) (.cons (hself _) (.cons (hself _) (.cons (hself _) .nil))))))⟩ <;>
  · rw [Spec.NearDQ, Fin.sum_univ_eight]
    simp [Spec.vec8]
    norm_num
    nlinarith

theorem wrong_root (η : ℝ) (h0 : 0 < η) (h1 : η ≤ 1 / 10) (tol : ℝ) (ht : 0 ≤ tol) :
    ∃ bs₀ ws₀ bs ws : List DQuat, bs₀ = wobblyHands 0 (4 / 5) ∧ ws₀ = wobblyEyes 0 (4 / 5) ∧ (∀ q ∈ bs₀ ++ ws₀ ++ bs ++ ws, Spec.IsUnit q ∧ 3 / 4 ≤ q.rot.w) ∧
      Spec.Exact bs₀ ws₀ ⟨⟨0, 0, 0, 1⟩, ⟨0, 1, 0, 0⟩⟩ ∧ Spec.Measured true η bs₀ ws₀ bs ws ∧
      (∃ svd : Svd, (∀ T s V, svd T = .ok (s, V) → Spec.IsSVD T s V) ∧ ∀ T, 8 ≤ T.length → ∃ p, svd T = .ok p) ∧
      ∀ svd : Svd, (∀ T s V, svd T = .ok (s, V) → Spec.IsSVD T s V) → (∀ T, 8 ≤ T.length → ∃ p, svd T = .ok p) →
        ∃ r, computeHandEyeCalibration svd bs ws tol true = .ok r ∧ Spec.IsUnit r.dq_H_E ∧
          179 < Spec.rotationAngle r.dq_H_E.rot ⟨0, 0, 0, 1⟩ ∧ 12 / η ≤ Spec.translationLength r.dq_H_E ∧
          r.bad_singular_values = false ∧ ∃ σ : ℝ, 1 / 2 ≤ σ ∧ r.singular_values[5]? = some σ := by
  have hη : η ^ 2 ≤ 1 / 100 := by nlinarith
  obtain ⟨w, hw, hw2⟩ : ∃ w : ℝ, 0 < w ∧ w ^ 2 = 16 / 25 - η ^ 2 / 4 :=
    ⟨Real.sqrt (16 / 25 - η ^ 2 / 4), Real.sqrt_pos.mpr (by linarith), Real.sq_sqrt (by linarith)⟩
  have w1 : 3 / 4 ≤ w := by nlinarith
  obtain ⟨u1, u2⟩ := wobbly_unit hw hw2
  obtain ⟨u3, u4⟩ := wobbly_unit (η := 0) (w := 4 / 5) (by norm_num) (by norm_num)
  have hs := wobbly_same η w
  have hT := setupTMatrix_same hs
  have hlen := setupTMatrix_length hT
  have wide : ∀ (e v : ℝ), 3 / 4 ≤ v → (∀ q ∈ wobblyHands e v, 3 / 4 ≤ q.rot.w) ∧ ∀ q ∈ wobblyEyes e v, 3 / 4 ≤ q.rot.w := by
    intro e v hv
    constructor <;>
    · intro q hq
      simp only [wobblyHands, wobblyEyes, List.mem_cons, List.not_mem_nil, or_false] at hq
      rcases hq with h' | h' | h' | h' | h' | h' | h' <;> rw [h'] <;> first | exact hv | norm_num [DQuat.identity]
  obtain ⟨n1, n2⟩ := wobbly_near h0 h1 hw hw2
  refine ⟨wobblyHands 0 (4 / 5), wobblyEyes 0 (4 / 5), wobblyHands η w, wobblyEyes η w, rfl, rfl, ?_, wobbly_exact,
    ⟨n1, n2.imp fun _ _ h => Or.inl h, fun _ b₀ hb => ?_⟩, ?_, ?_⟩
  · intro q hq
    simp only [List.mem_append] at hq
    rcases hq with ((hq | hq) | hq) | hq
    · exact ⟨u3 q hq, (wide 0 (4 / 5) (by norm_num)).1 q hq⟩
    · exact ⟨u4 q hq, (wide 0 (4 / 5) (by norm_num)).2 q hq⟩
    · exact ⟨u1 q hq, (wide η w w1).1 q hq⟩
    · exact ⟨u2 q hq, (wide η w w1).2 q hq⟩
  · have := (wide 0 (4 / 5) (by norm_num)).1 b₀ hb
    exact lt_of_lt_of_le (by linarith) (le_abs_self _)
  · obtain ⟨s, V, hsv⟩ := exists_svd _ (by rw [hlen]; simp [wobblyHands] : 8 ≤ List.length _)
    obtain ⟨svd, _, a1, a2⟩ := exists_valid_svd _ s V hsv
    exact ⟨svd, a1, a2⟩
  · intro svd hsvd htotal
    obtain ⟨⟨s, V⟩, hsv⟩ := htotal _ (by rw [hlen]; simp [wobblyHands] : 8 ≤ List.length _)
    have hIs := hsvd _ _ _ hsv
    obtain ⟨s5, s6, ⟨x, f, g, hx, hf, hf', hg, hg', e6⟩, z, k, hz, e7⟩ := wobbly_rows h0 h1 hT hIs
    obtain ⟨R, hR, hU, hc, hl⟩ := wobbly_root (k := k) h0 h1 hx hf hf' hg hg' hz
    have h8 : s.length = 8 := by rw [hIs.length, hlen]; simp [wobblyHands]
    have hd : ∀ i (hi : i < s.length), s.getD i 0 = s[i] := fun i hi => by simp [List.getD_eq_getElem?_getD, hi]
    have hsign : enforceSameSign (wobblyHands η w) (wobblyEyes η w) = .ok (wobblyEyes η w) :=
      enforceSameSign_nonneg (by simp [wobblyHands, wobblyEyes]) (fun b hb => by linarith [(wide η w w1).1 b hb])
        (fun b hb => by linarith [(wide η w w1).2 b hb])
    refine ⟨⟨R, s, badSingularValues s, wobblyEyes η w⟩, ?_, hU, ?_, hl, ?_, s.getD 5 0, s5, ?_⟩
    · have hid : pyAt (wobblyHands η w) 0 = .ok DQuat.identity := rfl
      have hid' : pyAt (wobblyEyes η w) 0 = .ok DQuat.identity := rfl
      unfold computeHandEyeCalibration
      rw [hid, hid', Py.ok_bind, pyAssert_pos allclose_identity_self]
      change ((pyAssert (DQuat.identity.allclose DQuat.identity 1e-8) >>= _) : Py Calibration) = _
      rw [pyAssert_pos allclose_identity_self]
      simp only [Py.ok_bind, if_true, hsign, scalarGate_same ht hs, hT, hsv, e6, e7, hR]
      rfl
    · have := rotationAngle_ge hc
      have e : twoMetres.rot = ⟨0, 0, 0, 1⟩ := rfl
      rw [e] at this
      linarith
    · rw [Bool.eq_false_iff, ne_eq, bad_iff]
      have a5 := fun i (hi : i ≤ 5) => svd_antitone hIs (by rw [hlen]; simp [wobblyHands]) hi (by norm_num)
      have a6 := fun i (hi : 6 ≤ i) (hi' : i < 8) => svd_antitone hIs (by rw [hlen]; simp [wobblyHands]) hi hi'
      rintro ⟨i, hi, ⟨h6, hh⟩ | ⟨h6, hh⟩⟩
      · have := a5 i (by omega)
        rw [hd i hi] at this
        norm_num at hh
        linarith
      · have := a6 i h6 (by omega)
        rw [hd i hi] at this
        norm_num at hh
        linarith
    · rw [hd 5 (by omega)]
      exact List.getElem?_eq_getElem (l := s) (by omega)

/-- **C85** is refuted away from half turns, too: however small the noise, there are measurements of exact data of the calibration
"two metres along the y axis", with no rotation near a half turn, for which every correct linear algebra library makes the solver
return a rigid motion whose rotation is off by more than 179° and whose translation is at least `12 / η` long, although the sixth
singular value is at least one half and the flag for bad singular values is down. -/
theorem C85_wrong_root_refuted (η : ℝ) (h0 : 0 < η) (h1 : η ≤ 1 / 10) (tol : ℝ) (ht : 0 ≤ tol) :
    ∃ bs₀ ws₀ bs ws : List DQuat, (∀ q ∈ bs₀ ++ ws₀ ++ bs ++ ws, Spec.IsUnit q ∧ 3 / 4 ≤ q.rot.w) ∧
      Spec.Exact bs₀ ws₀ ⟨⟨0, 0, 0, 1⟩, ⟨0, 1, 0, 0⟩⟩ ∧ Spec.Measured true η bs₀ ws₀ bs ws ∧
      (∃ svd : Svd, (∀ T s V, svd T = .ok (s, V) → Spec.IsSVD T s V) ∧ ∀ T, 8 ≤ T.length → ∃ p, svd T = .ok p) ∧
      ∀ svd : Svd, (∀ T s V, svd T = .ok (s, V) → Spec.IsSVD T s V) → (∀ T, 8 ≤ T.length → ∃ p, svd T = .ok p) →
        ∃ r, computeHandEyeCalibration svd bs ws tol true = .ok r ∧ Spec.IsUnit r.dq_H_E ∧
          179 < Spec.rotationAngle r.dq_H_E.rot ⟨0, 0, 0, 1⟩ ∧ 12 / η ≤ Spec.translationLength r.dq_H_E ∧
          r.bad_singular_values = false ∧ ∃ σ : ℝ, 1 / 2 ≤ σ ∧ r.singular_values[5]? = some σ := by
  obtain ⟨bs₀, ws₀, bs, ws, -, -, h⟩ := wrong_root η h0 h1 tol ht
  exact ⟨bs₀, ws₀, bs, ws, h⟩

/-- A concrete case: noise of one percent, a rotation off by more than 179° and a translation of more than a kilometre instead of two metres. -/
example : ∃ (bs ws : List DQuat) (svd : Svd) (r : Calibration), (∀ T s V, svd T = .ok (s, V) → Spec.IsSVD T s V) ∧
    Spec.Measured true 0.01 (wobblyHands 0 0.8) (wobblyEyes 0 0.8) bs ws ∧
    computeHandEyeCalibration svd bs ws 1e-2 true = .ok r ∧ 179 < Spec.rotationAngle r.dq_H_E.rot ⟨0, 0, 0, 1⟩ ∧
    1200 ≤ Spec.translationLength r.dq_H_E ∧ r.bad_singular_values = false := by
  obtain ⟨bs₀, ws₀, bs, ws, hb, hw, -, -, hm, ⟨svd, h1, h2⟩, h⟩ := wrong_root (1 / 100) (by norm_num) (by norm_num) 1e-2 (by norm_num)
  obtain ⟨r, hr, _, a1, a2, a3, _⟩ := h svd h1 h2
  refine ⟨bs, ws, svd, r, h1, ?_, hr, a1, by norm_num at a2; exact a2, a3⟩
  rw [hb, hw] at hm
  norm_num at hm ⊢
  exact hm

end HandEye
