import Verif.Props.Noise
import Verif.Props.HandEye4

/-! # Property C85, continued: half turns, and examples -/

open Quaternion Matrix

namespace HandEye

/-- A rotation about an axis by almost a half turn: the quaternion `((1 - u²) axis + 2 u) / (1 + u²)`, up to the sign of the vector
part. -/
noncomputable def almostHalfTurn (s x y z u : ℝ) : DQuat :=
  ⟨⟨s * x * (1 - u ^ 2) / (1 + u ^ 2), s * y * (1 - u ^ 2) / (1 + u ^ 2), s * z * (1 - u ^ 2) / (1 + u ^ 2), 2 * u / (1 + u ^ 2)⟩, ⟨0, 0, 0, 0⟩⟩

/-- Four poses of the hand: the identity, almost half turns about the x and y axes, a half turn about the z axis. -/
noncomputable def turnsB (u : ℝ) : List DQuat :=
  [DQuat.identity, almostHalfTurn 1 1 0 0 u, almostHalfTurn 1 0 1 0 u, almostHalfTurn 1 0 0 1 0]

/-- The poses of the eye after the sign loop. -/
noncomputable def turnsW (u : ℝ) : List DQuat :=
  [DQuat.identity, almostHalfTurn (-1) 1 0 0 u, almostHalfTurn (-1) 0 1 0 u, almostHalfTurn 1 0 0 1 0]

theorem turns_exact {u : ℝ} : Spec.Exact (turnsB u) (turnsW u) ⟨⟨0, 0, 1, 0⟩, ⟨0, 0, 0, 0⟩⟩ := by
  refine .cons ?_ (.cons ?_ (.cons ?_ (.cons ?_ .nil))) <;>
  · rw [handEyeEq_iff]; apply DQuat.ext' <;> ext <;> simp [almostHalfTurn, DQuat.identity] <;> ring

theorem turns_gap {u : ℝ} (h : u ^ 2 ≤ 1 / 4) {T : List (Fin 8 → ℝ)} (hT : setupTMatrix (turnsB u) (turnsW u) = .ok T) (y' : Fin 8 → ℝ) :
    y' 0 ^ 2 + y' 1 ^ 2 + y' 3 ^ 2 + y' 4 ^ 2 + y' 5 ^ 2 + y' 7 ^ 2 ≤ Spec.residualSq T y' := by
  have hX : Spec.IsUnit (⟨⟨0, 0, 1, 0⟩, ⟨0, 0, 0, 0⟩⟩ : DQuat) := by rw [DQuat.isUnit_iff]; norm_num [Quat.dot]
  have hs := setupTMatrix_same (turns_exact (u := u) |>.imp fun b w h => sameScalars_of_exact hX h)
  rw [hT] at hs
  injection hs with hs
  rw [hs]
  simp only [turnsB, turnsW, List.zip_cons_cons, List.zip_nil_right, List.flatMap_cons, List.flatMap_nil, List.append_nil,
    residualSq_append, residualSq_sRows]
  have hc : (3 / 5 : ℝ) ≤ (1 - u ^ 2) / (1 + u ^ 2) := by
    rw [le_div_iff₀ (by positivity)]; linarith
  have e1 : ∀ x y z : ℝ, ∑ i, (∑ j, sMatrix (almostHalfTurn 1 x y z u) (almostHalfTurn (-1) x y z u) i j * y' j) ^ 2 =
      4 * ((1 - u ^ 2) / (1 + u ^ 2)) ^ 2 * (x ^ 2 + y ^ 2 + z ^ 2) * (y' 3 ^ 2 + y' 7 ^ 2) := by
    intro x y z
    simp [Fin.sum_univ_eight, Fin.sum_univ_six, sMatrix, skewFromVector, almostHalfTurn, Quat.vec]
    ring
  have e2 : ∑ i, (∑ j, sMatrix (almostHalfTurn 1 0 0 1 0) (almostHalfTurn 1 0 0 1 0) i j * y' j) ^ 2 =
      4 * (y' 0 ^ 2 + y' 1 ^ 2 + y' 4 ^ 2 + y' 5 ^ 2) := by
    simp [Fin.sum_univ_eight, Fin.sum_univ_six, sMatrix, skewFromVector, almostHalfTurn, Quat.vec]
    ring
  rw [e1, e1, e2]
  have h0 : 0 ≤ ∑ i, (∑ j, sMatrix DQuat.identity DQuat.identity i j * y' j) ^ 2 := Finset.sum_nonneg fun i _ => sq_nonneg _
  have hc2 : (9 / 25 : ℝ) ≤ ((1 - u ^ 2) / (1 + u ^ 2)) ^ 2 := by nlinarith
  generalize ((1 - u ^ 2) / (1 + u ^ 2)) ^ 2 = c at *
  nlinarith [sq_nonneg (y' 0), sq_nonneg (y' 1), sq_nonneg (y' 3), sq_nonneg (y' 4), sq_nonneg (y' 5), sq_nonneg (y' 7)]

theorem handEyeEq_identity (b : DQuat) : Spec.HandEyeEq b DQuat.identity b := by
  rw [handEyeEq_iff]
  apply DQuat.ext' <;> ext <;> simp [DQuat.identity]

theorem turns_flag {u : ℝ} (hu4 : u ^ 2 ≤ 1 / 4) (hX : Spec.IsUnit (⟨⟨0, 0, 1, 0⟩, ⟨0, 0, 0, 0⟩⟩ : DQuat)) (h2 : Spec.TwoAxes (turnsB u))
    (hr : (⟨⟨0, 0, 1, 0⟩, ⟨0, 0, 0, 0⟩⟩ : DQuat).rot.w ≠ 0 ∨
      ∃ b ∈ turnsB u, b.rot.vec.dot (⟨⟨0, 0, 1, 0⟩, ⟨0, 0, 0, 0⟩⟩ : DQuat).rot.vec ≠ 0) {svd : Svd}
    (hsvd : ∀ T s V, svd T = .ok (s, V) → Spec.IsSVD T s V) {tol : ℝ} {r : Calibration}
    (h : computeHandEyeCalibration svd (turnsB u) (turnsW u) tol true = .ok r) : r.bad_singular_values = false := by
  obtain ⟨h8, hflag⟩ := C30_flag_exact svd hsvd _ _ _ hX turns_exact h2 hr tol true r h
  rw [Bool.eq_false_iff, ne_eq, hflag, not_lt]
  obtain ⟨T, V, _, _, hs, _, hT, hsv, _, _⟩ := compute_eq_ok h
  rw [exact_signs hX turns_exact hs] at hT
  have hIs := hsvd _ _ _ hsv
  obtain ⟨_, _, _, l₁, m₁, l₂, m₂, e6, e7, hd⟩ := exact_svd hX turns_exact h2 hr hT hIs
  have hg := turns_gap hu4 hT (V 5)
  have h55 : V 5 ⬝ᵥ V 5 = 1 := by have := congrFun (congrFun hIs.orthogonal 5) 5; simpa [mul_apply, dotProduct] using this
  have h56 : V 5 ⬝ᵥ V 6 = 0 := by have := congrFun (congrFun hIs.orthogonal 5) 6; simpa [mul_apply, dotProduct] using this
  have h57 : V 5 ⬝ᵥ V 7 = 0 := by have := congrFun (congrFun hIs.orthogonal 5) 7; simpa [mul_apply, dotProduct] using this
  rw [← vec8_splitRow (V 6), e6, dotProduct, Fin.sum_univ_eight] at h56
  rw [← vec8_splitRow (V 7), e7, dotProduct, Fin.sum_univ_eight] at h57
  simp [Spec.vec8, kvec] at h56 h57
  have z2 : V 5 2 = 0 := by
    have : V 5 2 * (l₁ * m₂ - l₂ * m₁) = 0 := by linear_combination m₂ * h56 - m₁ * h57
    exact (mul_eq_zero.mp this).resolve_right hd
  have z6 : V 5 6 = 0 := by
    have : V 5 6 * (l₁ * m₂ - l₂ * m₁) = 0 := by linear_combination l₁ * h57 - l₂ * h56
    exact (mul_eq_zero.mp this).resolve_right hd
  rw [dotProduct, Fin.sum_univ_eight, z2, z6] at h55
  have hres : Spec.residualSq T (V 5) = r.singular_values[5] ^ 2 := by
    rw [residualSq_svd hIs]
    have hVV : ∀ j : Fin 8, (V *ᵥ V 5) j = if j = 5 then 1 else 0 := by
      intro j
      have := congrFun (congrFun hIs.orthogonal j) 5
      rw [mul_apply] at this
      rw [mulVec, dotProduct]
      simp only [transpose_apply] at this
      rw [this, one_apply]
    simp only [hVV]
    rw [Fin.sum_univ_eight]
    simp [h8]
  rw [hres] at hg
  have hn := hIs.nonneg _ (List.getElem_mem (l := r.singular_values) (n := 5) (by omega))
  nlinarith

theorem turns_unit : ∀ s x y z : ℝ, ∀ v : ℝ, s ^ 2 = 1 → x ^ 2 + y ^ 2 + z ^ 2 = 1 → Spec.IsUnit (almostHalfTurn s x y z v) := by
  intro s x y z v hs hx
  have hv : 0 < 1 + v ^ 2 := by positivity
  rw [DQuat.isUnit_iff]
  simp only [almostHalfTurn, Quat.dot]
  constructor
  · field_simp
    linear_combination (1 - v ^ 2) ^ 2 * (x ^ 2 + y ^ 2 + z ^ 2) * hs + (1 - v ^ 2) ^ 2 * hx
  · ring

theorem turns_near {η u : ℝ} (hu0 : 0 < u) (hu1 : u ≤ η / 2) : ∀ x y z : ℝ, x ^ 2 + y ^ 2 + z ^ 2 = 1 → Spec.NearDQ η (almostHalfTurn 1 x y z u) (almostHalfTurn 1 x y z 0) := by
  intro x y z hx
  have hpos : 0 < 1 + u ^ 2 := by positivity
  have : ∑ j, (Spec.vec8 (almostHalfTurn 1 x y z u) j - Spec.vec8 (almostHalfTurn 1 x y z 0) j) ^ 2 = 4 * u ^ 2 / (1 + u ^ 2) := by
    rw [Fin.sum_univ_eight]
    simp [Spec.vec8, almostHalfTurn]
    field_simp
    linear_combination 4 * u ^ 4 * hx
  rw [Spec.NearDQ, this, div_le_iff₀ hpos]
  nlinarith [sq_nonneg u]

theorem turns_near_neg {η u : ℝ} (hu0 : 0 < u) (hu1 : u ≤ η / 2) : ∀ x y z : ℝ, x ^ 2 + y ^ 2 + z ^ 2 = 1 → Spec.NearDQ η (-almostHalfTurn (-1) x y z u) (almostHalfTurn 1 x y z 0) := by
  intro x y z hx
  have hpos : 0 < 1 + u ^ 2 := by positivity
  have : ∑ j, (Spec.vec8 (-almostHalfTurn (-1) x y z u) j - Spec.vec8 (almostHalfTurn 1 x y z 0) j) ^ 2 = 4 * u ^ 2 / (1 + u ^ 2) := by
    rw [Fin.sum_univ_eight]
    simp [Spec.vec8, almostHalfTurn]
    field_simp
    linear_combination 4 * u ^ 4 * hx
  rw [Spec.NearDQ, this, div_le_iff₀ hpos]
  nlinarith [sq_nonneg u]

theorem isUnit_neg' : ∀ a : DQuat, Spec.IsUnit a → Spec.IsUnit (-a) := fun a ha => by
  rw [DQuat.isUnit_iff] at ha ⊢
  rw [DQuat.neg_rot, DQuat.neg_dual, Quat.dot_neg_neg, Quat.dot_neg_neg]
  exact ha

theorem turns_axes {u : ℝ} (hu4 : u ^ 2 ≤ 1 / 4) : Spec.TwoAxes (turnsB u) := by
  refine ⟨_, List.mem_cons_of_mem _ (List.mem_cons_self ..), _, List.mem_cons_of_mem _ (List.mem_cons_of_mem _ (List.mem_cons_self ..)), ?_⟩
  intro e
  have := congrArg Vec3.z e
  simp [Spec.cross, almostHalfTurn, Quat.vec] at this
  rcases this with h | h <;> nlinarith

theorem turns_flip {u : ℝ} (hu0 : 0 < u) (tol : ℝ) : ∀ svd : Svd, computeHandEyeCalibration svd (turnsB u)
    [DQuat.identity, -almostHalfTurn (-1) 1 0 0 u, -almostHalfTurn (-1) 0 1 0 u, almostHalfTurn 1 0 0 1 0] tol true =
    computeHandEyeCalibration svd (turnsB u) (turnsW u) tol true := by
  intro svd
  have hw : 0 < 2 * u / (1 + u ^ 2) := by positivity
  refine C31_sign_pattern_partial svd _ _ _ _ rfl rfl ?_
  intro i w hi
  match i with
  | 0 => exact Or.inl hi
  | 1 =>
    simp only [turnsW, List.getElem?_cons_succ, List.getElem?_cons_zero, Option.some.injEq] at hi
    subst hi
    exact Or.inr ⟨rfl, hw.ne', _, rfl, hw.ne'⟩
  | 2 =>
    simp only [turnsW, List.getElem?_cons_succ, List.getElem?_cons_zero, Option.some.injEq] at hi
    subst hi
    exact Or.inr ⟨rfl, hw.ne', _, rfl, hw.ne'⟩
  | 3 => exact Or.inl hi
  | i + 4 => simp [turnsW] at hi

/-- **C85** is refuted near half turns: however small the noise, there are measurements of exact data of the calibration "no motion"
(the poses of the hand and of the eye agree) for which the loop that makes the signs equal turns the sign of two poses; every correct
linear algebra library then makes the solver return a rotation by 180° if it returns, the flag for bad singular values is
down, and there is a correct library with which it returns. -/
theorem C85_half_turns_refuted (η : ℝ) (h0 : 0 < η) (tol : ℝ) (ht : 0 ≤ tol) :
    ∃ bs₀ ws₀ bs ws : List DQuat, (∀ q ∈ bs₀ ++ ws₀ ++ bs ++ ws, Spec.IsUnit q) ∧ Spec.Exact bs₀ ws₀ DQuat.identity ∧
      List.Forall₂ (Spec.NearDQ η) bs bs₀ ∧ List.Forall₂ (Spec.NearDQ η) ws ws₀ ∧
      (∃ svd : Svd, (∀ T s V, svd T = .ok (s, V) → Spec.IsSVD T s V) ∧ (∀ T, 8 ≤ T.length → ∃ p, svd T = .ok p) ∧
        ∃ r, computeHandEyeCalibration svd bs ws tol true = .ok r) ∧
      ∀ svd : Svd, (∀ T s V, svd T = .ok (s, V) → Spec.IsSVD T s V) → ∀ r,
        computeHandEyeCalibration svd bs ws tol true = .ok r →
        Spec.rotationAngle r.dq_H_E.rot DQuat.identity.rot = 180 ∧ r.bad_singular_values = false := by
  obtain ⟨u, hu0, hu1, hu2⟩ : ∃ u : ℝ, 0 < u ∧ u ≤ η / 2 ∧ u ≤ 1 / 2 :=
    ⟨min (η / 2) (1 / 2), by positivity, min_le_left _ _, min_le_right _ _⟩
  have hX : Spec.IsUnit (⟨⟨0, 0, 1, 0⟩, ⟨0, 0, 0, 0⟩⟩ : DQuat) := by rw [DQuat.isUnit_iff]; norm_num [Quat.dot]
  have hu4 : u ^ 2 ≤ 1 / 4 := by nlinarith
  have hpos : 0 < 1 + u ^ 2 := by positivity
  have hself : ∀ a : DQuat, Spec.NearDQ η a a := fun a => by
    simp only [Spec.NearDQ, sub_self]
    norm_num
    positivity
  have hone : Spec.IsUnit DQuat.identity := by rw [DQuat.isUnit_iff]; norm_num [Quat.dot, DQuat.identity]
  have hunit := turns_unit
  have hnear := turns_near hu0 hu1
  have hnear' := turns_near_neg hu0 hu1
  have hneg := isUnit_neg'
  have h2 := turns_axes hu4
  have hflip := turns_flip hu0 tol
  have hr : (⟨⟨0, 0, 1, 0⟩, ⟨0, 0, 0, 0⟩⟩ : DQuat).rot.w ≠ 0 ∨
      ∃ b ∈ turnsB u, b.rot.vec.dot (⟨⟨0, 0, 1, 0⟩, ⟨0, 0, 0, 0⟩⟩ : DQuat).rot.vec ≠ 0 := by
    right
    refine ⟨_, List.mem_cons_of_mem _ (List.mem_cons_of_mem _ (List.mem_cons_of_mem _ (List.mem_cons_self ..))), ?_⟩
    norm_num [almostHalfTurn, Quat.vec, Vec3.dot]
  refine ⟨turnsB 0, turnsB 0, turnsB u,
    [DQuat.identity, -almostHalfTurn (-1) 1 0 0 u, -almostHalfTurn (-1) 0 1 0 u, almostHalfTurn 1 0 0 1 0], ?_, ?_, ?_, ?_, ?_, ?_⟩
  · intro q hq
    simp only [turnsB, List.mem_append, List.mem_cons, List.not_mem_nil, or_false] at hq
    rcases hq with (((h | h | h | h) | (h | h | h | h)) | (h | h | h | h)) | (h | h | h | h) <;> rw [h] <;>
      first
      | exact hone
      | exact hunit _ _ _ _ _ (by norm_num) (by norm_num)
      | exact hneg _ (hunit _ _ _ _ _ (by norm_num) (by norm_num))
  · exact .cons (handEyeEq_identity _) (.cons (handEyeEq_identity _) (.cons (handEyeEq_identity _) (.cons (handEyeEq_identity _) .nil)))
  · exact .cons (hself _) (.cons (hnear _ _ _ (by norm_num)) (.cons (hnear _ _ _ (by norm_num)) (.cons (hself _) .nil)))
  · exact .cons (hself _) (.cons (hnear' _ _ _ (by norm_num)) (.cons (hnear' _ _ _ (by norm_num)) (.cons (hself _) .nil)))
  · obtain ⟨_, svd, a1, a2, r, a3⟩ := C28_orthogonal_halves_refuted (turnsB u) (turnsW u) _ hX turns_exact h2 hr rfl tol ht true
    exact ⟨svd, a1, a2, r, by rw [hflip, a3]⟩
  · intro svd hsvd r h
    rw [hflip] at h
    obtain ⟨hrec, _⟩ := C27_exact_recovery svd hsvd _ _ _ hX turns_exact h2 hr tol true r h
    refine ⟨?_, ?_⟩
    · have hc : Spec.cosHalf r.dq_H_E.rot DQuat.identity.rot = 0 := by
        rcases hrec with e | e <;> rw [e] <;> simp [Spec.cosHalf, DQuat.identity]
      rw [Spec.rotationAngle, hc, Real.arccos_zero]
      field_simp
      norm_num
    · exact turns_flag hu4 hX h2 hr hsvd h

/-- **C85**: the sixth singular value is positive on exact data with two non-parallel rotation axes, so that the bounds are not void
for small enough noise. -/
theorem C85_exact_gap (svd : Svd) (hsvd : ∀ T s V, svd T = .ok (s, V) → Spec.IsSVD T s V)
    (bs ws : List DQuat) (X : DQuat) (hX : Spec.IsUnit X) (he : Spec.Exact bs ws X)
    (h2 : Spec.TwoAxes bs) (hr : X.rot.w ≠ 0 ∨ ∃ b ∈ bs, b.rot.vec.dot X.rot.vec ≠ 0)
    (tol : ℝ) (enf : Bool) (r : Calibration) (h : computeHandEyeCalibration svd bs ws tol enf = .ok r) :
    ∃ σ : ℝ, 0 < σ ∧ r.singular_values[5]? = some σ := by
  obtain ⟨T, V, _, _, hs, _, hT, hsv, _, _⟩ := compute_eq_ok h
  rw [exact_signs hX he hs] at hT
  have hIs := hsvd _ _ _ hsv
  obtain ⟨h8, _, _, l₁, m₁, l₂, m₂, e6, e7, hd⟩ := exact_svd hX he h2 hr hT hIs
  have h5 : r.singular_values[5]? = some (r.singular_values[5]'(by omega)) := List.getElem?_eq_getElem _
  refine ⟨_, ?_, h5⟩
  have hn := hIs.nonneg _ (List.getElem_mem (l := r.singular_values) (n := 5) (by omega))
  rcases hn.lt_or_eq with hlt | h0
  · exact hlt
  exfalso
  have hdot : ∀ i j : Fin 8, V i ⬝ᵥ V j = if i = j then 1 else 0 := by
    intro i j
    have := congrFun (congrFun hIs.orthogonal i) j
    rw [mul_apply, one_apply] at this
    simpa [dotProduct] using this
  have hres : Spec.residualSq T (V 5) = 0 := by
    rw [residualSq_svd hIs]
    apply Finset.sum_eq_zero
    intro j _
    change (_ * (V j ⬝ᵥ V 5)) ^ 2 = 0
    rw [hdot]
    by_cases hj : j = 5
    · subst hj
      have : r.singular_values.getD 5 0 = 0 := by rw [List.getD_eq_getElem?_getD, h5, ← h0]; rfl
      simp only [show ((5 : Fin 8) : ℕ) = 5 from rfl, this]; ring
    · rw [if_neg hj]; ring
  have hsol : Spec.Solves T (V 5) := by
    intro row hrow
    have hall := List.single_le_sum (l := T.map fun row => (∑ j, row j * V 5 j) ^ 2) (by
      intro x hx
      obtain ⟨_, _, rfl⟩ := List.mem_map.mp hx
      exact sq_nonneg _) _ (List.mem_map.mpr ⟨row, hrow, rfl⟩)
    change _ ≤ Spec.residualSq T (V 5) at hall
    rw [hres] at hall
    exact pow_eq_zero_iff (two_ne_zero) |>.mp (le_antisymm hall (sq_nonneg _))
  obtain ⟨l, m, hlm⟩ := (C26_kernel_partial bs ws X hX he h2 hr T hT (V 5)).mp hsol
  have e5 : V 5 = l • Spec.vec8 X + m • Spec.vec8 ⟨⟨0, 0, 0, 0⟩, X.rot⟩ := funext hlm
  have f6 : V 6 = l₁ • Spec.vec8 X + m₁ • Spec.vec8 ⟨⟨0, 0, 0, 0⟩, X.rot⟩ := by
    rw [← vec8_splitRow (V 6), e6]; funext j; fin_cases j <;> simp [Spec.vec8, kvec]
  have f7 : V 7 = l₂ • Spec.vec8 X + m₂ • Spec.vec8 ⟨⟨0, 0, 0, 0⟩, X.rot⟩ := by
    rw [← vec8_splitRow (V 7), e7]; funext j; fin_cases j <;> simp [Spec.vec8, kvec]
  have hcomb : (l₁ * m₂ - l₂ * m₁) • V 5 = (l * m₂ - m * l₂) • V 6 + (m * l₁ - l * m₁) • V 7 := by
    rw [e5, f6, f7]
    funext j
    simp only [Pi.add_apply, Pi.smul_apply, smul_eq_mul]
    ring
  have := congrArg (fun v => V 5 ⬝ᵥ v) hcomb
  simp only [dotProduct_add, dotProduct_smul, hdot] at this
  simp at this
  exact hd this

/-- Measurements of the sample data with noise: the true poses are the measured ones times `1 + δ`, and the second pose of the eye was
measured with the other sign. -/
theorem sample_measured {δ : ℝ} (h0 : 0 ≤ δ) (h1 : δ ≤ 1 / 10) :
    Spec.Exact (sampleB.map ((1 + δ) • ·)) (sampleW.map ((1 + δ) • ·)) sampleX ∧
      Spec.Measured true (4 * δ) (sampleB.map ((1 + δ) • ·)) (sampleW.map ((1 + δ) • ·)) sampleB
        [⟨⟨0, 0, 0, 1⟩, ⟨0, 0, 0, 0⟩⟩, -⟨⟨0.576, 0.168, 0, 0.8⟩, ⟨0.28, -0.96, -0.768, 0⟩⟩,
          ⟨⟨0.224, -0.768, 0, 0.6⟩, ⟨0.96, 0.28, 2.768, 0⟩⟩] := by
  have hsmul : ∀ (b : DQuat) (j : Fin 8), Spec.vec8 ((1 + δ) • b) j = (1 + δ) * Spec.vec8 b j := by
    intro b j; fin_cases j <;> simp [Spec.vec8]
  have hneg : ∀ (b : DQuat) (j : Fin 8), Spec.vec8 (-b) j = -Spec.vec8 b j := by
    intro b j; fin_cases j <;> simp [Spec.vec8]
  have hsum : ∀ b : DQuat, b.rot.x ^ 2 + b.rot.y ^ 2 + b.rot.z ^ 2 + b.rot.w ^ 2 + b.dual.x ^ 2 + b.dual.y ^ 2 + b.dual.z ^ 2 +
      b.dual.w ^ 2 ≤ 16 → δ ^ 2 * ∑ j, Spec.vec8 b j ^ 2 ≤ (4 * δ) ^ 2 := by
    intro b hb
    have : ∑ j, Spec.vec8 b j ^ 2 ≤ 16 := by rw [Fin.sum_univ_eight]; exact hb
    nlinarith [sq_nonneg δ]
  have hnear : ∀ b : DQuat, b.rot.x ^ 2 + b.rot.y ^ 2 + b.rot.z ^ 2 + b.rot.w ^ 2 + b.dual.x ^ 2 + b.dual.y ^ 2 + b.dual.z ^ 2 +
      b.dual.w ^ 2 ≤ 16 → Spec.NearDQ (4 * δ) b ((1 + δ) • b) := by
    intro b hb
    refine le_trans (le_of_eq ?_) (hsum b hb)
    rw [Finset.mul_sum]
    exact Finset.sum_congr rfl fun j _ => by rw [hsmul]; ring
  have hopp : ∀ b : DQuat, b.rot.x ^ 2 + b.rot.y ^ 2 + b.rot.z ^ 2 + b.rot.w ^ 2 + b.dual.x ^ 2 + b.dual.y ^ 2 + b.dual.z ^ 2 +
      b.dual.w ^ 2 ≤ 16 → ∑ j, (Spec.vec8 (-b) j + Spec.vec8 ((1 + δ) • b) j) ^ 2 ≤ (4 * δ) ^ 2 := by
    intro b hb
    refine le_trans (le_of_eq ?_) (hsum b hb)
    rw [Finset.mul_sum]
    exact Finset.sum_congr rfl fun j _ => by rw [hsmul, hneg]; ring
  obtain ⟨_, he, _⟩ := sample_data
  refine ⟨?_, ⟨?_, ?_, ?_⟩⟩
  · rw [Spec.Exact, List.forall₂_map_left_iff, List.forall₂_map_right_iff]
    refine he.imp fun b w h => ?_
    rw [handEyeEq_iff] at h ⊢
    rw [DQuat.smul_mul, DQuat.mul_smul', h]
  · exact .cons (hnear _ (by norm_num)) (.cons (hnear _ (by norm_num)) (.cons (hnear _ (by norm_num)) .nil))
  · exact .cons (Or.inl (hnear _ (by norm_num))) (.cons (Or.inr ⟨rfl, hopp _ (by norm_num)⟩) (.cons (Or.inl (hnear _ (by norm_num))) .nil))
  · intro _ b hb
    simp only [sampleB, List.map_cons, List.map_nil, List.mem_cons, List.not_mem_nil, or_false] at hb
    rcases hb with rfl | rfl | rfl <;> simp only [DQuat.smul_rot, Quat.smul_w] <;> rw [abs_of_nonneg (by positivity)] <;> linarith

/-- The sample data as measured, see `sample_measured`. -/
noncomputable def sampleW' : List DQuat :=
  [⟨⟨0, 0, 0, 1⟩, ⟨0, 0, 0, 0⟩⟩, -⟨⟨0.576, 0.168, 0, 0.8⟩, ⟨0.28, -0.96, -0.768, 0⟩⟩,
    ⟨⟨0.224, -0.768, 0, 0.6⟩, ⟨0.96, 0.28, 2.768, 0⟩⟩]

/-- A run on the measured data. -/
theorem sample_noisy_run : ∃ svd : Svd, (∀ T s V, svd T = .ok (s, V) → Spec.IsSVD T s V) ∧
    ∃ r, computeHandEyeCalibration svd sampleB sampleW' 1e-2 true = .ok r ∧ ∃ σ : ℝ, 0 < σ ∧ r.singular_values[5]? = some σ := by
  obtain ⟨svd, hsvd, r, h⟩ := sample_run
  obtain ⟨h1, h2, h3, h4⟩ := sample_data
  refine ⟨svd, hsvd, r, ?_, C85_exact_gap svd hsvd _ _ _ h1 h2 h3 (Or.inl h4) _ _ r h⟩
  rw [← h]
  refine C31_sign_pattern_partial svd _ _ _ _ rfl rfl ?_
  intro i w hw
  match i with
  | 0 => exact Or.inl hw
  | 1 =>
    simp only [sampleW, List.getElem?_cons_succ, List.getElem?_cons_zero, Option.some.injEq] at hw
    subst hw
    exact Or.inr ⟨rfl, by norm_num, _, rfl, by norm_num⟩
  | 2 => exact Or.inl hw
  | i + 3 => simp [sampleW] at hw

/-- Noise that is small enough for a given bound. -/
theorem small_noise {σ K : ℝ} (hσ : 0 < σ) (hK : 0 < K) : ∃ δ : ℝ, 0 < δ ∧ δ ≤ 1 / 10 ∧
    4 * (4 * δ) * Real.sqrt (sampleB.length : ℕ) / σ * K ≤ 1 / 2 := by
  have h3 : 0 < Real.sqrt (sampleB.length : ℕ) := Real.sqrt_pos.mpr (by norm_num [sampleB])
  refine ⟨min (1 / 10) (σ / (32 * Real.sqrt (sampleB.length : ℕ) * K)), by positivity, min_le_left _ _, ?_⟩
  have : min (1 / 10) (σ / (32 * Real.sqrt (sampleB.length : ℕ) * K)) ≤ σ / (32 * Real.sqrt (sampleB.length : ℕ) * K) := min_le_right _ _
  calc _ ≤ 4 * (4 * (σ / (32 * Real.sqrt (sampleB.length : ℕ) * K))) * Real.sqrt (sampleB.length : ℕ) / σ * K := by gcongr
    _ = 1 / 2 := by field_simp; norm_num

example : ∃ (svd : Svd) (r : Calibration) (σ : ℝ), computeHandEyeCalibration svd sampleB sampleW' 1e-2 true = .ok r ∧ 0 < σ ∧
    1 - Spec.cosHalf r.dq_H_E.rot sampleX.rot ^ 2 ≤
      (4 * (4 * 0.001) * Real.sqrt sampleB.length / σ) ^ 2 * (1 + Spec.translationLength r.dq_H_E ^ 2 / 4) := by
  obtain ⟨svd, hsvd, r, h, σ, hσ, hs⟩ := sample_noisy_run
  obtain ⟨he, hm⟩ := sample_measured (δ := 0.001) (by norm_num) (by norm_num)
  exact ⟨svd, r, σ, h, hσ, C85_rotation_error_partial svd hsvd _ (by norm_num) sampleX sample_data.1 true _ _ _ _ he hm _ r h σ hσ hs⟩

example : ∃ (svd : Svd) (r : Calibration) (σ δ : ℝ), computeHandEyeCalibration svd sampleB sampleW' 1e-2 true = .ok r ∧ 0 < δ ∧
    4 * (4 * δ) * Real.sqrt sampleB.length / σ * Real.sqrt (1 + Spec.translationLength r.dq_H_E ^ 2 / 4) ≤ 1 / 2 ∧
    Spec.IsUnit r.dq_H_E ∧ Spec.dist (Spec.motion r.dq_H_E ⟨1, 2, 3⟩) (Spec.motion sampleX ⟨1, 2, 3⟩) ≤
      4 * (4 * δ) * Real.sqrt sampleB.length / σ * Real.sqrt (1 + Spec.translationLength r.dq_H_E ^ 2 / 4) *
        (2 * Spec.dist ⟨1, 2, 3⟩ ⟨0, 0, 0⟩ + 4 + 3 * Spec.translationLength sampleX + 2 * Spec.translationLength r.dq_H_E) := by
  obtain ⟨svd, hsvd, r, h, σ, hσ, hs⟩ := sample_noisy_run
  obtain ⟨δ₁, h1, h2, h3⟩ := small_noise hσ (K := Real.sqrt (1 + Spec.translationLength r.dq_H_E ^ 2 / 4)) (by positivity)
  obtain ⟨δ₂, h4, h5, h6⟩ := small_noise hσ (K := 2 + Spec.translationLength sampleX ^ 2 / 4) (by positivity)
  obtain ⟨he, hm⟩ := sample_measured h1.le h2
  obtain ⟨he', hm'⟩ := sample_measured h4.le h5
  have hu := C85_rigid_partial svd hsvd _ (by positivity) sampleX sample_data.1 true _ _ _ _ he' hm' _ r h σ hσ hs h6
  exact ⟨svd, r, σ, δ₁, h, h1, h3, hu, C85_motion_error_partial svd hsvd _ (by positivity) sampleX sample_data.1 true _ _ _ _ he hm _ r h hu σ hσ hs
    _ rfl h3 _⟩

example : ∃ (svd : Svd) (r : Calibration) (γ : ℝ), computeHandEyeCalibration svd sampleB sampleW' 1e-2 true = .ok r ∧ 0 < γ ∧
    Spec.IsUnit r.dq_H_E ∧
      ((∀ p : Vec3, Spec.dist (Spec.motion r.dq_H_E p) (Spec.motion sampleX p) ≤
          γ * (2 + 5 / 4 * Spec.translationLength sampleX) * (2 * Spec.dist p ⟨0, 0, 0⟩ + 8 + 8 * Spec.translationLength sampleX)) ∨
        1 / 4 < γ ^ 2 * (4 + Spec.translationLength r.dq_H_E ^ 2)) := by
  obtain ⟨svd, hsvd, r, h, σ, hσ, hs⟩ := sample_noisy_run
  obtain ⟨δ, h4, h5, h6⟩ := small_noise hσ (K := 2 + Spec.translationLength sampleX ^ 2 / 4) (by positivity)
  obtain ⟨he, hm⟩ := sample_measured h4.le h5
  have h3 : 0 < Real.sqrt (sampleB.length : ℕ) := Real.sqrt_pos.mpr (by norm_num [sampleB])
  exact ⟨svd, r, _, h, by positivity, C85_proportional_partial svd hsvd _ (by positivity) sampleX sample_data.1 true _ _ _ _ he hm _ r h σ hσ hs _ rfl h6⟩

example : ∃ bs₀ ws₀ bs ws : List DQuat, Spec.Exact bs₀ ws₀ DQuat.identity ∧ List.Forall₂ (Spec.NearDQ 1e-9) bs bs₀ ∧
    List.Forall₂ (Spec.NearDQ 1e-9) ws ws₀ ∧ ∃ svd r, computeHandEyeCalibration svd bs ws 1e-2 true = .ok r ∧
      Spec.rotationAngle r.dq_H_E.rot DQuat.identity.rot = 180 := by
  obtain ⟨bs₀, ws₀, bs, ws, _, h1, h2, h3, ⟨svd, hsvd, _, r, h⟩, h5⟩ := C85_half_turns_refuted 1e-9 (by norm_num) 1e-2 (by norm_num)
  exact ⟨bs₀, ws₀, bs, ws, h1, h2, h3, svd, r, h, (h5 svd hsvd r h).1⟩

end HandEye
