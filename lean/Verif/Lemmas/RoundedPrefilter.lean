import Verif.Model.RoundedPrefilter
import Verif.Spec.RoundedPrefilter
import Verif.Lemmas.Prefilter
import Verif.Lemmas.RoundedInterp
import Verif.Props.RoundedRansac2

/-! # Lemmas about the prefilter in floating-point arithmetic -/

namespace HandEye

section
variable {α : Type} {axes : DQuat → DQuat → Py (Option α)} {close : α → α → Bool}


theorem dropClose_keeps (a : α) (j : ℕ) (we bh : List DQuat) (r : List DQuat × List DQuat)
    (h : dropClose axes close a j we bh = .ok r) (hl : we.length = bh.length) :
    r.1.length = r.2.length ∧ (r.1.zip r.2).Sublist (we.zip bh) := by
  induction hn : we.length - j using Nat.strong_induction_on generalizing j we bh with
  | _ n ih =>
  rw [dropClose] at h
  split at h
  case isFalse => cases h; exact ⟨hl, List.Sublist.refl _⟩
  case isTrue hj =>
    have h1 : (we.eraseIdx j).length = we.length - 1 := List.length_eraseIdx_of_lt hj
    have h2 : (bh.eraseIdx j).length = bh.length - 1 := List.length_eraseIdx_of_lt (by omega)
    have key : dropClose axes close a j (we.eraseIdx j) (bh.eraseIdx j) = .ok r → r.1.length = r.2.length ∧ (r.1.zip r.2).Sublist (we.zip bh) := by
      intro hh
      obtain ⟨k1, k2⟩ := ih _ (by omega) j _ _ hh (by omega) rfl
      rw [zip_eraseIdx_both] at k2
      exact ⟨k1, k2.trans (List.eraseIdx_sublist _ _)⟩
    obtain ⟨b, _, h⟩ := Py.bind_eq_ok.mp h
    obtain ⟨o, _, h⟩ := Py.bind_eq_ok.mp h
    cases o with
    | none => exact key h
    | some a =>
      dsimp only at h
      split_ifs at h
      · exact key h
      · exact ih _ (by omega) (j + 1) we bh h hl rfl

theorem keepDistinct_keeps : ∀ (fuel i : ℕ) (we bh : List DQuat) (r : ℕ × List DQuat × List DQuat)
    (_ : keepDistinct axes close fuel i we bh = .ok r) (_ : we.length = bh.length),
    r.2.1.length = r.2.2.length ∧ (r.2.1.zip r.2.2).Sublist (we.zip bh) := by
  intro fuel
  induction fuel with
  | zero => intro i we bh r h hl; cases h; exact ⟨hl, List.Sublist.refl _⟩
  | succ fuel ih =>
    intro i we bh r h hl
    rw [keepDistinct] at h
    split at h
    case isFalse => cases h; exact ⟨hl, List.Sublist.refl _⟩
    case isTrue hj =>
      have h1 : (we.eraseIdx i).length = we.length - 1 := List.length_eraseIdx_of_lt hj
      have h2 : (bh.eraseIdx i).length = bh.length - 1 := List.length_eraseIdx_of_lt (by omega)
      obtain ⟨b, _, h⟩ := Py.bind_eq_ok.mp h
      obtain ⟨o, _, h⟩ := Py.bind_eq_ok.mp h
      cases o with
      | none =>
        obtain ⟨k1, k2⟩ := ih i _ _ _ h (by omega)
        rw [zip_eraseIdx_both] at k2
        exact ⟨k1, k2.trans (List.eraseIdx_sublist _ _)⟩
      | some a =>
        obtain ⟨q, hq, h⟩ := Py.bind_eq_ok.mp h
        obtain ⟨k1, k2⟩ := dropClose_keeps _ _ _ _ _ hq hl
        obtain ⟨k3, k4⟩ := ih (i + 1) _ _ _ h k1
        exact ⟨k3, k4.trans k2⟩

variable (axes close) in
/-- The axes of a pair, as an option. -/
def axesOption (p : DQuat × DQuat) : Option α := (axes p.1 p.2).toOption.join

theorem axesOption_ok {p : DQuat × DQuat} {o : Option α} (h : axes p.1 p.2 = .ok o) : axesOption axes p = o := by
  unfold axesOption
  rw [h]
  rfl

theorem dropClose_eq (a : α) (P L : List (DQuat × DQuat)) (h : ∀ p ∈ L, ∃ o, axes p.1 p.2 = .ok o) :
    dropClose axes close a P.length ((P ++ L).map Prod.fst) ((P ++ L).map Prod.snd) =
      .ok ((P ++ L.filter (survives (axesOption axes) (fun a b => close a b = true) a)).map Prod.fst,
        (P ++ L.filter (survives (axesOption axes) (fun a b => close a b = true) a)).map Prod.snd) := by
  induction L generalizing P with
  | nil =>
    rw [dropClose, dif_neg (by simp)]
    simp [pure, Except.pure]
  | cons p L ih =>
    obtain ⟨o, ho⟩ := h p List.mem_cons_self
    have hL : ∀ q ∈ L, ∃ o, axes q.1 q.2 = .ok o := fun q hq => h q (List.mem_cons_of_mem _ hq)
    have hw : (P ++ p :: L).map Prod.fst = P.map Prod.fst ++ p.1 :: L.map Prod.fst := by simp
    have hb : (P ++ p :: L).map Prod.snd = P.map Prod.snd ++ p.2 :: L.map Prod.snd := by simp
    have hlw : P.length = (P.map Prod.fst).length := by simp
    have hlb : P.length = (P.map Prod.snd).length := by simp
    have hdrop : dropClose axes close a P.length
        (((P ++ p :: L).map Prod.fst).eraseIdx P.length) (((P ++ p :: L).map Prod.snd).eraseIdx P.length)
        = .ok ((P ++ L.filter (survives (axesOption axes) (fun a b => close a b = true) a)).map Prod.fst,
          (P ++ L.filter (survives (axesOption axes) (fun a b => close a b = true) a)).map Prod.snd) := by
      rw [hw, hb]
      conv_lhs => rw [hlw, eraseIdx_middle]
      rw [← hlw]
      conv_lhs => rw [hlb, eraseIdx_middle]
      rw [← hlb, ← List.map_append, ← List.map_append]
      exact ih P hL
    have hlt : P.length < ((P ++ p :: L).map Prod.fst).length := by simp
    have hgw : ((P ++ p :: L).map Prod.fst)[P.length] = p.1 := by simp
    have hgb : pyAt ((P ++ p :: L).map Prod.snd) P.length = .ok p.2 := by
      rw [hb, hlb]; exact pyAt_middle _ _ _
    rw [dropClose, dif_pos hlt, hgb, Py.ok_bind, hgw, ho, Py.ok_bind]
    cases o with
    | none =>
      have hs : survives (axesOption axes) (fun a b => close a b = true) a p = false := by
        simp [survives, axesOption_ok ho]
      rw [List.filter_cons, hs]
      exact hdrop
    | some a' =>
      have hs : survives (axesOption axes) (fun a b => close a b = true) a p = !close a a' := by
        simp [survives, axesOption_ok ho]
      rw [List.filter_cons, hs]
      dsimp only
      cases hc : close a a' with
      | true => exact hdrop
      | false => simpa using ih (P ++ [p]) hL

theorem keepDistinct_eq (P L : List (DQuat × DQuat)) (h : ∀ p ∈ L, ∃ o, axes p.1 p.2 = .ok o) (fuel : ℕ) (hf : L.length ≤ fuel) :
    keepDistinct axes close fuel P.length ((P ++ L).map Prod.fst) ((P ++ L).map Prod.snd) =
      .ok (P.length + (greedy (axesOption axes) (fun a b => close a b = true) L).length,
        (P ++ greedy (axesOption axes) (fun a b => close a b = true) L).map Prod.fst,
        (P ++ greedy (axesOption axes) (fun a b => close a b = true) L).map Prod.snd) := by
  induction L using greedy_induction (axesOption axes) (fun a b => close a b = true) generalizing P fuel with
  | h0 =>
    cases fuel with
    | zero => simp [keepDistinct, greedy]
    | succ fuel =>
      rw [keepDistinct, dif_neg (by simp)]
      simp [greedy]
  | h1 p L ha ih =>
    obtain ⟨fuel, rfl⟩ : ∃ n, fuel = n + 1 := ⟨fuel - 1, by simp at hf; omega⟩
    obtain ⟨o, ho⟩ := h p List.mem_cons_self
    have hL : ∀ q ∈ L, ∃ o, axes q.1 q.2 = .ok o := fun q hq => h q (List.mem_cons_of_mem _ hq)
    have hw : (P ++ p :: L).map Prod.fst = P.map Prod.fst ++ p.1 :: L.map Prod.fst := by simp
    have hb : (P ++ p :: L).map Prod.snd = P.map Prod.snd ++ p.2 :: L.map Prod.snd := by simp
    have hlw : P.length = (P.map Prod.fst).length := by simp
    have hlb : P.length = (P.map Prod.snd).length := by simp
    have hlt : P.length < ((P ++ p :: L).map Prod.fst).length := by simp
    have hgw : ((P ++ p :: L).map Prod.fst)[P.length] = p.1 := by simp
    have hgb : pyAt ((P ++ p :: L).map Prod.snd) P.length = .ok p.2 := by
      rw [hb, hlb]; exact pyAt_middle _ _ _
    have hon : o = none := by rw [← axesOption_ok ho, ha]
    rw [keepDistinct, dif_pos hlt, hgb, Py.ok_bind, hgw, ho, Py.ok_bind, hon]
    rw [greedy_none _ _ ha, hw, hb]
    dsimp only
    conv_lhs => rw [hlw, eraseIdx_middle]
    rw [← hlw]
    conv_lhs => rw [hlb, eraseIdx_middle]
    rw [← hlb, ← List.map_append, ← List.map_append]
    exact ih P hL fuel (by simpa using hf)
  | h2 p L a ha ih =>
    obtain ⟨fuel, rfl⟩ : ∃ n, fuel = n + 1 := ⟨fuel - 1, by simp at hf; omega⟩
    obtain ⟨o, ho⟩ := h p List.mem_cons_self
    have hL : ∀ q ∈ L, ∃ o, axes q.1 q.2 = .ok o := fun q hq => h q (List.mem_cons_of_mem _ hq)
    have hb : (P ++ p :: L).map Prod.snd = P.map Prod.snd ++ p.2 :: L.map Prod.snd := by simp
    have hlb : P.length = (P.map Prod.snd).length := by simp
    have hlt : P.length < ((P ++ p :: L).map Prod.fst).length := by simp
    have hgw : ((P ++ p :: L).map Prod.fst)[P.length] = p.1 := by simp
    have hgb : pyAt ((P ++ p :: L).map Prod.snd) P.length = .ok p.2 := by
      rw [hb, hlb]; exact pyAt_middle _ _ _
    have hon : o = some a := by rw [← axesOption_ok ho, ha]
    have hin := dropClose_eq (close := close) a (P ++ [p]) L hL
    simp only [List.length_append, List.length_singleton, List.append_assoc, List.singleton_append] at hin
    rw [keepDistinct, dif_pos hlt, hgb, Py.ok_bind, hgw, ho, Py.ok_bind, hon]
    dsimp only
    rw [hin, Py.ok_bind]
    have := ih (P ++ [p]) (fun q hq => hL q (List.mem_filter.mp hq).1) fuel (by
      have := List.length_filter_le (survives (axesOption axes) (fun a b => close a b = true) a) L
      simp only [List.length_cons] at hf
      omega)
    simp only [List.length_append, List.length_singleton, List.append_assoc, List.singleton_append] at this
    rw [greedy_some _ _ ha]
    dsimp only
    rw [this]
    simp only [List.length_cons]
    rw [Nat.add_assoc, Nat.add_comm 1]

/-- Selections agree if the axes and their comparison do. -/
theorem greedy_congr {β γ : Type} {ax : γ → Option α} {ax' : γ → Option β} {near : α → α → Prop} {near' : β → β → Prop}
    [∀ a b, Decidable (near a b)] [∀ a b, Decidable (near' a b)] (f : α → β) (hn : ∀ a b, near a b ↔ near' (f a) (f b)) (L : List γ)
    (h : ∀ p ∈ L, ax' p = (ax p).map f) : greedy ax near L = greedy ax' near' L := by
  induction L using greedy_induction ax near with
  | h0 => rw [greedy, greedy]
  | h1 p L ha ih =>
    rw [greedy_none _ _ ha, greedy_none _ _ (by rw [h p List.mem_cons_self, ha]; rfl), ih fun q hq => h q (List.mem_cons_of_mem _ hq)]
  | h2 p L a ha ih =>
    have e : L.filter (survives ax' near' (f a)) = L.filter (survives ax near a) := by
      refine List.filter_congr fun q hq => ?_
      unfold survives
      rw [h q (List.mem_cons_of_mem _ hq)]
      cases ax q with
      | none => rfl
      | some b => simp [hn]
    rw [greedy_some _ _ ha, greedy_some (a := f a) _ _ (by rw [h p List.mem_cons_self, ha]; rfl), e,
      ih fun q hq => h q (List.mem_cons_of_mem _ (List.mem_filter.mp hq).1)]

end

/-! ## The accuracy of the axes -/

theorem vecLength_eq (q : Quat) : Spec.vecLength q = ‖q.slice.toH‖ := by
  rw [← Real.sqrt_sq (norm_nonneg q.slice.toH), norm_sq_quat]
  simp [Spec.vecLength, Quat.slice]

theorem vecCosine_eq (p q : Quat) : Spec.vecCosine p q = inner ℝ (‖p.slice.toH‖⁻¹ • p.slice.toH) (‖q.slice.toH‖⁻¹ • q.slice.toH) := by
  rw [real_inner_smul_left, real_inner_smul_right, inner_toH, Spec.vecCosine, vecLength_eq, vecLength_eq]
  simp only [Quat.slice, mul_zero, add_zero]
  rw [div_eq_mul_inv, mul_inv]
  ring

variable {A : Arith} {u : ℝ} {T : Trig}

/-- The direction of a vector that is near a positive multiple of another one. -/
theorem direction_near (h : Spec.Machine u A) {q v : Quat} {k : ℝ} (hk : 0 < k) (hq : ‖q.toH - k • v.toH‖ ≤ 2.1 * u * ‖k • v.toH‖) (hv : v.toH ≠ 0) :
    ‖(A.quot q (A.norm q)).toH - ‖v.toH‖⁻¹ • v.toH‖ ≤ 13.3 * u := by
  have h0 := h.nonneg
  have hs := h.small
  have hV : 0 < ‖v.toH‖ := norm_pos_iff.mpr hv
  have hkv : ‖k • v.toH‖ = k * ‖v.toH‖ := by rw [norm_smul, Real.norm_of_nonneg hk.le]
  rw [hkv] at hq
  have hN : |‖q.toH‖ - k * ‖v.toH‖| ≤ 2.1 * u * (k * ‖v.toH‖) := by
    rw [← hkv]
    exact (abs_norm_sub_norm_le _ _).trans (by rwa [hkv])
  have hM : 0 < k * ‖v.toH‖ := by positivity
  have hq0 : 0 < ‖q.toH‖ := by
    have := (abs_le.mp hN).1
    nlinarith
  have h1 := (Arith.quot_norm_near h (norm_pos_iff.mp hq0) q).1
  have e : ‖‖q.toH‖⁻¹ • q.toH‖ = 1 := by rw [norm_smul, norm_inv, norm_norm, inv_mul_cancel₀ hq0.ne']
  rw [e, mul_one] at h1
  have h2 : ‖‖q.toH‖⁻¹ • q.toH - ‖v.toH‖⁻¹ • v.toH‖ ≤ 4.2 * u := by
    have e1 : ‖q.toH‖⁻¹ • q.toH - ‖v.toH‖⁻¹ • v.toH =
        (k * ‖v.toH‖)⁻¹ • (q.toH - k • v.toH) + ((k * ‖v.toH‖ - ‖q.toH‖) * (k * ‖v.toH‖)⁻¹) • (‖q.toH‖⁻¹ • q.toH) := by
      have c1 : (k * ‖v.toH‖)⁻¹ * k = ‖v.toH‖⁻¹ := by field_simp
      have c2 : (k * ‖v.toH‖ - ‖q.toH‖) * (k * ‖v.toH‖)⁻¹ * ‖q.toH‖⁻¹ = ‖q.toH‖⁻¹ - (k * ‖v.toH‖)⁻¹ := by field_simp
      rw [smul_sub, smul_smul, smul_smul, c1, c2, sub_smul]
      abel
    rw [e1]
    refine (norm_add_le _ _).trans ?_
    rw [norm_smul, norm_smul _ (‖q.toH‖⁻¹ • q.toH), e, mul_one, norm_mul (_ - _), Real.norm_of_nonneg (inv_nonneg.mpr hM.le), Real.norm_eq_abs, abs_sub_comm]
    have t1 : (k * ‖v.toH‖)⁻¹ * ‖q.toH - k • v.toH‖ ≤ 2.1 * u := by
      rw [inv_mul_le_iff₀ hM]; linarith
    have t2 : |‖q.toH‖ - k * ‖v.toH‖| * (k * ‖v.toH‖)⁻¹ ≤ 2.1 * u := by
      rw [mul_inv_le_iff₀ hM]; linarith
    linarith
  have := norm_sub_le_norm_sub_add_norm_sub (A.quot q (A.norm q)).toH (‖q.toH‖⁻¹ • q.toH) (‖v.toH‖⁻¹ • v.toH)
  linarith

/-- The product of two such directions. -/
theorem product_near (h : Spec.Machine u A) {p q : Quat} {e f : Quaternion ℝ} (he : ‖e‖ = 1) (hf : ‖f‖ = 1) (hp : ‖p.toH - e‖ ≤ 13.3 * u)
    (hq : ‖q.toH - f‖ ≤ 13.3 * u) : |A.dot p q - inner ℝ e f| ≤ 33 * u := by
  have h0 := h.nonneg
  have hs := h.small
  have hp1 : ‖p.toH‖ ≤ 1 + 13.3 * u := by
    have := norm_sub_norm_le p.toH e
    linarith
  have hq1 : ‖q.toH‖ ≤ 1 + 13.3 * u := by
    have := norm_sub_norm_le q.toH f
    linarith
  have h1 := Arith.dot_near h p q
  have h2 : inner ℝ p.toH q.toH - inner ℝ e f = inner ℝ (p.toH - e) q.toH + inner ℝ e (q.toH - f) := by
    rw [inner_sub_left, inner_sub_right]; ring
  have h3 := (abs_real_inner_le_norm (p.toH - e) q.toH).trans (mul_le_mul hp hq1 (norm_nonneg _) (by positivity))
  have h4 := (abs_real_inner_le_norm e (q.toH - f)).trans (mul_le_mul he.le hq (norm_nonneg _) zero_le_one)
  have h5 : 5 * u * (‖p.toH‖ * ‖q.toH‖) ≤ 5 * u * ((1 + 13.3 * u) * (1 + 13.3 * u)) := by gcongr
  have h6 : |inner ℝ p.toH q.toH - inner ℝ e f| ≤ 13.3 * u * (1 + 13.3 * u) + 13.3 * u := by
    rw [h2]
    refine (abs_add_le _ _).trans ?_
    linarith
  have h7 := abs_sub_le (A.dot p q) (inner ℝ p.toH q.toH) (inner ℝ e f)
  have h8 : 5 * u * ((1 + 13.3 * u) * (1 + 13.3 * u)) ≤ 5.2 * u := by
    have : (1 + 13.3 * u) * (1 + 13.3 * u) ≤ 1.04 := by nlinarith
    nlinarith
  have h9 : 13.3 * u * (1 + 13.3 * u) ≤ 13.6 * u := by nlinarith
  linarith

/-- What `screw_axis` returns: up to rounding, a positive multiple of the vector part, or a vector that is (numerically) zero. -/
theorem screwAxis_near (h : Spec.Machine u A) (hT : Spec.SinePositive A T) (a : DQuat) : ∃ q, A.screwAxis T a = .ok q ∧
    (A.norm q ≤ 1e-12 → Spec.Still A T a) ∧
    (1e-12 < A.norm q → (Spec.along A T a).slice.toH ≠ 0 ∧
      ‖(A.quot q (A.norm q)).toH - ‖(Spec.along A T a).slice.toH‖⁻¹ • (Spec.along A T a).slice.toH‖ ≤ 13.3 * u) := by
  have h0 := h.nonneg
  have hs := h.small
  have slide : ¬ Spec.Rotates A T a → (A.norm (A.slideAxis a.dual) ≤ 1e-12 → Spec.Still A T a) ∧
      (1e-12 < A.norm (A.slideAxis a.dual) → (Spec.along A T a).slice.toH ≠ 0 ∧
        ‖(A.quot (A.slideAxis a.dual) (A.norm (A.slideAxis a.dual))).toH - ‖(Spec.along A T a).slice.toH‖⁻¹ • (Spec.along A T a).slice.toH‖ ≤ 13.3 * u) := by
    intro hr
    have hal : Spec.along A T a = a.dual := by unfold Spec.along; rw [if_neg hr]
    rw [hal]
    unfold Arith.slideAxis
    set t := A.fl (2 * A.norm a.dual.slice) with ht
    have hn := Arith.norm_near h a.dual.slice
    have hfl := h.rounds (2 * A.norm a.dual.slice)
    rw [← ht] at hfl
    set N := ‖a.dual.slice.toH‖ with hN
    have hN0 : 0 ≤ N := norm_nonneg _
    obtain ⟨n1, n2⟩ := abs_le.mp hn
    have hnn : 0 ≤ A.norm a.dual.slice := by nlinarith
    rw [abs_of_nonneg (show 0 ≤ 2 * A.norm a.dual.slice by linarith)] at hfl
    obtain ⟨f1, f2⟩ := abs_le.mp hfl
    have t1 : t ≤ 2 * N * 1.01 := by nlinarith
    have t2 : 2 * N * 0.99 ≤ t := by nlinarith
    by_cases hc : t > 1e-12
    · rw [if_pos hc]
      have ht0 : 0 < t := lt_trans (by norm_num) hc
      have hNp : 0 < N := by nlinarith
      have hs1 := Arith.smul_near h 2 a.dual.slice
      obtain ⟨q1, -⟩ := Arith.quot_near h (A.smul 2 a.dual.slice) (n := t) ht0 (c := 0) le_rfl (by norm_num) (by simp)
      have q2 : ‖(A.quot (A.smul 2 a.dual.slice) t).toH - (2 / t) • a.dual.slice.toH‖ ≤ 2.1 * u * ‖(2 / t) • a.dual.slice.toH‖ := by
        have e1 : (2 / t) • a.dual.slice.toH = t⁻¹ • (2 : ℝ) • a.dual.slice.toH := by rw [smul_smul]; congr 1; ring
        have s1 : ‖t⁻¹ • (A.smul 2 a.dual.slice).toH - t⁻¹ • (2 : ℝ) • a.dual.slice.toH‖ ≤ u * ‖t⁻¹ • (2 : ℝ) • a.dual.slice.toH‖ := by
          rw [← smul_sub, norm_smul, norm_smul t⁻¹ ((2 : ℝ) • a.dual.slice.toH)]
          have := mul_le_mul_of_nonneg_left hs1 (norm_nonneg t⁻¹)
          linarith
        rw [e1]
        set X := t⁻¹ • (2 : ℝ) • a.dual.slice.toH
        have s2 := norm_sub_norm_le (t⁻¹ • (A.smul 2 a.dual.slice).toH) X
        have s3 := norm_sub_le_norm_sub_add_norm_sub (A.quot (A.smul 2 a.dual.slice) t).toH (t⁻¹ • (A.smul 2 a.dual.slice).toH) X
        have s4 : (u + 0) / (1 - 0) * ‖t⁻¹ • (A.smul 2 a.dual.slice).toH‖ ≤ u * ((1 + u) * ‖X‖) := by
          rw [add_zero, sub_zero, div_one]
          exact mul_le_mul_of_nonneg_left (by linarith) h0
        have s5 : u * ((1 + u) * ‖X‖) ≤ 1.1 * u * ‖X‖ := by
          have : u * ‖X‖ * (1 + u) ≤ u * ‖X‖ * 1.1 := mul_le_mul_of_nonneg_left (by linarith) (by positivity)
          linarith
        linarith
      have hne : a.dual.slice.toH ≠ 0 := norm_pos_iff.mp hNp
      refine ⟨fun hle => ?_, fun _ => ⟨hne, direction_near h (by positivity) q2 hne⟩⟩
      exfalso
      have e2 : ‖(2 / t) • a.dual.slice.toH‖ = 2 * N / t := by
        rw [norm_smul, Real.norm_of_nonneg (by positivity)]; ring
      have b1 : 0.98 ≤ 2 * N / t := by rw [le_div_iff₀ ht0]; nlinarith
      have b2 := norm_sub_norm_le ((2 / t) • a.dual.slice.toH) (A.quot (A.smul 2 a.dual.slice) t).toH
      rw [norm_sub_rev, e2] at b2
      rw [e2] at q2
      have b3 : 0.9 ≤ ‖(A.quot (A.smul 2 a.dual.slice) t).toH‖ := by nlinarith
      have b4 := (abs_le.mp (Arith.norm_near h (A.quot (A.smul 2 a.dual.slice) t))).1
      norm_num at hle
      nlinarith
    · rw [if_neg hc]
      refine ⟨fun _ => .inr ⟨hr, ?_⟩, fun hlt => ?_⟩
      · rw [vecLength_eq, ← hN]
        norm_num at hc ⊢
        linarith
      · exfalso
        have := (abs_le.mp (Arith.norm_near h ⟨0, 0, 0, 0⟩)).2
        have hz : ‖(⟨0, 0, 0, 0⟩ : Quat).toH‖ = 0 := by
          rw [← sq_eq_zero_iff, norm_sq_quat]; norm_num
        rw [hz] at this
        norm_num at hlt
        linarith
  unfold Arith.screwAxis
  cases hro : A.rotation T a.rot.w with
  | none => exact ⟨_, rfl, slide (by rintro ⟨r, hr, -⟩; rw [hro] at hr; cases hr)⟩
  | some r =>
    by_cases hr : r > 1e-12
    · have hsp := hT _ _ hro hr
      have hrot : Spec.Rotates A T a := ⟨r, hro, hr⟩
      have hal : Spec.along A T a = a.rot := by unfold Spec.along; rw [if_pos hrot]
      refine ⟨A.quot a.rot.slice (A.sineOfHalf T r), ?_, ?_, ?_⟩
      · unfold Arith.axisFor Arith.divScalar
        dsimp only
        rw [if_pos hr, if_neg hsp.ne']
      all_goals
        obtain ⟨q1, -⟩ := Arith.quot_near h a.rot.slice (n := A.sineOfHalf T r) hsp (c := 0) le_rfl (by norm_num) (by simp)
        rw [add_zero, sub_zero, div_one] at q1
        have e1 : ‖(A.sineOfHalf T r)⁻¹ • a.rot.slice.toH‖ = ‖a.rot.slice.toH‖ / A.sineOfHalf T r := by
          rw [norm_smul, norm_inv, Real.norm_of_nonneg hsp.le, div_eq_inv_mul]
        have hn := Arith.norm_near h (A.quot a.rot.slice (A.sineOfHalf T r))
      · intro hle
        refine .inl ⟨r, hro, hr, ?_⟩
        rw [vecLength_eq, ← div_le_iff₀ hsp, ← e1]
        have b1 := norm_sub_norm_le ((A.sineOfHalf T r)⁻¹ • a.rot.slice.toH) (A.quot a.rot.slice (A.sineOfHalf T r)).toH
        rw [norm_sub_rev] at b1
        have b2 := (abs_le.mp hn).1
        have b3 : ‖(A.sineOfHalf T r)⁻¹ • a.rot.slice.toH‖ * 0.99 ≤ ‖(A.quot a.rot.slice (A.sineOfHalf T r)).toH‖ := by
          nlinarith [norm_nonneg ((A.sineOfHalf T r)⁻¹ • a.rot.slice.toH)]
        have b4 : ‖(A.quot a.rot.slice (A.sineOfHalf T r)).toH‖ * 0.99 ≤ A.norm (A.quot a.rot.slice (A.sineOfHalf T r)) := by
          nlinarith [norm_nonneg (A.quot a.rot.slice (A.sineOfHalf T r)).toH]
        norm_num at hle ⊢
        linarith
      · intro hlt
        rw [hal]
        have hne : a.rot.slice.toH ≠ 0 := by
          intro hz
          rw [hz, smul_zero, norm_zero, mul_zero, sub_zero] at q1
          have hz2 := le_antisymm q1 (norm_nonneg _)
          rw [hz2, mul_zero, sub_zero] at hn
          have := (abs_le.mp hn).2
          norm_num at hlt
          linarith
        refine ⟨hne, direction_near h (inv_pos.mpr hsp) (q1.trans (mul_le_mul_of_nonneg_right (by linarith) (norm_nonneg _))) hne⟩
    · refine ⟨A.slideAxis a.dual, ?_, slide ?_⟩
      · unfold Arith.axisFor
        dsimp only
        rw [if_neg hr]
      · rintro ⟨r', hr', h'⟩
        rw [hro] at hr'
        cases hr'
        exact hr h'

end HandEye
