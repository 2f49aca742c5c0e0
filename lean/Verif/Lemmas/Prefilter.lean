import Verif.Model.HandEye
import Verif.Spec.Prefilter
import Verif.Lemmas.Py
import Verif.Lemmas.Align
import Mathlib.Data.List.Basic
import Mathlib.Tactic.Linarith

/-! # Lemmas about the prefilter: the loops are a greedy selection -/

namespace HandEye

section Greedy

variable {α β : Type} {A : Type}

/-- The element survives next to a kept element with axes `a`. -/
def survives (axes : α → Option A) (near : A → A → Prop) [∀ a b, Decidable (near a b)] (a : A)
    (q : α) : Bool :=
  match axes q with
  | none => false
  | some b => !decide (near a b)

/-- Greedy selection: keep an element with axes, and drop the later ones that are degenerate or close to
it. -/
def greedy (axes : α → Option A) (near : A → A → Prop) [∀ a b, Decidable (near a b)] :
    List α → List α
  | [] => []
  | p :: l => match axes p with
    | none => greedy axes near l
    | some a => p :: greedy axes near (l.filter (survives axes near a))
termination_by l => l.length
decreasing_by
  · simp
  · simp only [List.length_unattach]
    exact Nat.lt_succ_of_le ((List.length_filter_le _ _).trans (by simp))

variable (axes : α → Option A) (near : A → A → Prop) [∀ a b, Decidable (near a b)]

theorem greedy_none {p : α} {l : List α} (h : axes p = none) :
    greedy axes near (p :: l) = greedy axes near l := by rw [greedy]; simp [h]

theorem greedy_some {p : α} {l : List α} {a : A} (h : axes p = some a) :
    greedy axes near (p :: l) = p :: greedy axes near (l.filter (survives axes near a)) := by
  rw [greedy]; simp [h]

theorem greedy_induction {P : List α → Prop} (h0 : P [])
    (h1 : ∀ p l, axes p = none → P l → P (p :: l))
    (h2 : ∀ p l a, axes p = some a → P (l.filter (survives axes near a)) → P (p :: l)) (l : List α) :
    P l := by
  induction hn : l.length using Nat.strong_induction_on generalizing l with
  | _ n ih =>
  cases l with
  | nil => exact h0
  | cons p l =>
    simp only [List.length_cons] at hn
    cases ha : axes p with
    | none => exact h1 p l ha (ih _ (by omega) l rfl)
    | some a =>
      refine h2 p l a ha (ih _ ?_ _ rfl)
      have := List.length_filter_le (survives axes near a) l
      omega

theorem greedy_sublist (l : List α) : (greedy axes near l).Sublist l := by
  induction l using greedy_induction axes near with
  | h0 => rw [greedy]
  | h1 p l h ih => rw [greedy_none _ _ h]; exact ih.cons p
  | h2 p l a h ih => rw [greedy_some _ _ h]; exact (ih.trans List.filter_sublist).cons_cons p

theorem greedy_usable (l : List α) : ∀ p ∈ greedy axes near l, (axes p).isSome := by
  induction l using greedy_induction axes near with
  | h0 => simp [greedy]
  | h1 p l h ih => rw [greedy_none _ _ h]; exact ih
  | h2 p l a h ih =>
    rw [greedy_some _ _ h]
    intro q hq
    rcases List.mem_cons.mp hq with rfl | hq
    · simp [h]
    · exact ih q hq

theorem greedy_pairwise (l : List α) : (greedy axes near l).Pairwise fun p q =>
    ∀ a b, axes p = some a → axes q = some b → ¬ near a b := by
  induction l using greedy_induction axes near with
  | h0 => simp [greedy]
  | h1 p l h ih => rw [greedy_none _ _ h]; exact ih
  | h2 p l a h ih =>
    rw [greedy_some _ _ h, List.pairwise_cons]
    refine ⟨?_, ih⟩
    intro q hq a' b ha' hb
    rw [h] at ha'
    cases ha'
    have hq' := (List.mem_filter.mp ((greedy_sublist axes near _).subset hq)).2
    rw [survives, hb] at hq'
    simpa using hq'

/-- What is not selected is degenerate or close to something selected before it. -/
theorem greedy_dropped (l : List α) (hn : l.Nodup) : ∀ q ∈ l, q ∉ greedy axes near l → axes q = none ∨
    ∃ p ∈ greedy axes near l, [p, q].Sublist l ∧ ∃ a b, axes p = some a ∧ axes q = some b ∧ near a b := by
  induction l using greedy_induction axes near with
  | h0 => simp
  | h1 p l h ih =>
    rw [greedy_none _ _ h]
    intro q hq hnq
    rcases List.mem_cons.mp hq with rfl | hq
    · exact Or.inl h
    · rcases ih (List.nodup_cons.mp hn).2 q hq hnq with h' | ⟨p', hp', hs, h'⟩
      · exact Or.inl h'
      · exact Or.inr ⟨p', hp', hs.cons _, h'⟩
  | h2 p l a h ih =>
    rw [greedy_some _ _ h]
    intro q hq hnq
    simp only [List.mem_cons, not_or] at hnq
    rcases List.mem_cons.mp hq with rfl | hq
    · exact absurd rfl hnq.1
    · by_cases hs : survives axes near a q = true
      · rcases ih ((List.nodup_cons.mp hn).2.filter _) q (List.mem_filter.mpr ⟨hq, hs⟩) hnq.2 with
          h' | ⟨p', hp', hsub, h'⟩
        · exact Or.inl h'
        · exact Or.inr ⟨p', List.mem_cons_of_mem _ hp', (hsub.trans List.filter_sublist).cons _, h'⟩
      · cases hb : axes q with
        | none => exact Or.inl rfl
        | some b =>
          right
          rw [survives, hb] at hs
          refine ⟨p, List.mem_cons_self, ?_, a, b, h, rfl, by simpa using hs⟩
          exact (List.singleton_sublist.mpr hq).cons_cons p

theorem greedy_of_pairwise (l : List α) (h1 : ∀ p ∈ l, (axes p).isSome)
    (h2 : l.Pairwise fun p q => ∀ a b, axes p = some a → axes q = some b → ¬ near a b) :
    greedy axes near l = l := by
  induction l with
  | nil => rw [greedy]
  | cons p l ih =>
    obtain ⟨a, ha⟩ := Option.isSome_iff_exists.mp (h1 p List.mem_cons_self)
    rw [List.pairwise_cons] at h2
    have hf : l.filter (survives axes near a) = l := by
      rw [List.filter_eq_self]
      intro q hq
      obtain ⟨b, hb⟩ := Option.isSome_iff_exists.mp (h1 q (List.mem_cons_of_mem _ hq))
      rw [survives, hb]
      simpa using h2.1 q hq a b ha hb
    rw [greedy_some _ _ ha, hf, ih (fun q hq => h1 q (List.mem_cons_of_mem _ hq)) h2.2]

theorem greedy_map (f : β → α) (l : List β) :
    greedy axes near (l.map f) = (greedy (axes ∘ f) near l).map f := by
  induction l using greedy_induction (axes ∘ f) near with
  | h0 => rw [List.map_nil, greedy, greedy, List.map_nil]
  | h1 p l h ih =>
    rw [List.map_cons, greedy_none _ _ (show axes (f p) = none from h), greedy_none _ _ h, ih]
  | h2 p l a h ih =>
    rw [List.map_cons, greedy_some _ _ (show axes (f p) = some a from h), greedy_some _ _ h,
      List.map_cons, ← ih, List.filter_map]
    rfl

end Greedy

/-- The axes of a pair, as an option. -/
noncomputable def axesOf (p : DQuat × DQuat) : Option (Vec3 × Vec3) :=
  match pairAxes p.1 p.2 with
  | .ok o => o
  | .error _ => none

/-- The closeness test of the loop. -/
def nearBy (thr : ℝ) (a b : Vec3 × Vec3) : Prop := a.1.dot b.1 > thr ∨ a.2.dot b.2 > thr

open Classical in
noncomputable instance (thr : ℝ) (a b : Vec3 × Vec3) : Decidable (nearBy thr a b) :=
  inferInstanceAs (Decidable (_ ∨ _))

theorem eraseIdx_middle {α : Type} (P : List α) (p : α) (L : List α) :
    (P ++ p :: L).eraseIdx P.length = P ++ L := by
  rw [List.eraseIdx_append_of_length_le le_rfl]; simp

theorem pyAt_middle {α : Type} (P : List α) (p : α) (L : List α) : pyAt (P ++ p :: L) P.length = .ok p := by
  unfold pyAt; simp

theorem prefilterInner_eq (thr : ℝ) (aw ab : Vec3) (P L : List (DQuat × DQuat))
    (h : ∀ p ∈ L, ∃ o, pairAxes p.1 p.2 = .ok o) :
    prefilterInner thr aw ab P.length ((P ++ L).map Prod.fst) ((P ++ L).map Prod.snd) =
      .ok ((P ++ L.filter (survives axesOf (nearBy thr) (aw, ab))).map Prod.fst,
        (P ++ L.filter (survives axesOf (nearBy thr) (aw, ab))).map Prod.snd) := by
  induction L generalizing P with
  | nil =>
    rw [prefilterInner, dif_neg (by simp)]
    simp [pure, Except.pure]
  | cons p L ih =>
    obtain ⟨o, ho⟩ := h p List.mem_cons_self
    have hL : ∀ q ∈ L, ∃ o, pairAxes q.1 q.2 = .ok o := fun q hq => h q (List.mem_cons_of_mem _ hq)
    have hw : (P ++ p :: L).map Prod.fst = P.map Prod.fst ++ p.1 :: L.map Prod.fst := by simp
    have hb : (P ++ p :: L).map Prod.snd = P.map Prod.snd ++ p.2 :: L.map Prod.snd := by simp
    have hlw : P.length = (P.map Prod.fst).length := by simp
    have hlb : P.length = (P.map Prod.snd).length := by simp
    have hdrop : prefilterInner thr aw ab P.length
        (((P ++ p :: L).map Prod.fst).eraseIdx P.length) (((P ++ p :: L).map Prod.snd).eraseIdx P.length)
        = .ok ((P ++ L.filter (survives axesOf (nearBy thr) (aw, ab))).map Prod.fst,
          (P ++ L.filter (survives axesOf (nearBy thr) (aw, ab))).map Prod.snd) := by
      rw [hw, hb]
      conv_lhs => rw [hlw, eraseIdx_middle]
      rw [← hlw]
      conv_lhs => rw [hlb, eraseIdx_middle]
      rw [← hlb, ← List.map_append, ← List.map_append]
      exact ih P hL
    have hlt : P.length < ((P ++ p :: L).map Prod.fst).length := by simp
    have hgw : ((P ++ p :: L).map Prod.fst)[P.length] = p.1 := by simp
    have hgb : pyAt ((P ++ p :: L).map Prod.snd) P.length = .ok p.2 := by
      rw [hb, hlb]; exact pyAt_middle _ _ _
    rw [prefilterInner, dif_pos hlt, hgb, Py.ok_bind, hgw, ho, Py.ok_bind]
    cases o with
    | none =>
      have hs : survives axesOf (nearBy thr) (aw, ab) p = false := by
        simp [survives, axesOf, ho]
      rw [List.filter_cons, hs]
      exact hdrop
    | some a =>
      obtain ⟨aw', ab'⟩ := a
      have hs : survives axesOf (nearBy thr) (aw, ab) p = !decide (nearBy thr (aw, ab) (aw', ab')) := by
        simp [survives, axesOf, ho]
      rw [List.filter_cons, hs]
      by_cases h1 : aw.dot aw' > thr
      · have hn : nearBy thr (aw, ab) (aw', ab') := Or.inl h1
        simp only [if_pos h1, hn, decide_true, Bool.not_true, Bool.false_eq_true, if_false]
        exact hdrop
      · by_cases h2 : ab.dot ab' > thr
        · have hn : nearBy thr (aw, ab) (aw', ab') := Or.inr h2
          simp only [if_neg h1, if_pos h2, hn, decide_true, Bool.not_true, Bool.false_eq_true, if_false]
          exact hdrop
        · have hn : ¬ nearBy thr (aw, ab) (aw', ab') := by rintro (h | h); exacts [h1 h, h2 h]
          simp only [if_neg h1, if_neg h2, hn, decide_false, Bool.not_false, if_true]
          have := ih (P ++ [p]) hL
          simpa using this

theorem prefilterOuter_eq (thr : ℝ) (P L : List (DQuat × DQuat))
    (h : ∀ p ∈ L, ∃ o, pairAxes p.1 p.2 = .ok o) :
    prefilterOuter thr P.length ((P ++ L).map Prod.fst) ((P ++ L).map Prod.snd) =
      .ok (P.length + (greedy axesOf (nearBy thr) L).length,
        (P ++ greedy axesOf (nearBy thr) L).map Prod.fst,
        (P ++ greedy axesOf (nearBy thr) L).map Prod.snd) := by
  induction L using greedy_induction axesOf (nearBy thr) generalizing P with
  | h0 =>
    rw [prefilterOuter, dif_neg (by simp)]
    simp [greedy, pure, Except.pure]
  | h1 p L ha ih =>
    obtain ⟨o, ho⟩ := h p List.mem_cons_self
    have hL : ∀ q ∈ L, ∃ o, pairAxes q.1 q.2 = .ok o := fun q hq => h q (List.mem_cons_of_mem _ hq)
    have hw : (P ++ p :: L).map Prod.fst = P.map Prod.fst ++ p.1 :: L.map Prod.fst := by simp
    have hb : (P ++ p :: L).map Prod.snd = P.map Prod.snd ++ p.2 :: L.map Prod.snd := by simp
    have hlw : P.length = (P.map Prod.fst).length := by simp
    have hlb : P.length = (P.map Prod.snd).length := by simp
    have hlt : P.length < ((P ++ p :: L).map Prod.fst).length := by simp
    have hgw : ((P ++ p :: L).map Prod.fst)[P.length] = p.1 := by simp
    have hgb : pyAt ((P ++ p :: L).map Prod.snd) P.length = .ok p.2 := by
      rw [hb, hlb]; exact pyAt_middle _ _ _
    have hon : o = none := by simpa [axesOf, ho] using ha
    rw [prefilterOuter, dif_pos hlt, hgb, Py.ok_bind, hgw, ho, Py.ok_bind, hon]
    rw [greedy_none _ _ ha, hw, hb]
    dsimp only
    conv_lhs => rw [hlw, eraseIdx_middle]
    rw [← hlw]
    conv_lhs => rw [hlb, eraseIdx_middle]
    rw [← hlb, ← List.map_append, ← List.map_append]
    exact ih P hL
  | h2 p L a ha ih =>
    obtain ⟨o, ho⟩ := h p List.mem_cons_self
    have hL : ∀ q ∈ L, ∃ o, pairAxes q.1 q.2 = .ok o := fun q hq => h q (List.mem_cons_of_mem _ hq)
    have hb : (P ++ p :: L).map Prod.snd = P.map Prod.snd ++ p.2 :: L.map Prod.snd := by simp
    have hlb : P.length = (P.map Prod.snd).length := by simp
    have hlt : P.length < ((P ++ p :: L).map Prod.fst).length := by simp
    have hgw : ((P ++ p :: L).map Prod.fst)[P.length] = p.1 := by simp
    have hgb : pyAt ((P ++ p :: L).map Prod.snd) P.length = .ok p.2 := by
      rw [hb, hlb]; exact pyAt_middle _ _ _
    have hon : o = some a := by simpa [axesOf, ho] using ha
    have hin := prefilterInner_eq thr a.1 a.2 (P ++ [p]) L hL
    simp only [List.length_append, List.length_singleton, List.append_assoc, List.singleton_append] at hin
    rw [prefilterOuter, dif_pos hlt, hgb, Py.ok_bind, hgw, ho, Py.ok_bind, hon]
    dsimp only
    split
    · next e he => rw [hin] at he; cases he
    · next r hr =>
      rw [hin] at hr
      cases hr
      have := ih (P ++ [p]) (fun q hq => hL q (List.mem_filter.mp hq).1)
      simp only [List.length_append, List.length_singleton, List.append_assoc,
        List.singleton_append] at this
      rw [greedy_some _ _ ha]
      dsimp only
      rw [this]
      simp only [List.length_cons]
      rw [show P.length + 1 + (greedy axesOf (nearBy thr)
        (List.filter (survives axesOf (nearBy thr) a) L)).length = P.length + ((greedy axesOf (nearBy thr)
        (List.filter (survives axesOf (nearBy thr) a) L)).length + 1) by omega]

/-- The filter is the greedy selection, and fails if it selects fewer than two pairs. -/
theorem prefilter_eq (thr : ℝ) (L : List (DQuat × DQuat))
    (h : ∀ p ∈ L, ∃ o, pairAxes p.1 p.2 = .ok o) :
    prefilterUsingScrewAxis (L.map Prod.fst) (L.map Prod.snd) thr =
      if 2 ≤ (greedy axesOf (nearBy thr) L).length then
        .ok ((greedy axesOf (nearBy thr) L).map Prod.fst, (greedy axesOf (nearBy thr) L).map Prod.snd)
      else .error .assertion := by
  have := prefilterOuter_eq thr [] L h
  simp only [List.length_nil, List.nil_append, Nat.zero_add] at this
  unfold prefilterUsingScrewAxis
  rw [this, Py.ok_bind]
  dsimp only
  by_cases hg : 2 ≤ (greedy axesOf (nearBy thr) L).length
  · rw [if_pos hg, pyAssert_pos hg]; rfl
  · rw [if_neg hg, pyAssert_neg hg]; rfl

end HandEye
