import Verif.Model.TimeAlign
import Verif.Lemmas.Py
import Verif.Lemmas.Align

/-! # Lemmas on the vocabulary of the time alignment -/

namespace HandEye

theorem pyRequire_pos {p : Prop} [Decidable p] {e : PyErr} (h : p) : pyRequire p e = .ok () := if_pos h

theorem getD_eq {l : List ℝ} {i : ℕ} (h : i < l.length) : l.getD i 0 = l[i] := by
  rw [List.getD_eq_getElem?_getD, List.getElem?_eq_getElem h]; rfl

/-- What `bisect_left` finds in a sorted list. -/
theorem bisectGo_spec {a : List ℝ} {x : ℝ} (hs : a.Pairwise (· ≤ ·)) (lo hi : ℕ) (hh : hi ≤ a.length)
    (hlo : lo ≤ hi) (h1 : ∀ (i : ℕ) (h : i < a.length), i < lo → a[i] < x)
    (h2 : ∀ (i : ℕ) (h : i < a.length), hi ≤ i → x ≤ a[i]) :
    bisectGo a x lo hi ≤ a.length ∧
      (∀ (i : ℕ) (h : i < a.length), i < bisectGo a x lo hi → a[i] < x) ∧
      ∀ (i : ℕ) (h : i < a.length), bisectGo a x lo hi ≤ i → x ≤ a[i] := by
  have hmono : ∀ (i j : ℕ) (hi : i < a.length) (hj : j < a.length), i ≤ j → a[i] ≤ a[j] := by
    intro i j hi hj hij
    rcases hij.eq_or_lt with rfl | hlt
    · exact le_rfl
    · exact List.pairwise_iff_getElem.mp hs i j hi hj hlt
  induction h : hi - lo using Nat.strong_induction_on generalizing lo hi with
  | _ n ih =>
    rw [bisectGo]
    by_cases hlt : lo < hi
    · have hm : (lo + hi) / 2 < a.length := by omega
      rw [dif_pos hlt, getD_eq hm]
      by_cases hx : a[(lo + hi) / 2] < x
      · rw [if_pos hx]
        refine ih (hi - ((lo + hi) / 2 + 1)) (by omega) _ _ hh (by omega) ?_ h2 rfl
        intro i hi' hil
        exact lt_of_le_of_lt (hmono i _ hi' hm (by omega)) hx
      · rw [if_neg hx]
        refine ih ((lo + hi) / 2 - lo) (by omega) _ _ (by omega) (by omega) h1 ?_ rfl
        intro i hi' hil
        exact (not_lt.mp hx).trans (hmono _ i hm hi' hil)
    · rw [dif_neg hlt]
      have : lo = hi := by omega
      subst this
      exact ⟨hh, h1, h2⟩

theorem bisectLeft_spec {a : List ℝ} (hs : a.Pairwise (· ≤ ·)) (x : ℝ) :
    bisectLeft a x ≤ a.length ∧ (∀ (i : ℕ) (h : i < a.length), i < bisectLeft a x → a[i] < x) ∧
      ∀ (i : ℕ) (h : i < a.length), bisectLeft a x ≤ i → x ≤ a[i] :=
  bisectGo_spec hs 0 a.length le_rfl (Nat.zero_le _) (fun i _ h => by omega) (fun i h1 h2 => by omega)

theorem bisectLeft_eq {a : List ℝ} (hs : a.Pairwise (· ≤ ·)) {x : ℝ} {k : ℕ} (hk : k ≤ a.length)
    (h1 : ∀ (i : ℕ) (h : i < a.length), i < k → a[i] < x)
    (h2 : ∀ (i : ℕ) (h : i < a.length), k ≤ i → x ≤ a[i]) : bisectLeft a x = k := by
  obtain ⟨e0, e1, e2⟩ := bisectLeft_spec hs x
  rcases lt_trichotomy (bisectLeft a x) k with h | h | h
  · have hlt : bisectLeft a x < a.length := by omega
    exact absurd (h1 _ hlt h) (not_lt.mpr (e2 _ hlt le_rfl))
  · exact h
  · have hlt : k < a.length := by omega
    exact absurd (e1 _ hlt h) (not_lt.mpr (h2 _ hlt le_rfl))

end HandEye
