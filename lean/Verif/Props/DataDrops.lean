import Verif.Lemmas.TimeAlign
import Verif.Model.TestTools
import Verif.Spec.Drops
import Mathlib.Tactic.Linarith
import Mathlib.Tactic.Positivity
import Mathlib.Tactic.NormNum

/-! # C54: dropping data -/

namespace HandEye

theorem pyRandint_ok {u : ℕ} {hi : ℝ} {r : ℕ} (h : pyRandint u hi = .ok r) : (r : ℝ) ≤ hi ∧ hi = ⌊hi⌋₊ := by
  unfold pyRandint at h
  by_cases hc : 0 ≤ hi ∧ hi = ⌊hi⌋₊
  · rw [pyRequire_pos hc, Py.ok_bind] at h
    have hr : u % (⌊hi⌋₊ + 1) = r := Except.ok.inj h
    refine ⟨?_, hc.2⟩
    have : r ≤ ⌊hi⌋₊ := by
      have := Nat.mod_lt u (Nat.succ_pos ⌊hi⌋₊)
      rw [Nat.succ_eq_add_one] at this
      omega
    rw [hc.2]
    exact_mod_cast this
  · have : pyRequire (0 ≤ hi ∧ hi = ⌊hi⌋₊) .value = .error .value := if_neg hc
    rw [this] at h
    cases h

theorem pyRandint_natCast (u k : ℕ) : pyRandint u (k : ℝ) = .ok (u % (k + 1)) := by
  unfold pyRandint
  rw [Nat.floor_natCast, pyRequire_pos ⟨Nat.cast_nonneg k, rfl⟩]
  rfl

/-- One round of the loop, for whole numbers. -/
theorem dropLoop_step {n m k : ℕ} {draws : ℕ → ℕ × ℕ} {r t : ℕ} {S : Finset ℕ} (hn : 1 ≤ n) (hk : S.card < k) :
    dropLoop n m k draws (r + 1) t S = dropLoop n m k draws r (t + 1) (S ∪ Finset.Ico ((draws t).1 % n)
      (min ((draws t).1 % n + (draws t).2 % (min (k - S.card) m + 1)) (n - 1))) := by
  have hlt : (S.card : ℝ) < k := by exact_mod_cast hk
  have e1 : (n : ℝ) - 1 = ((n - 1 : ℕ) : ℝ) := by push_cast [hn]; ring
  have e2 : min ((k : ℝ) - S.card) m = ((min (k - S.card) m : ℕ) : ℝ) := by
    push_cast [hk.le]
    rfl
  rw [dropLoop, if_pos hlt]
  dsimp only
  rw [e1, e2, pyRandint_natCast, Py.ok_bind, pyRandint_natCast, Py.ok_bind, Nat.sub_add_cancel hn]

/-- What the loop leaves. -/
theorem dropLoop_inv {n : ℕ} {m k : ℝ} {draws : ℕ → ℕ × ℕ} (rounds : ℕ) :
    ∀ {t : ℕ} {S S' : Finset ℕ}, (S.card : ℝ) ≤ k → (∀ i ∈ S, i + 1 < n) →
      dropLoop n m k draws rounds t S = .ok (some S') → (S'.card : ℝ) = k ∧ ∀ i ∈ S', i + 1 < n := by
  induction rounds with
  | zero =>
    intro t S S' hk hn h
    rw [dropLoop] at h
    have := Except.ok.inj h
    split at this
    · cases this
    · rename_i hlt
      obtain rfl := Option.some.inj this
      exact ⟨le_antisymm hk (not_lt.mp hlt), hn⟩
  | succ r ih =>
    intro t S S' hk hn h
    rw [dropLoop] at h
    split at h
    · obtain ⟨s, hs, h⟩ := Py.bind_eq_ok.mp h
      obtain ⟨z, hz, h⟩ := Py.bind_eq_ok.mp h
      refine ih ?_ ?_ h
      · have hz' := (pyRandint_ok hz).1
        have h1 : (z : ℝ) ≤ k - S.card := le_trans hz' (min_le_left _ _)
        have h2 : (S ∪ Finset.Ico s (min (s + z) (n - 1))).card ≤ S.card + z := by
          refine le_trans (Finset.card_union_le _ _) ?_
          rw [Nat.card_Ico]
          omega
        have h3 : ((S ∪ Finset.Ico s (min (s + z) (n - 1))).card : ℝ) ≤ S.card + z := by exact_mod_cast h2
        linarith
      · intro i hi
        rcases Finset.mem_union.mp hi with hi | hi
        · exact hn i hi
        · have := (Finset.mem_Ico.mp hi).2
          omega
    · rename_i hlt
      obtain rfl := Option.some.inj (Except.ok.inj h)
      exact ⟨le_antisymm hk (not_lt.mp hlt), hn⟩

theorem filter_all_true {α : Type} (d : List α) (k : ℕ) (P : ℕ → Bool) (h : ∀ i, k ≤ i → P i = true) :
    ((d.zipIdx k).filter fun p => P p.2).map Prod.fst = d := by
  induction d generalizing k with
  | nil => rfl
  | cons a d ih =>
    rw [List.zipIdx_cons, List.filter_cons_of_pos (by exact h k (le_refl k)), List.map_cons, ih (k + 1) fun i hi => h i (by omega)]

theorem erase_descending {α : Type} (l : List ℕ) : ∀ d : List α, l.Pairwise (· > ·) → (∀ i ∈ l, i < d.length) →
    l.foldl (fun d i => d.eraseIdx i) d = (d.zipIdx.filter fun p => decide (p.2 ∉ l)).map Prod.fst := by
  induction l with
  | nil =>
    intro d _ _
    exact (filter_all_true d 0 (fun i => decide (i ∉ ([] : List ℕ))) (fun i _ => by simp)).symm
  | cons i l ih =>
    intro d hp hl
    obtain ⟨h1, h2⟩ := List.pairwise_cons.mp hp
    have hi := hl i List.mem_cons_self
    have hlen : (d.eraseIdx i).length = d.length - 1 := List.length_eraseIdx_of_lt hi
    rw [List.foldl_cons, ih _ h2 (by intro j hj; have := h1 j hj; omega)]
    have hd : d = d.take i ++ d[i] :: d.drop (i + 1) := by
      rw [← List.drop_eq_getElem_cons hi, List.take_append_drop]
    have hlt : (d.take i).length = i := by rw [List.length_take]; omega
    rw [List.eraseIdx_eq_take_drop_succ]
    conv_rhs => rw [hd]
    rw [List.zipIdx_append, List.zipIdx_append, List.filter_append, List.filter_append, List.map_append, List.map_append,
      hlt, List.zipIdx_cons]
    congr 1
    · congr 1
      refine List.filter_congr fun p hp => ?_
      have hp2 := (List.mem_zipIdx hp).2.1
      have : p.2 ≠ i := by omega
      simp [this]
    · rw [List.filter_cons_of_neg (by simp)]
      rw [filter_all_true _ _ (fun j => decide (j ∉ l)) (fun j hj => by
        simp only [decide_eq_true_eq]
        intro hjl
        have := h1 j hjl
        omega)]
      rw [filter_all_true _ _ (fun j => decide (j ∉ i :: l)) (fun j hj => by
        simp only [decide_eq_true_eq, List.mem_cons, not_or]
        refine ⟨by omega, fun hjl => ?_⟩
        have := h1 j hjl
        omega)]

theorem blank_all {α : Type} (l : List ℕ) : ∀ d : List (Option α),
    l.foldl (fun d i => d.set i none) d = d.mapIdx fun i x => if i ∈ l then none else x := by
  induction l with
  | nil =>
    intro d
    refine List.ext_getElem? fun j => ?_
    rw [List.getElem?_mapIdx]
    simp
  | cons i l ih =>
    intro d
    rw [List.foldl_cons, ih]
    refine List.ext_getElem? fun j => ?_
    rw [List.getElem?_mapIdx, List.getElem?_mapIdx, List.getElem?_set]
    by_cases hji : i = j
    · subst hji
      simp only [if_true, List.mem_cons, true_or]
      by_cases hlt : i < d.length
      · rw [if_pos hlt]; simp [hlt]
      · rw [if_neg hlt]
        simp [List.getElem?_eq_none (not_lt.mp hlt)]
    · have : ¬ j = i := fun h => hji h.symm
      simp [hji, this]

/-- **C54**, exactness: whenever the function returns, with any random numbers, exactly the requested number of
positions is affected, all others are unchanged and in order, and the last position is never affected. -/
theorem C54_exact_partial {α : Type} {data data' : List (Option α)} {single overall : ℝ} {set_to_none : Bool}
    {draws : ℕ → ℕ × ℕ} {rounds : ℕ} (h0 : 0 ≤ overall)
    (h : introduceDataDrops data single overall set_to_none draws rounds = .ok (some data')) :
    ∃ S : Finset ℕ, (S.card : ℝ) = overall / 100 * data.length ∧ (∀ i ∈ S, i + 1 < data.length) ∧
      data' = if set_to_none then Spec.blanked S data else Spec.kept S data := by
  unfold introduceDataDrops at h
  obtain ⟨_, _, h⟩ := Py.bind_eq_ok.mp h
  obtain ⟨r, hr, h⟩ := Py.bind_eq_ok.mp h
  cases r with
  | none => cases Except.ok.inj h
  | some S =>
    obtain ⟨_, _, h⟩ := Py.bind_eq_ok.mp h
    obtain rfl := Option.some.inj (Except.ok.inj h)
    obtain ⟨h1, h2⟩ := dropLoop_inv rounds (by rw [Finset.card_empty, Nat.cast_zero]; positivity)
      (by intro i hi; cases hi) hr
    refine ⟨S, h1, h2, ?_⟩
    have hp : (S.sort (· ≥ ·)).Pairwise (· > ·) := (Finset.sortedGT_sort S).pairwise
    cases set_to_none with
    | true =>
      simp only [if_true]
      rw [blank_all]
      unfold Spec.blanked
      simp only [Finset.mem_sort]
    | false =>
      simp only [Bool.false_eq_true, if_false]
      rw [erase_descending _ _ hp]
      · unfold Spec.kept
        simp only [Finset.mem_sort]
      · intro i hi
        have := h2 i ((Finset.mem_sort _).mp hi)
        omega

/-- **C54**, no errors: if both percentages make whole numbers of samples, no random numbers lead to an error. -/
theorem C54_no_error_partial {α : Type} (data : List (Option α)) (single overall : ℝ) (set_to_none : Bool)
    (draws : ℕ → ℕ × ℕ) (rounds m k : ℕ) (hc : single < overall) (hm : single / 100 * data.length = m)
    (hk : overall / 100 * data.length = k) :
    ∃ r, introduceDataDrops data single overall set_to_none draws rounds = .ok r := by
  have key : ∀ rounds t (S : Finset ℕ), S.card ≤ k → ∃ r, dropLoop data.length m k draws rounds t S = .ok r := by
    intro rounds
    induction rounds with
    | zero => intro t S _; exact ⟨_, rfl⟩
    | succ r ih =>
      intro t S hS
      by_cases hlt' : S.card < k
      · have hn : 1 ≤ data.length := by
          by_contra hn
          have h0 : data.length = 0 := by omega
          rw [h0, Nat.cast_zero, mul_zero] at hk
          have : (k : ℝ) = 0 := hk.symm
          have : k = 0 := by exact_mod_cast this
          omega
        rw [dropLoop_step hn hlt']
        refine ih _ _ ?_
        refine le_trans (Finset.card_union_le _ _) ?_
        rw [Nat.card_Ico]
        have := Nat.mod_lt (draws t).2 (Nat.succ_pos (min (k - S.card) m))
        rw [Nat.succ_eq_add_one] at this
        omega
      · rw [dropLoop, if_neg (by exact_mod_cast hlt')]
        exact ⟨_, rfl⟩
  obtain ⟨r, hr⟩ := key rounds 0 ∅ (by simp)
  unfold introduceDataDrops
  rw [pyAssert_pos hc, Py.ok_bind, hm, hk]
  dsimp only
  rw [hr, Py.ok_bind]
  cases r with
  | none => exact ⟨_, rfl⟩
  | some S =>
    obtain ⟨h1, _⟩ := dropLoop_inv rounds (by simp) (by intro i hi; cases hi) hr
    dsimp only
    rw [pyAssert_pos h1]
    exact ⟨_, rfl⟩

/-- **C54**, possible termination: if something can be dropped at a time and not everything has to be dropped,
there are random numbers with which the function returns. -/
theorem C54_can_finish_partial {α : Type} (data : List (Option α)) (single overall : ℝ) (set_to_none : Bool)
    (m k : ℕ) (hc : single < overall) (hm : single / 100 * data.length = m) (hk : overall / 100 * data.length = k)
    (hm0 : m ≠ 0) (hkn : k < data.length) :
    ∃ (draws : ℕ → ℕ × ℕ) (rounds : ℕ) (data' : List (Option α)),
      introduceDataDrops data single overall set_to_none draws rounds = .ok (some data') := by
  have key : ∀ r t, t + r = k →
      dropLoop data.length m k (fun t => (t, 1)) r t (Finset.range t) = .ok (some (Finset.range k)) := by
    intro r
    induction r with
    | zero =>
      intro t ht
      obtain rfl : t = k := by omega
      rw [dropLoop, if_neg (by rw [Finset.card_range]; exact lt_irrefl _)]
    | succ r ih =>
      intro t ht
      rw [dropLoop_step (by omega) (by rw [Finset.card_range]; omega)]
      have e1 : t % data.length = t := Nat.mod_eq_of_lt (by omega)
      have e2 : 1 % (min (k - (Finset.range t).card) m + 1) = 1 := by
        rw [Finset.card_range]
        exact Nat.mod_eq_of_lt (by omega)
      have e3 : Finset.range t ∪ Finset.Ico t (min (t + 1) (data.length - 1)) = Finset.range (t + 1) := by
        ext i
        rw [Finset.mem_union, Finset.mem_range, Finset.mem_Ico, Finset.mem_range]
        omega
      dsimp only
      rw [e1, e2, e3]
      exact ih (t + 1) (by omega)
  refine ⟨fun t => (t, 1), k, ?_⟩
  have h0 := key k 0 (by omega)
  rw [Finset.range_zero] at h0
  unfold introduceDataDrops
  rw [pyAssert_pos hc, Py.ok_bind, hm, hk]
  dsimp only
  rw [h0, Py.ok_bind]
  dsimp only
  rw [pyAssert_pos (by rw [Finset.card_range]), Py.ok_bind]
  exact ⟨_, rfl⟩

/-- **C54** fails, termination: with all random numbers zero the loop never ends, for every admissible
configuration that drops something. -/
theorem C54_endless_refuted {α : Type} (data : List (Option α)) (single overall : ℝ) (set_to_none : Bool)
    (rounds m k : ℕ) (hc : single < overall) (hm : single / 100 * data.length = m)
    (hk : overall / 100 * data.length = k) (hk0 : k ≠ 0) :
    introduceDataDrops data single overall set_to_none (fun _ => (0, 0)) rounds = .ok none := by
  have key : ∀ rounds t, dropLoop data.length m k (fun _ => (0, 0)) rounds t ∅ = .ok none := by
    intro rounds
    have hlt : ((∅ : Finset ℕ).card : ℝ) < k := by
      rw [Finset.card_empty, Nat.cast_zero]
      exact_mod_cast Nat.pos_of_ne_zero hk0
    induction rounds with
    | zero => intro t; rw [dropLoop, if_pos hlt]
    | succ r ih =>
      intro t
      have hn : 1 ≤ data.length := by
        by_contra hn
        have h0 : data.length = 0 := by omega
        rw [h0, Nat.cast_zero, mul_zero] at hk
        exact hk0 (by exact_mod_cast hk.symm)
      rw [dropLoop_step hn (by rw [Finset.card_empty]; exact Nat.pos_of_ne_zero hk0)]
      have : (∅ : Finset ℕ) ∪ Finset.Ico (0 % data.length) (min (0 % data.length + 0 % (min (k - (∅ : Finset ℕ).card) m + 1))
          (data.length - 1)) = ∅ := by
        simp
      dsimp only
      rw [this]
      exact ih _
  unfold introduceDataDrops
  rw [pyAssert_pos hc, Py.ok_bind, hm, hk]
  dsimp only
  rw [key]
  rfl

/-- **C54** fails: dropping everything never ends, for any random numbers. -/
theorem C54_everything_refuted {α : Type} (data : List (Option α)) (hd : data ≠ []) (single : ℝ) (set_to_none : Bool)
    (draws : ℕ → ℕ × ℕ) (rounds : ℕ) (data' : List (Option α)) :
    introduceDataDrops data single 100 set_to_none draws rounds ≠ .ok (some data') := by
  intro h
  obtain ⟨S, h1, h2, _⟩ := C54_exact_partial (by norm_num) h
  have hc : S.card = data.length := by
    have : (S.card : ℝ) = data.length := by rw [h1]; norm_num
    exact_mod_cast this
  have hsub : S ⊆ Finset.range (data.length - 1) := by
    intro i hi
    have := h2 i hi
    rw [Finset.mem_range]
    omega
  have := Finset.card_le_card hsub
  rw [Finset.card_range] at this
  have := List.length_pos_iff.mpr hd
  omega

/-- **C54** fails: if the percentage does not make a whole number of samples the function never returns. -/
theorem C54_fraction_refuted {α : Type} (data data' : List (Option α)) (single overall : ℝ) (set_to_none : Bool)
    (draws : ℕ → ℕ × ℕ) (rounds : ℕ) (h0 : 0 ≤ overall) (hk : ∀ k : ℕ, overall / 100 * data.length ≠ k) :
    introduceDataDrops data single overall set_to_none draws rounds ≠ .ok (some data') := by
  intro h
  obtain ⟨S, h1, _⟩ := C54_exact_partial h0 h
  exact hk _ h1.symm

/-- **C54** fails: the default configuration is refused. -/
theorem C54_default_refuted {α : Type} (data : List (Option α)) (set_to_none : Bool) (draws : ℕ → ℕ × ℕ) (rounds : ℕ) :
    introduceDataDrops data defaultDropConfig.1 defaultDropConfig.2 set_to_none draws rounds = .error .assertion := by
  unfold introduceDataDrops
  rw [pyAssert_neg (by norm_num [defaultDropConfig])]
  rfl

/-- Ten samples, at most one at a time, two in all: the samples 3 and 6 are dropped in three rounds, one of
which is empty. -/
example : introduceDataDrops ((List.range 10).map some) 10 20 false
    (fun t => if t = 0 then (3, 1) else if t = 1 then (5, 0) else (16, 1)) 3 =
      .ok (some ([0, 1, 2, 4, 5, 7, 8, 9].map some)) := by
  have e1 : (10 : ℝ) / 100 * (((List.range 10).map some : List (Option ℕ)).length : ℝ) = ((1 : ℕ) : ℝ) := by norm_num
  have e2 : (20 : ℝ) / 100 * (((List.range 10).map some : List (Option ℕ)).length : ℝ) = ((2 : ℕ) : ℝ) := by norm_num
  have hl : ((List.range 10).map some : List (Option ℕ)).length = 10 := by simp
  unfold introduceDataDrops
  rw [pyAssert_pos (by norm_num), Py.ok_bind, e1, e2, hl]
  dsimp only
  rw [dropLoop_step (by norm_num) (by norm_num), dropLoop_step (by norm_num) (by decide),
    dropLoop_step (by norm_num) (by decide), dropLoop, if_neg (by norm_num)]
  have hs : ∀ S : Finset ℕ, S = [6, 3].toFinset → S.sort (· ≥ ·) = [6, 3] := by
    rintro S rfl
    exact (List.toFinset_sort (l := [6, 3]) (· ≥ ·) (by decide)).mpr (by decide)
  rw [Py.ok_bind]
  dsimp only
  rw [pyAssert_pos (by norm_num), Py.ok_bind, hs _ (by decide)]
  rfl

end HandEye
