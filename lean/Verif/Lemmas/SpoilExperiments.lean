import Verif.Lemmas.Py
import Verif.Model.SpoilExperiments

/-! # Lemmas on the nested loops of the experiments -/

namespace HandEye

/-- Elements with their numbers, beginning with the given one. -/
def numbered {β γ : Type} (mk : γ → ℕ → β) (l : List γ) (idx : ℕ) : List β := (l.zipIdx idx).map fun p => mk p.1 p.2

theorem numbered_append {β γ : Type} (mk : γ → ℕ → β) (l m : List γ) (idx : ℕ) :
    numbered mk (l ++ m) idx = numbered mk l idx ++ numbered mk m (idx + l.length) := by
  unfold numbered
  rw [List.zipIdx_append, List.map_append]

theorem numbered_length {β γ : Type} (mk : γ → ℕ → β) (l : List γ) (idx : ℕ) : (numbered mk l idx).length = l.length := by
  unfold numbered
  simp

theorem numbered_get {β γ : Type} (mk : γ → ℕ → β) (l : List γ) (idx i : ℕ) :
    (numbered mk l idx)[i]? = l[i]?.map fun a => mk a (idx + i) := by
  unfold numbered
  rw [List.getElem?_map, List.getElem?_zipIdx]
  cases l[i]? <;> rfl

/-- A loop whose body numbers some elements numbers all of them. -/
theorem forIdx_ok {α β γ : Type} {body : α → ℕ → Py (List β × ℕ)} (g : α → List γ) (mk : γ → ℕ → β) (number : ℕ)
    (l : List α) (h : ∀ a ∈ l, ∀ idx, idx + (g a).length ≤ number →
      body a idx = .ok (numbered mk (g a) idx, idx + (g a).length)) (idx : ℕ)
    (hidx : idx + (l.flatMap g).length ≤ number) :
    forIdx body l idx = .ok (numbered mk (l.flatMap g) idx, idx + (l.flatMap g).length) := by
  induction l generalizing idx with
  | nil => rfl
  | cons a l ih =>
    rw [List.flatMap_cons, List.length_append] at hidx
    unfold forIdx
    rw [h a List.mem_cons_self idx (by omega), Py.ok_bind]
    dsimp only
    rw [ih (fun b hb => h b (List.mem_cons_of_mem _ hb)) _ (by omega), Py.ok_bind]
    dsimp only
    rw [List.flatMap_cons, numbered_append, List.length_append]
    simp only [Py.pure_eq, add_assoc]

/-- All rangeCombinations, the last part changing fastest. -/
def rangeCombinations {α β γ : Type} (ts : List α) (as : List β) (xs : List γ) (n : ℕ) : List (α × β × γ × ℕ) :=
  ts.flatMap fun t => as.flatMap fun a => xs.flatMap fun x => (List.range n).map fun i => (t, a, x, i)

theorem length_flatMap_const {α β : Type} (f : α → List β) (l : List α) (m : ℕ) (h : ∀ a ∈ l, (f a).length = m) :
    (l.flatMap f).length = l.length * m := by
  induction l with
  | nil => simp
  | cons a l ih =>
    rw [List.flatMap_cons, List.length_append, h a List.mem_cons_self, ih fun b hb => h b (List.mem_cons_of_mem _ hb),
      List.length_cons]
    ring

theorem get_flatMap_const {α β : Type} (f : α → List β) (l : List α) (m : ℕ) (h : ∀ a ∈ l, (f a).length = m)
    (i j : ℕ) (hj : j < m) : (l.flatMap f)[i * m + j]? = l[i]?.bind fun a => (f a)[j]? := by
  induction l generalizing i with
  | nil => simp
  | cons a l ih =>
    have ha := h a List.mem_cons_self
    rw [List.flatMap_cons]
    cases i with
    | zero =>
      rw [List.getElem?_append_left (by omega)]
      simp
    | succ i =>
      rw [List.getElem?_append_right (by rw [ha]; nlinarith), ha,
        show (i + 1) * m + j - m = i * m + j by rw [add_mul, one_mul]; omega,
        ih (fun b hb => h b (List.mem_cons_of_mem _ hb))]
      simp

theorem rangeCombinations_length {α β γ : Type} (ts : List α) (as : List β) (xs : List γ) (n : ℕ) :
    (rangeCombinations ts as xs n).length = ts.length * (as.length * (xs.length * n)) := by
  unfold rangeCombinations
  refine length_flatMap_const _ _ _ fun t _ => length_flatMap_const _ _ _ fun a _ =>
    length_flatMap_const _ _ _ fun x _ => ?_
  simp

theorem rangeCombinations_get {α β γ : Type} (ts : List α) (as : List β) (xs : List γ) (n t a x i : ℕ)
    (ha : a < as.length) (hx : x < xs.length) (hi : i < n) :
    (rangeCombinations ts as xs n)[((t * as.length + a) * xs.length + x) * n + i]? =
      ts[t]?.bind fun T => as[a]?.bind fun A => xs[x]?.bind fun X => some (T, A, X, i) := by
  have h3 : ∀ (T : α) (A : β) (X : γ), ((List.range n).map fun i => (T, A, X, i)).length = n := by simp
  have h2 : ∀ (T : α) (A : β), (xs.flatMap fun X => (List.range n).map fun i => (T, A, X, i)).length = xs.length * n :=
    fun T A => length_flatMap_const _ _ _ fun X _ => h3 T A X
  have h1 : ∀ T : α, (as.flatMap fun A => xs.flatMap fun X => (List.range n).map fun i => (T, A, X, i)).length =
      as.length * (xs.length * n) := fun T => length_flatMap_const _ _ _ fun A _ => h2 T A
  have l3 : x * n + i < xs.length * n := by nlinarith
  have l2 : a * (xs.length * n) + (x * n + i) < as.length * (xs.length * n) := by
    have := Nat.mul_le_mul_right (xs.length * n) (Nat.succ_le_of_lt ha)
    rw [Nat.succ_mul] at this
    omega
  unfold rangeCombinations
  rw [show ((t * as.length + a) * xs.length + x) * n + i =
    t * (as.length * (xs.length * n)) + (a * (xs.length * n) + (x * n + i)) by ring,
    get_flatMap_const _ _ _ (fun T _ => h1 T) _ _ l2]
  refine Option.bind_congr fun T _ => ?_
  rw [get_flatMap_const _ _ _ (fun A _ => h2 T A) _ _ l3]
  refine Option.bind_congr fun A _ => ?_
  rw [get_flatMap_const _ _ _ (fun X _ => h3 T A X) _ _ hi]
  refine Option.bind_congr fun X _ => ?_
  simp [hi]

/-- How the element of `input_data` looks. -/
def mkInput (number : ℤ) (c : (ℝ × ℝ) × (ℝ × ℝ) × (ℝ × ℝ) × ℕ) (idx : ℕ) : ExperimentInput :=
  ⟨c.1, c.2.1, c.2.2.1, c.2.2.2, (idx, number)⟩

theorem iterationLoop_ok (number n : ℕ) (t a x : ℝ × ℝ) (idx : ℕ) (h : idx + n ≤ number) :
    iterationLoop number n t a x idx =
      .ok (numbered (mkInput number) ((List.range n).map fun i => (t, a, x, i)) idx, idx + n) := by
  have hl : ((List.range n).flatMap fun i => [(t, a, x, i)]) = (List.range n).map fun i => (t, a, x, i) := by
    rw [List.map_eq_flatMap]
  unfold iterationLoop
  rw [Int.toNat_natCast, forIdx_ok (fun i => [(t, a, x, i)]) (mkInput number) number (List.range n) _ idx
    (by rw [hl]; simpa using h), hl]
  · simp
  · intro i _ idx hidx
    rw [List.length_singleton] at hidx
    rw [pyAssert_pos (by exact_mod_cast (by omega : idx < number))]
    rfl

/-- Each combination of ranges and iterations, numbered in order. -/
theorem experimentInputs_ok (r : OffsetRanges) (n : ℕ) (hn : 0 < n) :
    experimentInputs r n = .ok (numbered (mkInput ((r.times.length * (r.angles.length * (r.translations.length * n)) : ℕ) : ℤ))
      (rangeCombinations r.times r.angles r.translations n) 0) := by
  have hnum : (r.times.length * r.angles.length * r.translations.length * (n : ℤ) : ℤ) =
      ((r.times.length * (r.angles.length * (r.translations.length * n)) : ℕ) : ℤ) := by
    push_cast
    ring
  have hlen := rangeCombinations_length r.times r.angles r.translations n
  unfold experimentInputs
  dsimp only
  rw [hnum]
  generalize r.times.length * (r.angles.length * (r.translations.length * n)) = number at hlen
  have key : forIdx (fun time => forIdx (fun angle => forIdx (fun translation idx => do
      pyAssert (0 < (n : ℤ))
      iterationLoop number n time angle translation idx) r.translations) r.angles) r.times 0 =
      .ok (numbered (mkInput number) (rangeCombinations r.times r.angles r.translations n) 0, 0 + number) := by
    rw [← hlen]
    refine forIdx_ok _ _ number _ ?_ 0 (by rw [Nat.zero_add]; exact hlen.le)
    intro t _ idx hidx
    refine forIdx_ok _ _ number _ ?_ idx hidx
    intro a _ idx hidx
    refine forIdx_ok _ _ number _ ?_ idx hidx
    intro x _ idx hidx
    rw [pyAssert_pos (by exact_mod_cast hn), Py.ok_bind]
    rw [hlen]
    have := iterationLoop_ok number n t a x idx (by simpa using hidx)
    simpa using this
  rw [key, Py.ok_bind]
  dsimp only
  rw [pyAssert_pos (by simp), Py.ok_bind, pyAssert_pos (by rw [numbered_length, hlen]), Py.ok_bind]
  rfl

/-- Elements whose positions are known. -/
theorem filter_interval {α : Type} (p : α → Bool) (l : List α) (b n : ℕ)
    (h : ∀ i a, l[i]? = some a → (p a = true ↔ b ≤ i ∧ i < b + n)) : l.filter p = (l.drop b).take n := by
  have e : l = l.take b ++ ((l.drop b).take n ++ (l.drop b).drop n) := by simp
  conv_lhs => rw [e]
  rw [List.filter_append, List.filter_append]
  have h1 : (l.take b).filter p = [] := by
    rw [List.filter_eq_nil_iff]
    intro a ha hp
    obtain ⟨i, hi, rfl⟩ := List.getElem_of_mem ha
    rw [List.length_take] at hi
    rw [List.getElem_take] at hp
    have := (h i _ (List.getElem?_eq_getElem (by omega))).mp hp
    omega
  have h2 : ((l.drop b).take n).filter p = (l.drop b).take n := by
    rw [List.filter_eq_self]
    intro a ha
    obtain ⟨i, hi, rfl⟩ := List.getElem_of_mem ha
    rw [List.length_take, List.length_drop] at hi
    rw [List.getElem_take, List.getElem_drop]
    exact (h (b + i) _ (List.getElem?_eq_getElem (by omega))).mpr ⟨by omega, by omega⟩
  have h3 : ((l.drop b).drop n).filter p = [] := by
    rw [List.filter_eq_nil_iff]
    intro a ha hp
    obtain ⟨i, hi, rfl⟩ := List.getElem_of_mem ha
    rw [List.length_drop, List.length_drop] at hi
    rw [List.getElem_drop, List.getElem_drop] at hp
    have := (h (b + (n + i)) _ (List.getElem?_eq_getElem (by omega))).mp hp
    omega
  rw [h1, h2, h3]
  simp

end HandEye
