import Verif.Lemmas.TimeAlign
import Verif.Lemmas.DualQuat
import Verif.Model.Csv
import Mathlib.Data.Nat.Digits.Lemmas

/-! # Printing and parsing of numbers and tables -/

namespace HandEye

theorem digit_facts {d : ℕ} (h : d < 10) : (Nat.digitChar d).isDigit = true ∧ (Nat.digitChar d).toNat - 48 = d := by
  interval_cases d <;> decide

/-- The value of a sequence of digits. -/
def textValue (s : List Char) : ℕ := s.foldl (fun n c => 10 * n + (c.toNat - 48)) 0

theorem parseNat_eq {s : List Char} (h0 : s ≠ []) (h1 : ∀ c ∈ s, c.isDigit = true) : parseNat s = some (textValue s) := by
  unfold parseNat
  rw [if_pos ⟨h0, List.all_eq_true.mpr h1⟩]
  rfl

theorem natText_digits (n : ℕ) : ∀ c ∈ natText n, c.isDigit = true := by
  unfold natText
  split
  · intro c hc
    rw [List.mem_singleton.mp hc]
    rfl
  · intro c hc
    obtain ⟨d, hd, rfl⟩ := List.mem_map.mp (List.mem_reverse.mp hc)
    exact (digit_facts (Nat.digits_lt_base (by norm_num) hd)).1

theorem natText_ne_nil (n : ℕ) : natText n ≠ [] := by
  unfold natText
  split
  · simp
  · simpa using Nat.digits_ne_nil_iff_ne_zero.mpr ‹_›

theorem natText_value (n : ℕ) : textValue (natText n) = n := by
  unfold natText
  split
  · rename_i h
    rw [h]; rfl
  · unfold textValue
    rw [List.foldl_reverse, List.foldr_map]
    conv_rhs => rw [← Nat.ofDigits_digits 10 n, Nat.ofDigits_eq_foldr]
    have : ∀ l : List ℕ, (∀ d ∈ l, d < 10) →
        l.foldr (fun x y => 10 * y + ((Nat.digitChar x).toNat - 48)) 0 = l.foldr (fun x y => ((x : ℕ) : ℕ) + 10 * y) 0 := by
      intro l hl
      induction l with
      | nil => rfl
      | cons a l ih =>
        rw [List.foldr_cons, List.foldr_cons, ih fun d hd => hl d (List.mem_cons_of_mem _ hd),
          (digit_facts (hl a List.mem_cons_self)).2]
        omega
    exact this _ fun d hd => Nat.digits_lt_base (by norm_num) hd

theorem fixedText_digits (k f : ℕ) : ∀ c ∈ fixedText k f, c.isDigit = true := by
  induction k generalizing f with
  | zero => intro c hc; cases hc
  | succ k ih =>
    intro c hc
    rcases List.mem_append.mp hc with h | h
    · exact ih _ c h
    · rw [List.mem_singleton.mp h]
      exact (digit_facts (Nat.mod_lt _ (by norm_num))).1

theorem fixedText_length (k f : ℕ) : (fixedText k f).length = k := by
  induction k generalizing f with
  | zero => rfl
  | succ k ih => rw [fixedText, List.length_append, ih]; rfl

theorem fixedText_value (k f : ℕ) : textValue (fixedText k f) = f % 10 ^ k := by
  induction k generalizing f with
  | zero => simp [fixedText, textValue, Nat.mod_one]
  | succ k ih =>
    have := ih (f / 10)
    unfold textValue at this ⊢
    rw [fixedText, List.foldl_append, this, List.foldl_cons, List.foldl_nil,
      (digit_facts (Nat.mod_lt _ (by norm_num))).2, pow_succ, mul_comm (10 ^ k), Nat.mod_mul]
    omega

theorem roundHalfEven_close {x : ℝ} (h : 0 ≤ x) : |(roundHalfEven x : ℝ) - x| ≤ 1 / 2 := by
  have h1 := Nat.floor_le h
  have h2 := Nat.lt_floor_add_one x
  unfold roundHalfEven
  rw [abs_le]
  split_ifs <;> push_cast <;> constructor <;> linarith

/-- The number that is printed for `x`. -/
noncomputable def rounded18 (x : ℝ) : ℝ :=
  if x < 0 then -((roundHalfEven (|x| * 10 ^ 18) : ℝ) / 10 ^ 18) else (roundHalfEven (|x| * 10 ^ 18) : ℝ) / 10 ^ 18

theorem rounded18_close (x : ℝ) : |rounded18 x - x| ≤ 1 / 2 * 1e-18 := by
  have h := roundHalfEven_close (x := |x| * 10 ^ 18) (by positivity)
  have key : abs ((roundHalfEven (|x| * 10 ^ 18) : ℝ) / 10 ^ 18 - |x|) ≤ 1 / 2 * 1e-18 := by
    have e : (roundHalfEven (|x| * 10 ^ 18) : ℝ) / 10 ^ 18 - |x| =
        ((roundHalfEven (|x| * 10 ^ 18) : ℝ) - |x| * 10 ^ 18) * 1e-18 := by
      norm_num
      ring
    rw [e, abs_mul, abs_of_pos (by norm_num : (0 : ℝ) < 1e-18)]
    gcongr
  unfold rounded18
  split
  · rename_i hx
    rw [abs_of_neg hx] at key ⊢
    rw [← abs_neg]
    convert key using 2
    ring
  · rename_i hx
    rwa [abs_of_nonneg (not_lt.mp hx)] at key ⊢

theorem not_special {c : Char} (h : c.isDigit = true) : c ≠ '.' ∧ c ≠ ' ' ∧ c ≠ '-' ∧ c ≠ ',' ∧ c ≠ '\n' := by
  refine ⟨?_, ?_, ?_, ?_, ?_⟩ <;> rintro rfl <;> revert h <;> decide

theorem parseUnsigned_text (n f : ℕ) (hf : f < 10 ^ 18) :
    parseUnsigned (natText n ++ '.' :: fixedText 18 f) = .ok (n + f / 10 ^ 18) := by
  have h1 : (natText n ++ '.' :: fixedText 18 f).takeWhile (· ≠ '.') = natText n := by
    rw [List.takeWhile_append_of_pos]
    · simp
    · intro c hc
      simpa using (not_special (natText_digits n c hc)).1
  have h2 : (natText n ++ '.' :: fixedText 18 f).dropWhile (· ≠ '.') = '.' :: fixedText 18 f := by
    rw [List.dropWhile_append_of_pos]
    · simp
    · intro c hc
      simpa using (not_special (natText_digits n c hc)).1
  have hne : fixedText 18 f ≠ [] := by
    intro h
    have := fixedText_length 18 f
    rw [h] at this
    cases this
  unfold parseUnsigned
  rw [h1, h2, List.drop_one, List.tail_cons, parseNat_eq (natText_ne_nil n) (natText_digits n),
    parseNat_eq hne (fixedText_digits 18 f), natText_value, fixedText_value, fixedText_length, Nat.mod_eq_of_lt hf]

theorem strip_eq {s : List Char} (h : ∀ c ∈ s, c ≠ ' ') : strip s = s ∧ strip (' ' :: s) = s := by
  have h1 : ∀ t : List Char, (∀ c ∈ t, c ≠ ' ') → t.dropWhile (· = ' ') = t := by
    intro t ht
    cases t with
    | nil => rfl
    | cons a t => rw [List.dropWhile_cons_of_neg (by simpa using ht a List.mem_cons_self)]
  have h2 : ((s.reverse.dropWhile (· = ' ')).reverse) = s := by
    rw [h1 s.reverse fun c hc => h c (List.mem_reverse.mp hc), List.reverse_reverse]
  unfold strip
  constructor
  · rw [h1 s h, h2]
  · rw [List.dropWhile_cons_of_pos (by simp), h1 s h, h2]

theorem formatF18_chars (x : ℝ) : ∀ c ∈ formatF18 x, c ≠ ' ' ∧ c ≠ ',' ∧ c ≠ '\n' := by
  intro c hc
  unfold formatF18 at hc
  simp only [List.mem_append, List.mem_cons] at hc
  rcases hc with h | h | h | h
  · split at h
    · rw [List.mem_singleton.mp h]; decide
    · cases h
  · have := not_special (natText_digits _ c h)
    exact ⟨this.2.1, this.2.2.2.1, this.2.2.2.2⟩
  · rw [h]; decide
  · have := not_special (fixedText_digits _ _ c h)
    exact ⟨this.2.1, this.2.2.2.1, this.2.2.2.2⟩

/-- Parsing what was printed gives the rounded number, also with a space in front. -/
theorem parseFloat_format (x : ℝ) :
    parseFloat (formatF18 x) = .ok (rounded18 x) ∧ parseFloat (' ' :: formatF18 x) = .ok (rounded18 x) := by
  obtain ⟨h1, h2⟩ := strip_eq fun c hc => (formatF18_chars x c hc).1
  have key : ∀ s : List Char, strip s = formatF18 x → parseFloat s = .ok (rounded18 x) := by
    intro s hs
    unfold parseFloat
    rw [hs]
    unfold formatF18 rounded18
    generalize roundHalfEven (|x| * 10 ^ 18) = m
    have hm : ((m / 10 ^ 18 : ℕ) : ℝ) + ((m % 10 ^ 18 : ℕ) : ℝ) / 10 ^ 18 = (m : ℝ) / 10 ^ 18 := by
      have := Nat.div_add_mod m (10 ^ 18)
      have h : ((10 ^ 18 * (m / 10 ^ 18) + m % 10 ^ 18 : ℕ) : ℝ) = m := by rw [this]
      rw [← h]
      push_cast
      field_simp
      norm_num
    have hp := parseUnsigned_text (m / 10 ^ 18) (m % 10 ^ 18) (Nat.mod_lt _ (by positivity))
    rw [hm] at hp
    by_cases hx : x < 0
    · rw [if_pos hx, if_pos hx]
      rw [List.singleton_append]
      change (do let x ← parseUnsigned _; pure (-x)) = _
      rw [hp]
      rfl
    · rw [if_neg hx, if_neg hx]
      rw [List.nil_append]
      split
      · rename_i r hr
        exfalso
        have hne := natText_ne_nil (m / 10 ^ 18)
        have hd := natText_digits (m / 10 ^ 18)
        cases hn : natText (m / 10 ^ 18) with
        | nil => exact hne hn
        | cons a l =>
          rw [hn, List.cons_append] at hr
          have := (not_special (hd a (by rw [hn]; exact List.mem_cons_self))).2.2.1
          exact this (List.cons.inj hr).1
      · exact hp
  exact ⟨key _ h1, key _ h2⟩

theorem splitChar_none {c : Char} {s : List Char} (h : ∀ x ∈ s, x ≠ c) : splitChar c s = [s] := by
  induction s with
  | nil => rfl
  | cons a s ih =>
    rw [splitChar, if_neg (h a List.mem_cons_self), ih fun x hx => h x (List.mem_cons_of_mem _ hx)]

theorem splitChar_append {c : Char} {s : List Char} (h : ∀ x ∈ s, x ≠ c) (t : List Char) :
    splitChar c (s ++ c :: t) = s :: splitChar c t := by
  induction s with
  | nil => rw [List.nil_append, splitChar, if_pos rfl]
  | cons a s ih =>
    rw [List.cons_append, splitChar, if_neg (h a List.mem_cons_self), ih fun x hx => h x (List.mem_cons_of_mem _ hx)]

theorem splitChar_ne_nil (c : Char) (s : List Char) : splitChar c s ≠ [] := by
  cases s with
  | nil => simp [splitChar]
  | cons a s =>
    rw [splitChar]
    split
    · simp
    · split <;> simp

theorem rowText_chars (r : List ℝ) : ∀ c ∈ rowText r, c ≠ '\n' := by
  induction r with
  | nil => intro c hc; cases hc
  | cons x l ih =>
    cases l with
    | nil => exact fun c hc => (formatF18_chars x c hc).2.2
    | cons y l =>
      intro c hc
      rw [rowText] at hc
      simp only [List.mem_append, List.mem_cons] at hc
      rcases hc with h | h | h | h
      · exact (formatF18_chars x c h).2.2
      · rw [h]; decide
      · rw [h]; decide
      · exact ih c h

/-- Reading a written line gives the rounded numbers. -/
theorem readRow (sp : Bool) (r : List ℝ) (h : r ≠ []) :
    (splitChar ',' ((if sp then [' '] else []) ++ rowText r)).mapM parseFloat = .ok (r.map rounded18) := by
  induction r generalizing sp with
  | nil => exact absurd rfl h
  | cons x l ih =>
    have hx : ∀ sp : Bool, (∀ c ∈ (if sp then [' '] else []) ++ formatF18 x, c ≠ ',') ∧
        parseFloat ((if sp then [' '] else []) ++ formatF18 x) = .ok (rounded18 x) := by
      intro sp
      cases sp with
      | false => exact ⟨fun c hc => (formatF18_chars x c (by simpa using hc)).2.1, (parseFloat_format x).1⟩
      | true =>
        refine ⟨fun c hc => ?_, (parseFloat_format x).2⟩
        rcases List.mem_cons.mp (show c ∈ ' ' :: formatF18 x from hc) with h | h
        · rw [h]; decide
        · exact (formatF18_chars x c h).2.1
    cases l with
    | nil =>
      rw [rowText, splitChar_none (hx sp).1, List.mapM_cons, (hx sp).2, Py.ok_bind]
      rfl
    | cons y l =>
      rw [rowText, ← List.append_assoc, splitChar_append (hx sp).1, List.mapM_cons, (hx sp).2, Py.ok_bind]
      have := ih true (by simp)
      rw [if_pos rfl, List.singleton_append] at this
      rw [this, Py.ok_bind]
      rfl

theorem splitLines (rows : List (List ℝ)) : splitChar '\n' (writeTable rows) = rows.map rowText ++ [[]] := by
  induction rows with
  | nil => rfl
  | cons r rows ih =>
    have : writeTable (r :: rows) = rowText r ++ '\n' :: writeTable rows := by
      simp [writeTable]
    rw [this, splitChar_append (rowText_chars r), ih]
    rfl

theorem fileLines_write (rows : List (List ℝ)) : fileLines (writeTable rows) = rows.map rowText := by
  unfold fileLines
  rw [splitLines]
  simp

/-- Reading a written table gives the rounded numbers. -/
theorem readTable_write {rows : List (List ℝ)} {n : ℕ} (hn : n ≠ 0) (h : ∀ r ∈ rows, r.length = n) :
    readTable (writeTable rows) = .ok (rows.map fun r => r.map rounded18) := by
  unfold readTable
  rw [fileLines_write]
  have : (rows.map rowText).mapM (fun l => (splitChar ',' l).mapM parseFloat) =
      .ok (rows.map fun r => r.map rounded18) := by
    rw [List.mapM_map]
    refine Py.mapM_ok fun r hr => ?_
    have hne : r ≠ [] := by
      intro h0
      have := h r hr
      rw [h0] at this
      exact hn this.symm
    have := readRow false r hne
    simpa using this
  rw [this, Py.ok_bind, pyRequire_pos, Py.ok_bind]
  · rfl
  · intro a ha b hb
    obtain ⟨a', ha', rfl⟩ := List.mem_map.mp ha
    obtain ⟨b', hb', rfl⟩ := List.mem_map.mp hb
    rw [List.length_map, List.length_map, h a' ha', h b' hb']

end HandEye
