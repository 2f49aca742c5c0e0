import Verif.Spec.Commands
import Verif.Lemmas.Py
import Mathlib.Tactic.IntervalCases
import Mathlib.Tactic.Ring
import Mathlib.Data.Nat.Digits.Lemmas

/-! # Lemmas on command lines -/

namespace HandEye

theorem shlexBlank_iff {c : Char} : shlexBlank c = true ↔ Spec.Blank c := by
  simp [shlexBlank, Spec.Blank, or_assoc]

/-- Characters of a word. -/
theorem go_plain {w : Text} (h : Spec.Plain w) (tok rest : Text) :
    shlexGo .word tok (w ++ rest) = shlexGo .word (tok ++ w) rest := by
  induction w generalizing tok with
  | nil => simp
  | cons c w ih =>
    obtain ⟨h1, h2, h3, h4⟩ := h c List.mem_cons_self
    rw [List.cons_append, shlexGo, if_neg (by rw [shlexBlank_iff]; exact h1), if_neg h2, if_neg (by simp [h3, h4]),
      ih fun d hd => h d (List.mem_cons_of_mem _ hd)]
    simp

/-- A whole word, and the beginning of what follows it. -/
theorem go_word {w : Text} (h : Spec.Plain w) (hne : w ≠ []) (rest : Text) :
    shlexGo .blank [] (w ++ rest) = shlexGo .word w rest := by
  cases w with
  | nil => exact absurd rfl hne
  | cons c w =>
    obtain ⟨h1, h2, h3, h4⟩ := h c List.mem_cons_self
    rw [List.cons_append, shlexGo, if_neg (by rw [shlexBlank_iff]; exact h1), if_neg h2, if_neg (by simp [h3, h4]),
      go_plain fun d hd => h d (List.mem_cons_of_mem _ hd)]
    simp

theorem go_blanks {b : Text} (h : ∀ c ∈ b, Spec.Blank c) (rest : Text) : shlexGo .blank [] (b ++ rest) = shlexGo .blank [] rest := by
  induction b with
  | nil => rfl
  | cons c b ih =>
    rw [List.cons_append, shlexGo, if_pos (shlexBlank_iff.mpr (h c List.mem_cons_self)), ih fun d hd => h d (List.mem_cons_of_mem _ hd)]

theorem go_word_end {b : Text} (h : ∀ c ∈ b, Spec.Blank c) (hne : b ≠ []) (w rest : Text) :
    shlexGo .word w (b ++ rest) = (w :: ·) <$> shlexGo .blank [] rest := by
  cases b with
  | nil => exact absurd rfl hne
  | cons c b =>
    rw [List.cons_append, shlexGo, if_pos (shlexBlank_iff.mpr (h c List.mem_cons_self)),
      go_blanks fun d hd => h d (List.mem_cons_of_mem _ hd)]

/-- Words with white space between them. -/
theorem go_words {tail : Text} (ht : ∀ c ∈ tail, Spec.Blank c) (l : List (Text × Text))
    (h : ∀ p ∈ l, p.1 ≠ [] ∧ (∀ c ∈ p.1, Spec.Blank c) ∧ p.2 ≠ [] ∧ Spec.Plain p.2) (w : Text) :
    shlexGo .word w (l.flatMap (fun p => p.1 ++ p.2) ++ tail) = .ok (w :: l.map Prod.snd) := by
  induction l generalizing w with
  | nil =>
    cases tail with
    | nil => rfl
    | cons c tail =>
      have := go_word_end ht (by simp) w []
      rw [List.append_nil] at this
      rw [List.flatMap_nil, List.nil_append, this]
      rfl
  | cons p l ih =>
    obtain ⟨h1, h2, h3, h4⟩ := h p List.mem_cons_self
    rw [List.flatMap_cons, List.append_assoc, List.append_assoc, go_word_end h2 h1, go_word h4 h3,
      ih fun q hq => h q (List.mem_cons_of_mem _ hq)]
    rfl

/-! ## Decimal numbers -/

theorem digitChar_isDigit {d : ℕ} (h : d < 10) : (Spec.digitChar d).isDigit = true := by
  interval_cases d <;> rfl

theorem digitChar_toNat {d : ℕ} (h : d < 10) : (Spec.digitChar d).toNat - 48 = d := by
  interval_cases d <;> rfl

theorem digitChar_ne {d : ℕ} (h : d < 10) : Spec.digitChar d ≠ '-' ∧ Spec.digitChar d ≠ '+' := by
  interval_cases d <;> decide

theorem digitsValue_append (s : Text) (c : Char) : digitsValue (s ++ [c]) = 10 * digitsValue s + (c.toNat - 48) := by
  simp [digitsValue]

theorem digitsValue_digits (l : List ℕ) (h : ∀ d ∈ l, d < 10) : digitsValue (l.reverse.map Spec.digitChar) = Nat.ofDigits 10 l := by
  induction l with
  | nil => rfl
  | cons d l ih =>
    rw [List.reverse_cons, List.map_append, List.map_singleton, digitsValue_append, ih fun e he => h e (List.mem_cons_of_mem _ he),
      digitChar_toNat (h d List.mem_cons_self), Nat.ofDigits_cons]
    ring

theorem decimal_digits (n : ℕ) : ∀ c ∈ Spec.decimal n, ∃ d < 10, c = Spec.digitChar d := by
  intro c hc
  unfold Spec.decimal at hc
  split at hc
  · exact ⟨0, by norm_num, List.mem_singleton.mp hc⟩
  · obtain ⟨d, hd, rfl⟩ := List.mem_map.mp hc
    exact ⟨d, Nat.digits_lt_base (by norm_num) (List.mem_reverse.mp hd), rfl⟩

theorem decimal_ne_nil (n : ℕ) : Spec.decimal n ≠ [] := by
  unfold Spec.decimal
  split
  · simp
  · rename_i h
    simp [Nat.digits_ne_nil_iff_ne_zero.mpr h]

theorem parseDigits_decimal (n : ℕ) : parseDigits (Spec.decimal n) = some n := by
  unfold parseDigits
  rw [if_pos]
  · congr 1
    unfold Spec.decimal
    split
    · rename_i h
      rw [h]; rfl
    · rw [digitsValue_digits _ fun d hd => Nat.digits_lt_base (by norm_num) hd, Nat.ofDigits_digits]
  · refine ⟨decimal_ne_nil n, List.all_eq_true.mpr fun c hc => ?_⟩
    obtain ⟨d, hd, rfl⟩ := decimal_digits n c hc
    exact digitChar_isDigit hd

theorem parseInt_nat (n : ℕ) : parseInt (Spec.decimal n) = some (n : ℤ) := by
  obtain ⟨c, r, h⟩ := List.exists_cons_of_ne_nil (decimal_ne_nil n)
  obtain ⟨d, hd, hc⟩ := decimal_digits n c (by rw [h]; exact List.mem_cons_self)
  have hne := digitChar_ne hd
  have : parseInt (c :: r) = (parseDigits (c :: r)).map fun n => (n : ℤ) := by
    unfold parseInt
    split
    · rename_i h'
      cases h'
      exact absurd hc.symm hne.1
    · rename_i h'
      cases h'
      exact absurd hc.symm hne.2
    · rfl
  rw [h, this, ← h, parseDigits_decimal]
  rfl

theorem parseInt_decimal (n : ℤ) : parseInt (Spec.decimalInt n) = some n := by
  unfold Spec.decimalInt
  split
  · rename_i h
    have : parseInt ('-' :: Spec.decimal n.natAbs) = some (-(n.natAbs : ℤ)) := by
      simp only [parseInt, parseDigits_decimal]
      rfl
    rw [this]
    congr 1
    omega
  · rename_i h
    rw [parseInt_nat]
    congr 1
    omega

theorem convert_means {kind : ArgKind} {many : Bool} {words : List Text} {v : ArgValue} (h : Spec.Means kind many words v)
    (hv : v ≠ .bool false) :
    convertArg kind many words = some v := by
  cases h with
  | text t => rfl
  | number n => simp [convertArg, parseInt_decimal]
  | word b =>
    cases b with
    | false => exact absurd rfl hv
    | true => rfl
  | digit b =>
    cases b with
    | false => exact absurd rfl hv
    | true => rfl
  | texts _ h =>
    obtain ⟨a, l, rfl⟩ := List.exists_cons_of_ne_nil h
    rfl
  | numbers l h =>
    obtain ⟨a, l, rfl⟩ := List.exists_cons_of_ne_nil h
    have : ∀ m : List ℤ, (m.map Spec.decimalInt).mapM parseInt = some m := by
      intro m
      induction m with
      | nil => rfl
      | cons b m ih =>
        rw [List.map_cons, List.mapM_cons, parseInt_decimal, ih]
        rfl
    have := this (a :: l)
    rw [List.map_cons] at this ⊢
    simp only [convertArg]
    rw [this]
    rfl

/-! ## Options -/

theorem classify_option {names : List Text} {t : Text} (h : t ∈ names) (hd : t.head? = some '-') :
    classifyArg names t = .option t none := by
  unfold classifyArg
  rw [if_neg (by simp [hd]), if_pos h]

theorem classify_value {names : List Text} {t : Text} (h : Spec.NoDash t) : classifyArg names t = .value t := by
  unfold classifyArg
  rw [if_pos fun hd => h _ hd rfl]

theorem group_values (l : List Text) (r : List ArgToken) :
    groupArgs (l.map .value ++ r) = (groupArgs r).map fun g => (l ++ g.1, g.2) := by
  induction l with
  | nil => simp
  | cons a l ih =>
    rw [List.map_cons, List.cons_append, groupArgs, ih]
    cases groupArgs r <;> rfl

theorem classify_equals {names : List Text} {n v : Text} (h : n ∈ names) (hd : n.head? = some '-')
    (heq : ∀ m ∈ names, '=' ∉ m) : classifyArg names (n ++ '=' :: v) = .option n (some v) := by
  have h1 : (n ++ '=' :: v).head? = some '-' := by
    cases n with
    | nil => cases hd
    | cons c n => exact hd
  have hn : ∀ c ∈ n, decide (c ≠ '=') = true := fun c hc => decide_eq_true fun e => heq n h (e ▸ hc)
  have h2 : n ++ '=' :: v ∉ names := fun hm => heq _ hm (by simp)
  have h3 : n ++ '=' :: v ≠ ['-'] := fun e => by
    have : '=' ∈ ['-'] := by rw [← e]; simp
    simp at this
  have h4 : (n ++ '=' :: v).takeWhile (· ≠ '=') = n := by
    rw [List.takeWhile_append_of_pos hn]
    simp
  have h5 : (n ++ '=' :: v).dropWhile (· ≠ '=') = '=' :: v := by
    rw [List.dropWhile_append_of_pos hn]
    simp
  unfold classifyArg
  rw [if_neg (by simp [h1]), if_neg h2, if_neg h3]
  dsimp only
  rw [h4, h5, if_pos h, if_pos (by simp)]
  rfl

/-- An option with its explicit value and the words after it. -/
def optionGroup : Spec.Given → Text × Option Text × List Text
  | .words n ws => (n, none, ws)
  | .equals n v => (n, some v, [])

theorem group_line {names : List Text} (given : List Spec.Given) (heq : ∀ m ∈ names, '=' ∉ m)
    (h : ∀ p ∈ given, p.name ∈ names ∧ p.name.head? = some '-' ∧ p.Separate) :
    groupArgs ((given.flatMap Spec.Given.tokens).map (classifyArg names)) = some ([], given.map optionGroup) := by
  induction given with
  | nil => rfl
  | cons p given ih =>
    obtain ⟨h1, h2, h3⟩ := h p List.mem_cons_self
    have ih := ih fun q hq => h q (List.mem_cons_of_mem _ hq)
    rw [List.flatMap_cons, List.map_append]
    cases p with
    | words n ws =>
      have : ws.map (classifyArg names) = ws.map .value := List.map_congr_left fun t ht => classify_value (h3 t ht)
      simp only [Spec.Given.tokens, List.map_cons, List.cons_append]
      rw [this, classify_option (t := n) h1 h2, groupArgs, group_values, ih]
      simp [optionGroup]
    | equals n v =>
      simp only [Spec.Given.tokens, List.map_cons, List.cons_append, List.map_nil, List.nil_append]
      rw [classify_equals (n := n) h1 h2 heq, groupArgs, ih]
      simp [optionGroup]

theorem store_given {specs : List ArgSpec} (hnames : (specs.map ArgSpec.name).Nodup) {p : Spec.Given} {s : ArgSpec} (hs : s ∈ specs)
    (hn : s.name = p.name) {v : ArgValue} (hv : convertArg s.kind s.many p.values = some v) :
    storeArg specs (optionGroup p) = some (p.name, v) := by
  have hg : (optionGroup p).1 = p.name := by cases p <;> rfl
  have hfind : specs.find? (fun t => t.name = (optionGroup p).1) = some s := by
    rw [hg, ← hn]
    clear hn hg hv
    induction specs with
    | nil => cases hs
    | cons a specs ih =>
      rw [List.map_cons, List.nodup_cons] at hnames
      rw [List.find?_cons]
      rcases List.mem_cons.mp hs with rfl | hs
      · simp
      · have : a.name ≠ s.name := fun e => hnames.1 (e ▸ List.mem_map_of_mem hs)
        simp only [this, decide_false]
        exact ih hnames.2 hs
  unfold storeArg
  rw [hfind]
  cases p <;> simp [optionGroup, Spec.Given.values, Spec.Given.name] at * <;> simp [hv, hn]

theorem mapM_some {α β : Type} {f : α → Option β} {g : α → β} {l : List α} (h : ∀ a ∈ l, f a = some (g a)) : l.mapM f = some (l.map g) := by
  induction l with
  | nil => rfl
  | cons a l ih =>
    rw [List.mapM_cons, h a List.mem_cons_self, ih fun b hb => h b (List.mem_cons_of_mem _ hb)]
    rfl

/-- The last stored value, when all values of an option are the same. -/
theorem final_given {stored : List (Text × ArgValue)} {value : Text → ArgValue} (h : ∀ p ∈ stored, p.2 = value p.1) (s : ArgSpec)
    (hreq : s.required = true → s.name ∈ stored.map Prod.fst) :
    finalArg stored s = some (s.name, if s.name ∈ stored.map Prod.fst then value s.name else s.default) := by
  unfold finalArg
  cases hf : stored.reverse.find? fun p => p.1 = s.name with
  | some p =>
    have h1 := List.find?_some hf
    simp only [decide_eq_true_eq] at h1
    have hm := List.mem_reverse.mp (List.mem_of_find?_eq_some hf)
    dsimp only
    rw [if_pos (h1 ▸ List.mem_map_of_mem hm), h p hm, h1]
  | none =>
    have : s.name ∉ stored.map Prod.fst := by
      intro hm
      obtain ⟨p, hp, e⟩ := List.mem_map.mp hm
      have := List.find?_eq_none.mp hf p (List.mem_reverse.mpr hp)
      simp [e] at this
    dsimp only
    rw [if_neg this, if_neg fun hr => this (hreq hr)]

end HandEye
