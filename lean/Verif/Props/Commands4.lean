import Verif.Props.Commands

/-! # Property C93: which words `argparse` takes for values, options and abbreviations -/

namespace HandEye

open Spec

/-- A name of an option: two dashes and no equals sign. -/
def LongOption (n : Text) : Prop := "--".toList <+: n ∧ '=' ∉ n

theorem takeWhile_all {t : Text} (h : '=' ∉ t) : t.takeWhile (· ≠ '=') = t := by
  induction t with
  | nil => rfl
  | cons c t ih =>
    rw [List.mem_cons, not_or] at h
    rw [List.takeWhile_cons_of_pos (by simpa using fun e => h.1 e.symm), ih h.2]

theorem takeWhile_equals {t : Text} (h : '=' ∉ t) (v : Text) :
    (t ++ '=' :: v).takeWhile (· ≠ '=') = t ∧ (t ++ '=' :: v).dropWhile (· ≠ '=') = '=' :: v := by
  induction t with
  | nil => simp
  | cons c t ih =>
    rw [List.mem_cons, not_or] at h
    have hc : (decide (c ≠ '=')) = true := by simpa using fun e => h.1 e.symm
    rw [List.cons_append, List.takeWhile_cons_of_pos (p := fun x => decide (x ≠ '=')) hc, List.dropWhile_cons_of_pos (p := fun x => decide (x ≠ '=')) hc, (ih h.2).1, (ih h.2).2]
    exact ⟨rfl, rfl⟩

/-- A word with one dash only is a value if it is a number, whatever the options are. -/
theorem classify_dash {names : List Text} (hn : ∀ n ∈ names, LongOption n) {d : Char} (hd : d ≠ '-') {r : Text} (he : '=' ∉ '-' :: d :: r)
    (hneg : looksNegative ('-' :: d :: r) = true) : classifyArg names ('-' :: d :: r) = .value ('-' :: d :: r) := by
  have hmem : '-' :: d :: r ∉ names := by
    intro h
    obtain ⟨s, hs⟩ := (hn _ h).1
    exact hd (List.cons.inj (List.cons.inj hs).2).1.symm
  have hpre : "--".toList.isPrefixOf ('-' :: d :: r) = false := by
    rw [Bool.eq_false_iff]
    intro h
    obtain ⟨s, hs⟩ := List.isPrefixOf_iff_prefix.mp h
    exact hd (List.cons.inj (List.cons.inj hs).2).1.symm
  rw [classifyArg, if_neg (by simp), if_neg hmem, if_neg (by simp)]
  dsimp only
  rw [takeWhile_all he, if_neg hmem, hpre]
  simp only [Bool.false_eq_true, if_false, abbreviation, hneg, Bool.true_or, if_true]

/-- C93 for `argparse`: negative numbers, whole or with a point, and a single dash are values. -/
theorem C93_negative (names : List Text) (hn : ∀ n ∈ names, LongOption n) :
    (∀ n : ℤ, n < 0 → classifyArg names (decimalInt n) = .value (decimalInt n)) ∧
    (∀ a b : List ℕ, (∀ d ∈ a ++ b, d < 10) → b ≠ [] →
      classifyArg names ('-' :: (a.map digitChar ++ '.' :: b.map digitChar)) = .value ('-' :: (a.map digitChar ++ '.' :: b.map digitChar))) ∧
    classifyArg names ['-'] = .value ['-'] := by
  have hdig : ∀ d < 10, (digitChar d).isDigit = true ∧ digitChar d ≠ '-' ∧ digitChar d ≠ '=' ∧ digitChar d ≠ '.' := by decide
  refine ⟨?_, ?_, ?_⟩
  · intro n hn0
    rw [decimalInt, if_pos hn0]
    have hall := decimal_digits n.natAbs
    have hne := decimal_ne_nil n.natAbs
    revert hall hne
    generalize decimal n.natAbs = t
    intro hall hne
    cases t with
    | nil => exact absurd rfl hne
    | cons c r =>
      refine classify_dash hn ?_ ?_ ?_
      · obtain ⟨d, hd, rfl⟩ := hall c List.mem_cons_self
        exact (hdig d hd).2.1
      · intro h
        rcases List.mem_cons.mp h with h | h
        · exact absurd h (by decide)
        · obtain ⟨d, hd, h⟩ := hall _ h
          exact (hdig d hd).2.2.1 h.symm
      · have : (c :: r).all Char.isDigit = true := by
          rw [List.all_eq_true]
          intro x hx
          obtain ⟨d, hd, rfl⟩ := hall x hx
          exact (hdig d hd).1
        simp [looksNegative, this]
  · intro a b hab hb
    have ha : ∀ d ∈ a, d < 10 := fun d h => hab d (List.mem_append_left _ h)
    have hb' : ∀ d ∈ b, d < 10 := fun d h => hab d (List.mem_append_right _ h)
    have hneg : looksNegative ('-' :: (a.map digitChar ++ '.' :: b.map digitChar)) = true := by
      have e : (a.map digitChar ++ '.' :: b.map digitChar).dropWhile Char.isDigit = '.' :: b.map digitChar := by
        rw [List.dropWhile_append_of_pos]
        · rfl
        · intro x hx
          obtain ⟨d, hd, rfl⟩ := List.mem_map.mp hx
          exact (hdig d (ha d hd)).1
      have e2 : (b.map digitChar).all Char.isDigit = true := by
        rw [List.all_eq_true]
        intro x hx
        obtain ⟨d, hd, rfl⟩ := List.mem_map.mp hx
        exact (hdig d (hb' d hd)).1
      simp only [looksNegative]
      rw [e]
      simp only [List.head?_cons, List.tail_cons, e2]
      simp [hb]
    have heq : '=' ∉ '-' :: (a.map digitChar ++ '.' :: b.map digitChar) := by
      intro h
      rcases List.mem_cons.mp h with h | h
      · exact absurd h (by decide)
      · rcases List.mem_append.mp h with h | h
        · obtain ⟨d, hd, h⟩ := List.mem_map.mp h
          exact (hdig d (ha d hd)).2.2.1 h
        · rcases List.mem_cons.mp h with h | h
          · exact absurd h (by decide)
          · obtain ⟨d, hd, h⟩ := List.mem_map.mp h
            exact (hdig d (hb' d hd)).2.2.1 h
    cases a with
    | nil => exact classify_dash hn (by decide) heq hneg
    | cons d a => exact classify_dash hn (hdig d (ha d List.mem_cons_self)).2.1 heq hneg
  · have hmem : (['-'] : Text) ∉ names := by
      intro h
      obtain ⟨s, hs⟩ := (hn _ h).1
      exact absurd (congrArg List.length hs) (by simp)
    rw [classifyArg, if_neg (by simp), if_neg hmem, if_pos rfl]

/-- C93 for `argparse`: the beginning of one option is this option, with or without a value after an equals sign; the beginning of several options is an
error, and so is a word with two dashes that is the beginning of none, unless there is a blank in it. -/
theorem C93_abbreviations (names : List Text) (hnd : names.Nodup) (hn : ∀ n ∈ names, LongOption n) (r : Text) (he : '=' ∉ r)
    (hr : "--".toList ++ r ∉ names) :
    (∀ m ∈ names, "--".toList ++ r <+: m → (∀ k ∈ names, "--".toList ++ r <+: k → k = m) →
      classifyArg names ("--".toList ++ r) = .option m none ∧ ∀ v, classifyArg names ("--".toList ++ r ++ '=' :: v) = .option m (some v)) ∧
    (∀ m ∈ names, ∀ k ∈ names, m ≠ k → "--".toList ++ r <+: m → "--".toList ++ r <+: k → classifyArg names ("--".toList ++ r) = .bad ∧
      ∀ v, classifyArg names ("--".toList ++ r ++ '=' :: v) = .bad) ∧
    ((∀ m ∈ names, ¬ "--".toList ++ r <+: m) →
      classifyArg names ("--".toList ++ r) = if ' ' ∈ r then .value ("--".toList ++ r) else .bad) := by
  have he' : '=' ∉ "--".toList ++ r := by
    intro h
    rcases List.mem_append.mp h with h | h
    · exact absurd h (by decide)
    · exact he h
  have hpre : ∀ s, "--".toList.isPrefixOf ("--".toList ++ r ++ s) = true := fun s =>
    List.isPrefixOf_iff_prefix.mpr ⟨r ++ s, by rw [List.append_assoc]⟩
  have hpre0 : "--".toList.isPrefixOf ("--".toList ++ r) = true := by simp
  have h1 : classifyArg names ("--".toList ++ r) =
      abbreviation ("--".toList ++ r) none (names.filter ("--".toList ++ r).isPrefixOf) := by
    have hc : ("--".toList ++ r).contains '=' = false := by
      rw [Bool.eq_false_iff]
      intro h
      exact he' (List.contains_iff_mem.mp h)
    rw [classifyArg, if_neg (by simp), if_neg hr, if_neg (fun e => absurd (congrArg List.length e) (by simp))]
    dsimp only
    rw [takeWhile_all he', if_neg hr, hc, if_neg (by simp), if_pos hpre0]
  have h2 : ∀ v, classifyArg names ("--".toList ++ r ++ '=' :: v) =
      abbreviation ("--".toList ++ r ++ '=' :: v) (some v) (names.filter ("--".toList ++ r).isPrefixOf) := by
    intro v
    have hm : "--".toList ++ r ++ '=' :: v ∉ names := fun h => (hn _ h).2 (by simp)
    rw [classifyArg, if_neg (by simp), if_neg hm, if_neg (fun e => absurd (congrArg List.length e) (by simp))]
    dsimp only
    rw [(takeWhile_equals he' v).1, (takeWhile_equals he' v).2, if_neg hr, if_pos (by simp), if_pos (hpre _)]
    rfl
  have hmem : ∀ k, k ∈ names.filter ("--".toList ++ r).isPrefixOf ↔ k ∈ names ∧ "--".toList ++ r <+: k := by
    intro k
    rw [List.mem_filter, List.isPrefixOf_iff_prefix]
  have hfnd : (names.filter ("--".toList ++ r).isPrefixOf).Nodup := hnd.filter _
  rw [h1]
  simp only [h2]
  revert hmem hfnd
  generalize names.filter ("--".toList ++ r).isPrefixOf = l
  intro hmem hfnd
  refine ⟨?_, ?_, ?_⟩
  · intro m hm hmp huniq
    have : l = [m] := by
      match l, hmem, hfnd with
      | [], hmem, _ => exact absurd ((hmem m).mpr ⟨hm, hmp⟩) (by simp)
      | [a], hmem, _ =>
        have := (hmem a).mp (by simp)
        rw [huniq a this.1 this.2]
      | a :: b :: l, hmem, hfnd =>
        have ha := (hmem a).mp (by simp)
        have hb := (hmem b).mp (by simp)
        have : a = b := (huniq a ha.1 ha.2).trans (huniq b hb.1 hb.2).symm
        subst this
        simp at hfnd
    rw [this]
    exact ⟨rfl, fun v => rfl⟩
  · intro m hm k hk hne hmp hkp
    have hml := (hmem m).mpr ⟨hm, hmp⟩
    have hkl := (hmem k).mpr ⟨hk, hkp⟩
    match l, hml, hkl with
    | [], hml, _ => exact absurd hml (by simp)
    | [a], hml, hkl =>
      rw [List.mem_singleton] at hml hkl
      exact absurd (hml.trans hkl.symm) hne
    | a :: b :: l, _, _ => exact ⟨rfl, fun v => rfl⟩
  · intro hnone
    have : l = [] := by
      rw [List.eq_nil_iff_forall_not_mem]
      intro k hk
      exact hnone k ((hmem k).mp hk).1 ((hmem k).mp hk).2
    rw [this]
    have hl : looksNegative ("--".toList ++ r) = false := by
      show looksNegative ('-' :: '-' :: r) = false
      simp [looksNegative]
    have hsp : ("--".toList ++ r).contains ' ' = decide (' ' ∈ r) := by
      simp [List.contains_eq_mem]
    rw [abbreviation, hl, hsp]
    by_cases h : ' ' ∈ r <;> simp [h]

/-- `--time` is enough for the time offset, `--aligned` is not enough for a file. -/
example : classifyArg ("--help".toList :: calibrateSpecs.map ArgSpec.name) "--time".toList = .option "--time_offset_input_csv_file".toList none ∧
    classifyArg ("--help".toList :: calibrateSpecs.map ArgSpec.name) "--aligned".toList = .bad ∧
    classifyArg ("--help".toList :: calibrateSpecs.map ArgSpec.name) "-10".toList = .value "-10".toList := by decide

end HandEye
