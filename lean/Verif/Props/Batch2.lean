import Verif.Props.Batch
import Verif.Spec.Commands
import Verif.Lemmas.Commands

/-! # Property C87: numbers with exponents, and lines with other numbers of cells -/

namespace HandEye

theorem digitChar_facts : ∀ d < 10, (Spec.digitChar d).isDigit = true ∧ (Spec.digitChar d).toNat - 48 = d ∧
    Spec.digitChar d ≠ ' ' ∧ Spec.digitChar d ≠ '\t' ∧ Spec.digitChar d ≠ '\r' ∧ Spec.digitChar d ≠ '-' ∧ Spec.digitChar d ≠ '+' := by
  decide

theorem digits_isDigit {l : List ℕ} (h : ∀ d ∈ l, d < 10) : ∀ c ∈ l.map Spec.digitChar, c.isDigit = true := by
  intro c hc
  obtain ⟨d, hd, rfl⟩ := List.mem_map.mp hc
  exact (digitChar_facts d (h d hd)).1

theorem digitsValue_number {l : List ℕ} (h : ∀ d ∈ l, d < 10) : digitsValue (l.map Spec.digitChar) = Spec.digitsNumber l := by
  unfold digitsValue Spec.digitsNumber
  rw [List.foldl_map]
  have : ∀ (l : List ℕ) (n : ℕ), (∀ d ∈ l, d < 10) →
      l.foldl (fun n d => 10 * n + ((Spec.digitChar d).toNat - 48)) n = l.foldl (fun n d => 10 * n + d) n := by
    intro l
    induction l with
    | nil => intros; rfl
    | cons d l ih =>
      intro n h
      rw [List.foldl_cons, List.foldl_cons, (digitChar_facts d (h d List.mem_cons_self)).2.1, ih _ fun e he => h e (List.mem_cons_of_mem _ he)]
  exact this l 0 h

theorem takeWhile_digits {l : List ℕ} (h : ∀ d ∈ l, d < 10) (r : List Char) (hr : ∀ c, r.head? = some c → c.isDigit = false) :
    (l.map Spec.digitChar ++ r).takeWhile Char.isDigit = l.map Spec.digitChar ∧
      (l.map Spec.digitChar ++ r).dropWhile Char.isDigit = r := by
  rw [List.takeWhile_append_of_pos (digits_isDigit h), List.dropWhile_append_of_pos (digits_isDigit h)]
  cases r with
  | nil => simp
  | cons c r =>
    have : ¬ c.isDigit = true := by rw [hr c rfl]; simp
    rw [List.takeWhile_cons_of_neg this, List.dropWhile_cons_of_neg this, List.append_nil]
    exact ⟨rfl, rfl⟩

/-- The exponent. -/
theorem leadingExponent_digits {es : List ℕ} (he : ∀ d ∈ es, d < 10) (down : Bool) :
    leadingExponent ('e' :: (if down then '-' else '+') :: es.map Spec.digitChar) =
      if down then -(Spec.digitsNumber es : ℤ) else Spec.digitsNumber es := by
  have h := (takeWhile_digits he [] (by simp)).1
  rw [List.append_nil] at h
  unfold leadingExponent
  cases down
  · simp only [Bool.false_eq_true, ↓reduceIte, true_or, h, digitsValue_number he]
  · simp only [↓reduceIte, true_or, h, digitsValue_number he]

theorem leadingUnsigned_scientific {ws fs es : List ℕ} (hw : ∀ d ∈ ws, d < 10) (hf : ∀ d ∈ fs, d < 10) (he : ∀ d ∈ es, d < 10)
    (hne : ws ≠ []) (down : Bool) :
    leadingUnsigned (ws.map Spec.digitChar ++ '.' :: (fs.map Spec.digitChar ++ 'e' :: (if down then '-' else '+') :: es.map Spec.digitChar)) =
      .ok ((Spec.digitsNumber ws + Spec.digitsNumber fs / 10 ^ fs.length) *
        (10 : ℝ) ^ (if down then -(Spec.digitsNumber es : ℤ) else Spec.digitsNumber es)) := by
  obtain ⟨h1, h2⟩ := takeWhile_digits hw ('.' :: (fs.map Spec.digitChar ++ 'e' :: (if down then '-' else '+') :: es.map Spec.digitChar)) (by
    intro c hc
    obtain rfl : '.' = c := by simpa using hc
    decide)
  obtain ⟨h3, h4⟩ := takeWhile_digits hf ('e' :: (if down then '-' else '+') :: es.map Spec.digitChar) (by
    intro c hc
    obtain rfl : 'e' = c := by simpa using hc
    decide)
  unfold leadingUnsigned
  dsimp only
  rw [h1, h2, List.head?_cons, if_pos rfl, if_pos rfl, List.tail_cons, h3, h4, if_neg fun h => hne (by simpa using h.1),
    leadingExponent_digits he, digitsValue_number hw, digitsValue_number hf, List.length_map]

/-- C87 for numbers with exponents: `std::stod` gives the number that they denote. -/
theorem C87_scientific {ws fs es : List ℕ} (hw : ∀ d ∈ ws, d < 10) (hf : ∀ d ∈ fs, d < 10) (he : ∀ d ∈ es, d < 10)
    (hne : ws ≠ []) (neg down : Bool) :
    stod ((if neg then ['-'] else []) ++
        (ws.map Spec.digitChar ++ '.' :: (fs.map Spec.digitChar ++ 'e' :: (if down then '-' else '+') :: es.map Spec.digitChar))) =
      .ok ((if neg then -1 else 1) * ((Spec.digitsNumber ws + Spec.digitsNumber fs / 10 ^ fs.length) *
        (10 : ℝ) ^ (if down then -(Spec.digitsNumber es : ℤ) else Spec.digitsNumber es))) := by
  have h := leadingUnsigned_scientific hw hf he hne down
  unfold stod
  cases neg
  · obtain ⟨d, ws, rfl⟩ := List.exists_cons_of_ne_nil hne
    have hd := digitChar_facts d (hw d List.mem_cons_self)
    rw [if_neg Bool.false_ne_true, List.nil_append]
    rw [List.map_cons, List.cons_append] at h ⊢
    rw [List.dropWhile_cons_of_neg (by simp [hd.2.2.1, hd.2.2.2.1, hd.2.2.2.2.1])]
    rw [if_neg Bool.false_ne_true, one_mul]
    split
    · rename_i r hr
      exact absurd (List.cons.inj hr).1 hd.2.2.2.2.2.1
    · rename_i r hr
      exact absurd (List.cons.inj hr).1 hd.2.2.2.2.2.2
    · exact h
  · rw [if_pos rfl, List.singleton_append, List.dropWhile_cons_of_neg (by decide)]
    change (do let x ← leadingUnsigned _; pure (-x)) = _
    rw [h, Py.ok_bind, if_pos rfl, neg_one_mul]
    rfl

/-- `-1.25e-3`. -/
example : stod "-1.25e-3".toList = .ok (-0.00125) := by
  have := C87_scientific (ws := [1]) (fs := [2, 5]) (es := [3]) (by decide) (by decide) (by decide) (by decide) true true
  rw [show "-1.25e-3".toList = (if true then ['-'] else []) ++
        ([1].map Spec.digitChar ++ '.' :: ([2, 5].map Spec.digitChar ++ 'e' :: (if true then '-' else '+') :: [3].map Spec.digitChar)) by decide,
    this]
  norm_num [Spec.digitsNumber]

theorem addMeasurement_cells (use_jpl : Bool) {r : List ℝ} (h1 : r.length ≠ 1) (h8 : r.length ≠ 8) :
    addMeasurement use_jpl r = .error .assertion := by
  unfold addMeasurement
  split
  · exact absurd rfl h1
  · exact absurd rfl h8
  · rfl

open Spec in
/-- C87 for the lines: a line with neither one nor eight cells ends the batch estimator, if the lines before it are poses. -/
theorem C87_cells (use_jpl : Bool) (T : List StampedPose) (h : ∀ p ∈ T, |1 - quatLength p.pose.q| ≤ 1e-8 - 1e-18)
    (r : List ℝ) (more : List (List ℝ)) (hr : r ≠ []) (hm : ∀ s ∈ more, s ≠ []) (h1 : r.length ≠ 1) (h8 : r.length ≠ 8) :
    readPosesFromCsv use_jpl (writeTable (T.map StampedPose.toRow ++ r :: more)) = .error .assertion := by
  have hT : ∀ s ∈ T.map StampedPose.toRow, s ≠ [] := by
    intro s hs
    obtain ⟨p, -, rfl⟩ := List.mem_map.mp hs
    exact List.cons_ne_nil _ _
  obtain ⟨M, h2, -⟩ := C87_reads_tables_partial use_jpl T h
  rw [readPoses_write _ _ hT] at h2
  rw [readPoses_write, List.mapM_append, h2, Py.ok_bind, Py.mapM_cons, addMeasurement_cells use_jpl (by rwa [List.length_map]) (by rwa [List.length_map])]
  · rfl
  · intro s hs
    rcases List.mem_append.mp hs with hs | hs
    · exact hT s hs
    · rcases List.mem_cons.mp hs with rfl | hs
      · exact hr
      · exact hm s hs

/-- A line without the quaternion. -/
example : readPosesFromCsv true (writeTable [[1, 2, 3, 4]]) = .error .assertion :=
  C87_cells true [] (by simp) [1, 2, 3, 4] [] (by simp) (by simp) (by simp) (by simp)

end HandEye
