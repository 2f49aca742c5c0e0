import Verif.Spec.Batch
import Verif.Lemmas.Csv
import Verif.Lemmas.Motion

/-!
# Lemmas about the files of the batch estimator
-/

namespace HandEye

theorem leadingUnsigned_text (n f : ℕ) (hf : f < 10 ^ 18) :
    leadingUnsigned (natText n ++ '.' :: fixedText 18 f) = .ok (n + f / 10 ^ 18) := by
  have h1 : (natText n ++ '.' :: fixedText 18 f).takeWhile Char.isDigit = natText n := by
    rw [List.takeWhile_append_of_pos (natText_digits n)]
    rw [List.takeWhile_cons_of_neg (by decide), List.append_nil]
  have h2 : (natText n ++ '.' :: fixedText 18 f).dropWhile Char.isDigit = '.' :: fixedText 18 f := by
    rw [List.dropWhile_append_of_pos (natText_digits n)]
    rw [List.dropWhile_cons_of_neg (by decide)]
  have h3 : (fixedText 18 f).takeWhile Char.isDigit = fixedText 18 f := by
    have := List.takeWhile_append_of_pos (l₂ := []) (fixedText_digits 18 f)
    simpa using this
  have h4 : (fixedText 18 f).dropWhile Char.isDigit = [] := by
    have := List.dropWhile_append_of_pos (l₂ := []) (fixedText_digits 18 f)
    simpa using this
  unfold leadingUnsigned
  dsimp only
  rw [h1, h2, List.head?_cons, if_pos rfl, if_pos rfl, List.tail_cons, h3, h4,
    if_neg fun h => natText_ne_nil n h.1, fixedText_length]
  have e1 : digitsValue (natText n) = n := natText_value n
  have e2 : digitsValue (fixedText 18 f) = f := (fixedText_value 18 f).trans (Nat.mod_eq_of_lt hf)
  rw [e1, e2]
  simp [leadingExponent]

/-- `std::stod` of what was printed gives the rounded number, also with a space in front. -/
theorem stod_format (x : ℝ) : stod (formatF18 x) = .ok (rounded18 x) ∧ stod (' ' :: formatF18 x) = .ok (rounded18 x) := by
  have hd : ∀ (n : ℕ) (l : List Char), ∃ c l', natText n ++ l = c :: l' ∧ c.isDigit = true := by
    intro n l
    cases hn : natText n with
    | nil => exact absurd hn (natText_ne_nil n)
    | cons a t => exact ⟨a, t ++ l, rfl, natText_digits n a (by rw [hn]; exact List.mem_cons_self)⟩
  have key : ∀ s : List Char, s.dropWhile (fun c => c = ' ' ∨ c = '\t' ∨ c = '\r') = formatF18 x →
      stod s = .ok (rounded18 x) := by
    intro s hs
    unfold stod
    rw [hs]
    unfold formatF18 rounded18
    generalize roundHalfEven (|x| * 10 ^ 18) = m
    have hm : ((m / 10 ^ 18 : ℕ) : ℝ) + ((m % 10 ^ 18 : ℕ) : ℝ) / 10 ^ 18 = (m : ℝ) / 10 ^ 18 := by
      have := Nat.div_add_mod m (10 ^ 18)
      have h : ((10 ^ 18 * (m / 10 ^ 18) + m % 10 ^ 18 : ℕ) : ℝ) = m := by rw [this]
      rw [← h]
      push_cast
      field_simp
      norm_num
    have hp := leadingUnsigned_text (m / 10 ^ 18) (m % 10 ^ 18) (Nat.mod_lt _ (by positivity))
    rw [hm] at hp
    by_cases hx : x < 0
    · rw [if_pos hx, if_pos hx, List.singleton_append]
      change (do let x ← leadingUnsigned _; pure (-x)) = _
      rw [hp]
      rfl
    · rw [if_neg hx, if_neg hx, List.nil_append]
      obtain ⟨c, l', hc, hdig⟩ := hd (m / 10 ^ 18) ('.' :: fixedText 18 (m % 10 ^ 18))
      rw [hc] at hp ⊢
      split
      · rename_i r hr
        rw [(List.cons.inj hr).1] at hdig
        exact absurd hdig (by decide)
      · rename_i r hr
        rw [(List.cons.inj hr).1] at hdig
        exact absurd hdig (by decide)
      · exact hp
  have h0 : (formatF18 x).dropWhile (fun c => c = ' ' ∨ c = '\t' ∨ c = '\r') = formatF18 x := by
    unfold formatF18
    by_cases hx : x < 0
    · rw [if_pos hx, List.singleton_append, List.dropWhile_cons_of_neg (by decide)]
    · rw [if_neg hx, List.nil_append]
      generalize roundHalfEven (|x| * 10 ^ 18) = m
      obtain ⟨c, l', hc, hdig⟩ := hd (m / 10 ^ 18) ('.' :: fixedText 18 (m % 10 ^ 18))
      rw [hc, List.dropWhile_cons_of_neg]
      rintro h
      rw [decide_eq_true_eq] at h
      rcases h with h | h | h <;> rw [h] at hdig <;> revert hdig <;> decide
  exact ⟨key _ h0, key _ (by rw [List.dropWhile_cons_of_pos (by decide), h0])⟩

/-- The cells of a written line. -/
theorem cells_rowText (pre : List Char) (hp : ∀ c ∈ pre, c ≠ ',') (x : ℝ) (l : List ℝ) :
    splitChar ',' (pre ++ rowText (x :: l)) = (pre ++ formatF18 x) :: l.map fun y => ' ' :: formatF18 y := by
  induction l generalizing pre x with
  | nil =>
    rw [rowText, List.map_nil, splitChar_none]
    intro c hc
    rcases List.mem_append.mp hc with h | h
    · exact hp c h
    · exact (formatF18_chars x c h).2.1
  | cons y l ih =>
    rw [rowText, ← List.append_assoc, splitChar_append]
    · have := ih [' '] (by decide) y
      rw [List.singleton_append] at this
      rw [this, List.map_cons]
      rfl
    · intro c hc
      rcases List.mem_append.mp hc with h | h
      · exact hp c h
      · exact (formatF18_chars x c h).2.1

theorem formatF18_ne_nil (x : ℝ) : formatF18 x ≠ [] := by
  unfold formatF18
  simp

theorem getlines_row (r : List ℝ) (h : r ≠ []) : (getlines ',' (rowText r)).mapM stod = .ok (r.map rounded18) := by
  cases r with
  | nil => exact absurd rfl h
  | cons x l =>
    have hc := cells_rowText [] (fun c hc => by cases hc) x l
    rw [List.nil_append, List.nil_append] at hc
    have hl : (splitChar ',' (rowText (x :: l))).getLast? ≠ some [] := by
      rw [hc]
      intro h
      have := List.mem_of_getLast? h
      rcases List.mem_cons.mp this with h | h
      · exact formatF18_ne_nil x h.symm
      · obtain ⟨y, -, hy⟩ := List.mem_map.mp h
        cases hy
    unfold getlines
    rw [if_neg hl, hc, Py.mapM_cons, (stod_format x).1, Py.ok_bind, List.mapM_map]
    have : l.mapM ((fun y => stod (' ' :: formatF18 y))) = .ok (l.map rounded18) :=
      Py.mapM_ok fun y _ => (stod_format y).2
    rw [show (stod ∘ fun y => ' ' :: formatF18 y) = fun y => stod (' ' :: formatF18 y) from rfl, this, Py.ok_bind]
    rfl

theorem getlines_write (rows : List (List ℝ)) : getlines '\n' (writeTable rows) = rows.map rowText := by
  unfold getlines
  rw [splitLines]
  simp

/-- Reading what was written. -/
theorem readPoses_write (use_jpl : Bool) (rows : List (List ℝ)) (h : ∀ r ∈ rows, r ≠ []) :
    readPosesFromCsv use_jpl (writeTable rows) = (rows.mapM fun r => addMeasurement use_jpl (r.map rounded18)) := by
  unfold readPosesFromCsv
  rw [getlines_write, List.mapM_map]
  induction rows with
  | nil => rfl
  | cons r rows ih =>
    rw [Py.mapM_cons, Py.mapM_cons, ih fun r hr => h r (List.mem_cons_of_mem _ hr)]
    dsimp only [Function.comp]
    rw [getlines_row r (h r List.mem_cons_self), Py.ok_bind]

/-- The row with its values rounded. -/
noncomputable def roundedPose (p : StampedPose) : StampedPose :=
  ⟨rounded18 p.t, ⟨⟨rounded18 p.pose.pos.x, rounded18 p.pose.pos.y, rounded18 p.pose.pos.z⟩,
    ⟨rounded18 p.pose.q.x, rounded18 p.pose.q.y, rounded18 p.pose.q.z, rounded18 p.pose.q.w⟩⟩⟩

theorem quatLength_eq (q : Quat) : Spec.quatLength q = q.norm := by
  unfold Spec.quatLength Quat.norm
  congr 1
  rw [Quat.dot]; ring

theorem quat_norm_toH (q : Quat) : ‖q.toH‖ = q.norm := by
  have h : Quaternion.normSq q.toH = ‖q.toH‖ * ‖q.toH‖ := Quaternion.normSq_eq_norm_mul_self _
  rw [Quat.normSq_toH] at h
  unfold Quat.norm
  rw [h, Real.sqrt_mul_self (norm_nonneg _)]

/-- Rounding changes the length of a quaternion little. -/
theorem rounded_norm {a b : Quat} (h : Spec.CloseQuat a b) : |a.norm - b.norm| ≤ 1e-18 := by
  obtain ⟨h1, h2, h3, h4⟩ := h
  rw [← quat_norm_toH, ← quat_norm_toH]
  refine (abs_norm_sub_norm_le _ _).trans ?_
  rw [← Quat.toH_sub, quat_norm_toH]
  unfold Quat.norm
  rw [show (1e-18 : ℝ) = Real.sqrt (1e-18 ^ 2) by rw [Real.sqrt_sq (by norm_num)]]
  apply Real.sqrt_le_sqrt
  have sq : ∀ {x y : ℝ}, Spec.Close18 x y → (x - y) ^ 2 ≤ (1 / 2 * 1e-18) ^ 2 := by
    intro x y h
    rw [← sq_abs]
    exact pow_le_pow_left₀ (abs_nonneg _) h 2
  have := sq h1; have := sq h2; have := sq h3; have := sq h4
  rw [Quat.dot]
  simp only [Quat.sub_x, Quat.sub_y, Quat.sub_z, Quat.sub_w]
  nlinarith

theorem close18_rounded (x : ℝ) : Spec.Close18 x (rounded18 x) := by
  unfold Spec.Close18
  rw [abs_sub_comm]
  exact rounded18_close x

theorem closeQuat_rounded (p : StampedPose) : Spec.CloseQuat p.pose.q (roundedPose p).pose.q :=
  ⟨close18_rounded _, close18_rounded _, close18_rounded _, close18_rounded _⟩

theorem closeQuat_mirrored {a b : Quat} (h : Spec.CloseQuat a b) : Spec.CloseQuat (Spec.mirrored a) (Spec.mirrored b) := by
  obtain ⟨h1, h2, h3, h4⟩ := h
  have neg : ∀ {x y : ℝ}, Spec.Close18 x y → Spec.Close18 (-x) (-y) := by
    intro x y h
    unfold Spec.Close18 at *
    rwa [neg_sub_neg, abs_sub_comm]
  exact ⟨neg h1, neg h2, neg h3, h4⟩

theorem norm_internal (b : Bool) (q : Quat) : (toInternalQuaternionConvention b q).norm = q.norm := by
  cases b
  · simp [toInternalQuaternionConvention, quatInv, Quat.norm, Quat.dot]
  · rfl

theorem addMeasurement_row (use_jpl : Bool) (p : StampedPose) :
    addMeasurement use_jpl (p.toRow.map rounded18) = (do
      pyAssert (|1 - (roundedPose p).pose.q.norm| ≤ 1e-8)
      return PoseMeasurement.pose ⟨(roundedPose p).t, ⟨(roundedPose p).pose.pos,
        toInternalQuaternionConvention use_jpl (roundedPose p).pose.q⟩⟩) := by
  unfold StampedPose.toRow addMeasurement
  dsimp only [List.map]
  rw [norm_internal]
  rfl

end HandEye
