import Verif.Props.TfExport

/-!
# C66: the warnings of the tf export

A stream at a constant rate gives none, a single missing sample gives exactly one.
-/

namespace HandEye

open Spec

/-- A successful lookup after the first one. -/
theorem exportTf_success {lookup : ℝ → Option Pose} {t q t0 e : ℝ} {c : ℕ} {rows : List StampedPose} {W : List ℝ}
    (hl : lookup t ≠ none) (ht : t0 < t) : ∃ rows', exportTf lookup ⟨false, c, t0, e, some q, rows, W⟩ t =
      .ok ⟨false, c + 1, t0, t, some t, rows',
        if 3 < c + 1 ∧ 1e-8 ≤ t - q ∧ (t - t0) / (c + 1) / 2 < |(t - t0) / (c + 1) - (t - q)| then W ++ [t - t0] else W⟩ := by
  obtain ⟨p, hp⟩ := Option.ne_none_iff_exists'.mp hl
  refine ⟨rows ++ [⟨t, p⟩], ?_⟩
  rw [exportTf, hp]
  have hd : 0 < t - t0 := sub_pos.mpr ht
  have hn : (0 : ℝ) < (c : ℝ) + 1 := by positivity
  have hw : dropWarns ⟨false, c + 1, t0, t, some q, rows ++ [⟨t, p⟩], W⟩ t =
      .ok (decide (3 < c + 1 ∧ 1e-8 ≤ t - q ∧ (t - t0) / (c + 1) / 2 < |(t - t0) / (c + 1) - (t - q)|)) := by
    unfold dropWarns
    dsimp only
    by_cases h3 : c + 1 > 3
    · rw [if_pos h3, floatDiv, if_neg hd.ne', Py.ok_bind, floatDiv, if_neg (by push_cast; positivity), Py.ok_bind]
      have he : 1 / (((c + 1 : ℕ) : ℝ) / (t - t0)) = (t - t0) / (c + 1) := by push_cast; rw [one_div_div]
      rw [he]
      have hpos : 0 < (t - t0) / (c + 1) := by positivity
      simp only [intervalWarns]
      by_cases hm : t - q < 1e-8
      · rw [if_pos hm]
        congr 1
        symm
        rw [decide_eq_false_iff_not]
        rintro ⟨_, h, _⟩
        exact absurd hm (not_lt.mpr h)
      · rw [if_neg hm, floatDiv, if_neg hpos.ne', Py.ok_bind, Py.pure_eq]
        congr 1
        rw [decide_eq_decide]
        have : |(t - t0) / (c + 1) - (t - q)| / ((t - t0) / (c + 1)) * 100 > 50 ↔
            (t - t0) / (c + 1) / 2 < |(t - t0) / (c + 1) - (t - q)| := by
          rw [gt_iff_lt, div_mul_eq_mul_div, lt_div_iff₀ hpos]
          constructor <;> intro h <;> linarith
        rw [this]
        exact ⟨fun h => ⟨h3, not_lt.mp hm, h⟩, fun h => h.2.2⟩
    · rw [if_neg h3]
      congr 1
      symm
      rw [decide_eq_false_iff_not]
      exact fun h => h3 h.1
  simp only [Bool.false_eq_true, if_false, checkDrop, hw, Py.ok_bind, Py.pure_eq, decide_eq_true_eq]

/-- The first successful lookup. -/
theorem exportTf_first {lookup : ℝ → Option Pose} {t : ℝ} (hl : lookup t ≠ none) :
    ∃ rows, exportTf lookup {} t = .ok ⟨false, 1, t, t, some t, rows, []⟩ := by
  obtain ⟨p, hp⟩ := Option.ne_none_iff_exists'.mp hl
  refine ⟨[⟨t, p⟩], ?_⟩
  rw [exportTf, hp]
  rfl

/-- The stamps with numbers `k`, ..., `k + n - 1` of a stream with period `d`. -/
noncomputable def ticks (t0 d : ℝ) (k n : ℕ) : List ℝ := (List.range' k n).map fun i : ℕ => t0 + (i : ℝ) * d

theorem exportLoop_regular {lookup : ℝ → Option Pose} {t0 d : ℝ} (hd : 0 < d) (n k g : ℕ) (hk : 0 < k)
    (hg : g = 0 ∨ g = 1) (hl : ∀ i, k + g ≤ i → i < k + g + n → lookup (t0 + i * d) ≠ none)
    (e : ℝ) (rows : List StampedPose) (W : List ℝ) :
    ∃ e' rows', exportLoop lookup (ticks t0 d (k + g) n)
        ⟨false, k, t0, e, some (t0 + ((k + g : ℕ) - 1 : ℝ) * d), rows, W⟩ =
      .ok ⟨false, k + n, t0, e', some (t0 + ((k + g + n : ℕ) - 1 : ℝ) * d), rows', W⟩ ∧
      (n = 0 ∧ e' = e ∨ t0 < e') := by
  induction n generalizing k e rows with
  | zero => exact ⟨e, rows, rfl, Or.inl ⟨rfl, rfl⟩⟩
  | succ n ih =>
    have hkR : (0 : ℝ) < k := by exact_mod_cast hk
    have hpos : t0 < t0 + ((k + g : ℕ) : ℝ) * d := by
      have : (0 : ℝ) < ((k + g : ℕ) : ℝ) * d := by positivity
      linarith
    obtain ⟨rows', h1⟩ := exportTf_success (lookup := lookup) (q := t0 + ((k + g : ℕ) - 1 : ℝ) * d) (e := e) (c := k)
      (rows := rows) (W := W) (hl (k + g) le_rfl (by omega)) hpos
    have hno : ¬ (3 < k + 1 ∧ 1e-8 ≤ t0 + ((k + g : ℕ) : ℝ) * d - (t0 + ((k + g : ℕ) - 1 : ℝ) * d) ∧
        (t0 + ((k + g : ℕ) : ℝ) * d - t0) / (k + 1) / 2 <
          |(t0 + ((k + g : ℕ) : ℝ) * d - t0) / (k + 1) - (t0 + ((k + g : ℕ) : ℝ) * d - (t0 + ((k + g : ℕ) - 1 : ℝ) * d))|) := by
      rintro ⟨h3, _, h⟩
      have h3' : (3 : ℝ) ≤ k := by exact_mod_cast (by omega : 3 ≤ k)
      have e1 : t0 + ((k + g : ℕ) : ℝ) * d - (t0 + ((k + g : ℕ) - 1 : ℝ) * d) = d := by ring
      have e2 : t0 + ((k + g : ℕ) : ℝ) * d - t0 = ((k : ℝ) + g) * d := by push_cast; ring
      rw [e1, e2] at h
      have hk1 : (0 : ℝ) < (k : ℝ) + 1 := by positivity
      rcases hg with rfl | rfl
      · have e3 : ((k : ℝ) + (0 : ℕ)) * d / (k + 1) - d = -(d / (k + 1)) := by
          push_cast; field_simp; ring
        rw [e3, abs_neg, abs_of_pos (by positivity), div_div, div_lt_div_iff₀ (by positivity) hk1] at h
        push_cast at h
        nlinarith [mul_pos hd hk1, mul_pos hd hkR]
      · have e3 : ((k : ℝ) + (1 : ℕ)) * d / (k + 1) - d = 0 := by
          push_cast; field_simp; ring
        rw [e3, abs_zero] at h
        have : (0 : ℝ) < ((k : ℝ) + (1 : ℕ)) * d / (k + 1) / 2 := by positivity
        linarith
    rw [if_neg hno] at h1
    have hcast : t0 + ((k + g : ℕ) : ℝ) * d = t0 + ((k + 1 + g : ℕ) - 1 : ℝ) * d := by push_cast; ring
    obtain ⟨e', rows'', i1, i4⟩ := ih (k + 1) (by omega)
      (fun i hi hi' => hl i (by omega) (by omega)) (t0 + ((k + g : ℕ) : ℝ) * d) rows'
    refine ⟨e', rows'', ?_, Or.inr ?_⟩
    · unfold ticks at i1 ⊢
      rw [List.range'_succ, List.map_cons, exportLoop, h1, Py.ok_bind]
      rw [hcast, show k + g + 1 = k + 1 + g by omega, show k + (n + 1) = k + 1 + n by omega,
        show k + g + (n + 1) = k + 1 + g + n by omega]
      rw [hcast] at i1
      exact i1
    · rcases i4 with i4 | i4
      · rw [i4.2]; exact hpos
      · exact i4

theorem exportLoop_append (lookup : ℝ → Option Pose) (l m : List ℝ) (s : TfState) :
    exportLoop lookup (l ++ m) s = (exportLoop lookup l s >>= exportLoop lookup m) := by
  induction l generalizing s with
  | nil => rfl
  | cons t l ih =>
    rw [List.cons_append, exportLoop, exportLoop]
    cases exportTf lookup s t with
    | error e => rfl
    | ok s' => exact ih s'

/-- The first `k + 1` ticks. -/
theorem exportLoop_ticks {lookup : ℝ → Option Pose} {t0 d : ℝ} (hd : 0 < d) (n : ℕ)
    (hl : ∀ i < n + 1, lookup (t0 + i * d) ≠ none) :
    ∃ e rows, exportLoop lookup (ticks t0 d 0 (n + 1)) {} =
      .ok ⟨false, n + 1, t0, e, some (t0 + n * d), rows, []⟩ ∧ (n = 0 ∨ t0 < e) := by
  have h0 := hl 0 (by omega)
  obtain ⟨rows, h1⟩ := exportTf_first h0
  have e0 : t0 + ((0 : ℕ) : ℝ) * d = t0 := by simp
  obtain ⟨e, rows', i1, i2⟩ := exportLoop_regular (lookup := lookup) (t0 := t0) hd n 1 0 (by norm_num) (Or.inl rfl)
    (fun i hi hi' => hl i (by omega)) t0 rows []
  refine ⟨e, rows', ?_, i2.imp And.left id⟩
  have e1 : t0 + ((1 + 0 : ℕ) - 1 : ℝ) * d = t0 := by norm_num
  have e2 : t0 + ((1 + 0 + n : ℕ) - 1 : ℝ) * d = t0 + n * d := by push_cast; ring
  rw [e1, e2, Nat.add_comm 1 n] at i1
  unfold ticks at i1 ⊢
  rw [List.range'_succ, List.map_cons, exportLoop, h1, Py.ok_bind, e0]
  exact i1

theorem writeTransformation_of_loop {lookup : ℝ → Option Pose} {stamps : List ℝ} {s : TfState}
    (h : exportLoop lookup stamps {} = .ok s) (hs : s.tf_counter ≤ 3 ∨ s.end_time ≠ s.start_time) :
    writeTransformationToCsv lookup "hand" (simpleBag stamps) = .ok s := by
  unfold writeTransformationToCsv
  rw [lookedUp_eq, stampsOf_simpleBag, h, Py.ok_bind, finalFrequency]
  rcases hs with hs | hs
  · rw [if_neg (by omega)]; rfl
  · split_ifs
    · rw [floatDiv, if_neg (sub_ne_zero.mpr hs)]; rfl
    · rfl

/-- A stream at a constant rate, all of it looked up successfully: no warning. -/
theorem C66_regular (lookup : ℝ → Option Pose) (t0 d : ℝ) (hd : 0 < d) (n : ℕ)
    (hl : ∀ i < n, lookup (t0 + i * d) ≠ none) :
    ∃ s, writeTransformationToCsv lookup "hand" (simpleBag (ticks t0 d 0 n)) = .ok s ∧ s.warnings = [] := by
  cases n with
  | zero => exact ⟨_, writeTransformation_of_loop (by unfold ticks; rfl) (Or.inl (by norm_num)), rfl⟩
  | succ n =>
    obtain ⟨e, rows, h, he⟩ := exportLoop_ticks hd n hl
    refine ⟨_, writeTransformation_of_loop h ?_, rfl⟩
    rcases he with rfl | he
    · exact Or.inl (by norm_num)
    · exact Or.inr he.ne'

/-- The same stream with one sample missing, from the fourth on: exactly one warning, at the first sample after the gap. -/
theorem C66_one_missing (lookup : ℝ → Option Pose) (t0 d : ℝ) (hd : 1e-8 ≤ d) (m n : ℕ) (hm : 3 ≤ m)
    (hl : ∀ i < m + 2 + n, i ≠ m → lookup (t0 + i * d) ≠ none) :
    ∃ s, writeTransformationToCsv lookup "hand" (simpleBag (ticks t0 d 0 m ++ ticks t0 d (m + 1) (n + 1))) = .ok s ∧
      s.warnings = [((m : ℝ) + 1) * d] := by
  have hd0 : 0 < d := lt_of_lt_of_le (by norm_num) hd
  obtain ⟨k, rfl⟩ : ∃ k, m = k + 1 := ⟨m - 1, by omega⟩
  obtain ⟨e, rows, h, he⟩ := exportLoop_ticks (lookup := lookup) (t0 := t0) hd0 k
    (fun i hi => hl i (by omega) (by omega))
  have hpos : t0 < t0 + ((k + 1 + 1 : ℕ) : ℝ) * d := by
    have : (0 : ℝ) < ((k + 1 + 1 : ℕ) : ℝ) * d := by positivity
    linarith
  obtain ⟨rows', h1⟩ := exportTf_success (lookup := lookup) (t := t0 + ((k + 1 + 1 : ℕ) : ℝ) * d) (q := t0 + k * d)
    (e := e) (c := k + 1) (rows := rows) (W := []) (hl (k + 1 + 1) (by omega) (by omega)) hpos
  have e1 : t0 + ((k + 1 + 1 : ℕ) : ℝ) * d - (t0 + k * d) = 2 * d := by push_cast; ring
  have e2 : (t0 + ((k + 1 + 1 : ℕ) : ℝ) * d - t0) / ((k + 1 : ℕ) + 1) = d := by
    push_cast; field_simp; ring
  have e3 : t0 + ((k + 1 + 1 : ℕ) : ℝ) * d - t0 = (((k + 1 : ℕ) : ℝ) + 1) * d := by push_cast; ring
  rw [if_pos ⟨by omega, by rw [e1]; linarith, by
    rw [e2, e1, show d - 2 * d = -d by ring, abs_neg, abs_of_pos hd0]; linarith⟩, e3, List.nil_append] at h1
  obtain ⟨e', rows'', i1, i2⟩ := exportLoop_regular (lookup := lookup) (t0 := t0) hd0 n (k + 2) 1 (by omega) (Or.inr rfl)
    (fun i hi hi' => hl i (by omega) (by omega)) (t0 + ((k + 1 + 1 : ℕ) : ℝ) * d) rows' [(((k + 1 : ℕ) : ℝ) + 1) * d]
  have e4 : t0 + ((k + 2 + 1 : ℕ) - 1 : ℝ) * d = t0 + ((k + 1 + 1 : ℕ) : ℝ) * d := by push_cast; ring
  rw [e4] at i1
  have hloop : exportLoop lookup (ticks t0 d 0 (k + 1) ++ ticks t0 d (k + 1 + 1) (n + 1)) {} =
      .ok ⟨false, k + 2 + n, t0, e', some (t0 + ((k + 2 + 1 + n : ℕ) - 1 : ℝ) * d), rows'',
        [(((k + 1 : ℕ) : ℝ) + 1) * d]⟩ := by
    rw [exportLoop_append, h, Py.ok_bind]
    rw [show ticks t0 d (k + 1 + 1) (n + 1) = (t0 + ((k + 1 + 1 : ℕ) : ℝ) * d) :: ticks t0 d (k + 2 + 1) n by
      unfold ticks; rw [List.range'_succ, List.map_cons], exportLoop, h1, Py.ok_bind]
    exact i1
  refine ⟨_, writeTransformation_of_loop hloop (Or.inr ?_), rfl⟩
  rcases i2 with i2 | i2
  · rw [i2.2]; exact hpos.ne'
  · exact i2.ne'

example : ∃ s, writeTransformationToCsv (fun t => some ⟨⟨t, 0, 0⟩, ⟨0, 0, 0, 1⟩⟩) "hand"
    (simpleBag (ticks 5 (1 / 10) 0 4 ++ ticks 5 (1 / 10) 5 3)) = .ok s ∧ s.warnings = [1 / 2] := by
  obtain ⟨s, h, hw⟩ := C66_one_missing (fun t => some ⟨⟨t, 0, 0⟩, ⟨0, 0, 0, 1⟩⟩) 5 (1 / 10) (by norm_num) 4 2 (by norm_num)
    (by simp)
  exact ⟨s, h, by rw [hw]; norm_num⟩

end HandEye
