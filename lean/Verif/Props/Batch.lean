import Verif.Lemmas.Batch
import Verif.Props.Csv
import Verif.Model.Extractor

/-!
# C87: the files of the batch estimator
-/

namespace HandEye

open Spec Quaternion

theorem measurementOf_rounded (use_jpl : Bool) (p : StampedPose) :
    MeasurementOf use_jpl p ⟨(roundedPose p).t, ⟨(roundedPose p).pose.pos,
      toInternalQuaternionConvention use_jpl (roundedPose p).pose.q⟩⟩ := by
  refine ⟨close18_rounded _, ⟨close18_rounded _, close18_rounded _, close18_rounded _⟩, fun h => ?_, fun h => ?_⟩
  · rw [h]; exact closeQuat_rounded p
  · rw [h]; exact closeQuat_mirrored (closeQuat_rounded p)

/-- C87, reading: a table of unit quaternions (up to almost `1e-8`) that is written by `csv_io` is read by the batch
estimator: one measurement for each row, in order, with its time, position and rotation. -/
theorem C87_reads_tables_partial (use_jpl : Bool) (T : List StampedPose)
    (h : ∀ p ∈ T, |1 - quatLength p.pose.q| ≤ 1e-8 - 1e-18) :
    ∃ M : List StampedPose, readPosesFromCsv use_jpl (writeTable (T.map StampedPose.toRow)) =
      .ok (M.map PoseMeasurement.pose) ∧ List.Forall₂ (MeasurementOf use_jpl) T M := by
  refine ⟨T.map fun p => ⟨(roundedPose p).t, ⟨(roundedPose p).pose.pos,
      toInternalQuaternionConvention use_jpl (roundedPose p).pose.q⟩⟩, ?_, ?_⟩
  · rw [readPoses_write _ _ fun r hr => ?_, List.mapM_map, List.map_map]
    · refine Py.mapM_ok fun p hp => ?_
      dsimp only [Function.comp]
      rw [addMeasurement_row, pyAssert_pos]
      · rfl
      · have h1 := h p hp
        rw [quatLength_eq] at h1
        have h2 := rounded_norm (closeQuat_rounded p)
        rw [abs_le] at *
        constructor <;> linarith [h1.1, h1.2, h2.1, h2.2]
    · obtain ⟨p, -, rfl⟩ := List.mem_map.mp hr
      simp [StampedPose.toRow]
  · rw [List.forall₂_map_right_iff, List.forall₂_same]
    exact fun p _ => measurementOf_rounded use_jpl p

/-- C87, conventions: the measurement, as a JPL quaternion, turns as the quaternion of the table does, in the convention of
Hamilton without `use_jpl` and in the JPL convention with it. -/
theorem C87_conventions (q : Quat) (x : Vec3) :
    jplTurn (toInternalQuaternionConvention false q) x = hamiltonTurn q x ∧
      jplTurn (toInternalQuaternionConvention true q) x = jplTurn q x := by
  refine ⟨?_, rfl⟩
  have h : (toInternalQuaternionConvention false q).toH = star q.toH := by
    unfold toInternalQuaternionConvention quatInv
    ext <;> simp
  unfold jplTurn hamiltonTurn
  rw [h, star_star]

/-- C87, writing: the rows are the estimated poses at the times `start`, `start + delta`, ... that are not after the end. -/
theorem C87_samples (start stop delta : ℝ) (hd : 0 < delta) (h : start ≤ stop) :
    (∀ (k : ℕ) (t : ℝ), (sampleTimes start stop delta)[k]? = some t → t = start + k * delta) ∧
      (∀ t ∈ sampleTimes start stop delta, start ≤ t ∧ t ≤ stop) ∧
      ∀ t, start ≤ t → t ≤ stop → ∃ s ∈ sampleTimes start stop delta, s ≤ t ∧ t < s + delta := by
  have hl : ∀ k : ℕ, k < ⌊(stop - start) / delta⌋₊ + 1 ↔ (k : ℝ) * delta ≤ stop - start := by
    intro k
    rw [Nat.lt_succ_iff, Nat.le_floor_iff (div_nonneg (by linarith) hd.le), le_div_iff₀ hd]
  unfold sampleTimes
  rw [if_pos h]
  refine ⟨fun k t hk => ?_, fun t ht => ?_, fun t h1 h2 => ?_⟩
  · rw [List.getElem?_map, Option.map_eq_some_iff] at hk
    obtain ⟨j, hj, rfl⟩ := hk
    obtain ⟨h1, h2⟩ := List.getElem?_eq_some_iff.mp hj
    rw [List.getElem_range] at h2
    rw [h2]
  · obtain ⟨k, hk, rfl⟩ := List.mem_map.mp ht
    have hk' := (hl k).mp (List.mem_range.mp hk)
    exact ⟨by have : 0 ≤ (k : ℝ) * delta := by positivity
              linarith, by linarith⟩
  · have h0 : 0 ≤ (t - start) / delta := div_nonneg (by linarith) hd.le
    refine ⟨start + ⌊(t - start) / delta⌋₊ * delta, List.mem_map.mpr ⟨_, List.mem_range.mpr ((hl _).mpr ?_), rfl⟩, ?_, ?_⟩
    · have := Nat.floor_le h0
      rw [le_div_iff₀ hd] at this
      linarith
    · have := Nat.floor_le h0
      rw [le_div_iff₀ hd] at this
      linarith
    · have := Nat.lt_floor_add_one ((t - start) / delta)
      rw [div_lt_iff₀ hd] at this
      linarith

/-- C87, round trip: the batch estimator reads its own output, with the same flag, and gets the estimated poses. -/
theorem C87_round_trip (use_jpl : Bool) (trajectory : ℝ → Pose) (start stop delta : ℝ)
    (h : ∀ t, |1 - quatLength (trajectory t).q| ≤ 1e-8 - 1e-18) :
    ∃ M : List StampedPose, readPosesFromCsv use_jpl (writePosesToCsv use_jpl trajectory start stop delta) =
      .ok (M.map PoseMeasurement.pose) ∧
      List.Forall₂ (fun t (m : StampedPose) => Close18 t m.t ∧ CloseVec (trajectory t).pos m.pose.pos ∧
        CloseQuat (trajectory t).q m.pose.q) (sampleTimes start stop delta) M := by
  obtain ⟨M, h1, h2⟩ := C87_reads_tables_partial use_jpl ((sampleTimes start stop delta).map (estimatedRow use_jpl trajectory))
    (by
      intro p hp
      obtain ⟨t, -, rfl⟩ := List.mem_map.mp hp
      have := h t
      cases use_jpl
      · simpa [estimatedRow, fromInternalQuaternionConvention, quatInv, quatLength] using this
      · exact this)
  refine ⟨M, ?_, ?_⟩
  · unfold writePosesToCsv
    rw [List.map_map] at h1
    exact h1
  · rw [List.forall₂_map_left_iff] at h2
    refine h2.imp fun t m hm => ⟨hm.1, hm.2.1, ?_⟩
    cases use_jpl
    · have := hm.2.2.2 rfl
      unfold estimatedRow fromInternalQuaternionConvention quatInv mirrored at this
      simpa using this
    · exact hm.2.2.1 rfl

/-- C87, reading of the output by `csv_io`: it gives one row for each sample, with the quaternion in the convention of the
flag. -/
theorem C87_python_reads (use_jpl : Bool) (trajectory : ℝ → Pose) (start stop delta : ℝ) (hs : start ≤ stop)
    (h : ∀ t, quatLength (trajectory t).q = 1) :
    ∃ R : List StampedPose, readTimeStampedPoses (writePosesToCsv use_jpl trajectory start stop delta) false =
        .ok (R, R.map StampedPose.t, R.map fun r => r.pose.q) ∧
      List.Forall₂ (fun t r => ReadBack ⟨t, ⟨(trajectory t).pos,
        if use_jpl then (trajectory t).q else mirrored (trajectory t).q⟩⟩ r) (sampleTimes start stop delta) R := by
  have hne : (sampleTimes start stop delta).map (estimatedRow use_jpl trajectory) ≠ [] := by
    unfold sampleTimes
    rw [if_pos hs]
    simp
  have hq : ∀ q : Quat, quatLength q = 1 → 1 / 2 * 1e-18 < |q.x| ∨ 1 / 2 * 1e-18 < |q.y| ∨ 1 / 2 * 1e-18 < |q.z| ∨
      1 / 2 * 1e-18 < |q.w| := by
    intro q hq
    by_contra hc
    push Not at hc
    obtain ⟨h1, h2, h3, h4⟩ := hc
    have sq : ∀ {x : ℝ}, |x| ≤ 1 / 2 * 1e-18 → x ^ 2 ≤ (1 / 2 * 1e-18) ^ 2 := by
      intro x h
      rw [← sq_abs]
      exact pow_le_pow_left₀ (abs_nonneg _) h 2
    have := sq h1; have := sq h2; have := sq h3; have := sq h4
    unfold quatLength at hq
    rw [Real.sqrt_eq_one] at hq
    norm_num at *
    linarith
  obtain ⟨R, h1, h2⟩ := C50_round_trip_partial hne (by
    intro p hp
    obtain ⟨t, -, rfl⟩ := List.mem_map.mp hp
    refine hq _ ?_
    have := h t
    cases use_jpl
    · simpa [estimatedRow, fromInternalQuaternionConvention, quatInv, quatLength] using this
    · exact this)
  refine ⟨R, ?_, ?_⟩
  · unfold writePosesToCsv
    rw [List.map_map] at h1
    exact h1
  · rw [List.forall₂_map_left_iff] at h2
    exact h2

/-! ## What is wrong -/

/-- C87 fails for tables whose quaternions are not normalised, although `csv_io` reads them: one row whose length differs
from one by more than `1e-8` ends the batch estimator. -/
theorem C87_norm_refuted (use_jpl : Bool) (T : List StampedPose) (p : StampedPose) (hp : p ∈ T)
    (h : 1e-8 + 1e-18 < |1 - quatLength p.pose.q|) :
    readPosesFromCsv use_jpl (writeTable (T.map StampedPose.toRow)) = .error .assertion := by
  rw [readPoses_write _ _ fun r hr => ?_, List.mapM_map]
  · have hrow : ∀ p : StampedPose, (∃ m, addMeasurement use_jpl (p.toRow.map rounded18) = .ok m) ∨
        addMeasurement use_jpl (p.toRow.map rounded18) = .error .assertion := by
      intro p
      rw [addMeasurement_row]
      by_cases hc : |1 - (roundedPose p).pose.q.norm| ≤ 1e-8
      · rw [pyAssert_pos hc]; exact .inl ⟨_, rfl⟩
      · rw [pyAssert_neg hc]; exact .inr rfl
    have hbad : addMeasurement use_jpl (p.toRow.map rounded18) = .error .assertion := by
      rw [addMeasurement_row, pyAssert_neg]
      · rfl
      · intro hc
        rw [quatLength_eq] at h
        have h2 := rounded_norm (closeQuat_rounded p)
        have : |1 - p.pose.q.norm| ≤ 1e-8 + 1e-18 := by
          rw [abs_le] at *
          constructor <;> linarith [hc.1, hc.2, h2.1, h2.2]
        linarith
    induction T with
    | nil => cases hp
    | cons a T ih =>
      rw [Py.mapM_cons]
      dsimp only [Function.comp]
      rcases List.mem_cons.mp hp with rfl | hp
      · rw [hbad]; rfl
      · rcases hrow a with ⟨m, hm⟩ | hm
        · have := ih hp
          rw [hm, Py.ok_bind]
          change (T.mapM ((fun r => addMeasurement use_jpl (r.map rounded18)) ∘ StampedPose.toRow)) = _ at this
          rw [this]
          rfl
        · rw [hm]; rfl
  · obtain ⟨p, -, rfl⟩ := List.mem_map.mp hr
    simp [StampedPose.toRow]

/-- The other way round, the batch estimator reads outliers, rows with a time only, which `csv_io` does not. -/
theorem C87_outlier_refuted (use_jpl JPL_quaternion_format : Bool) (t : ℝ) (T : List StampedPose) (h0 : T ≠ [])
    (h : ∀ p ∈ T, |1 - quatLength p.pose.q| ≤ 1e-8 - 1e-18) :
    (∃ M : List StampedPose, readPosesFromCsv use_jpl (writeTable ([t] :: T.map StampedPose.toRow)) =
      .ok (.outlier (rounded18 t) :: M.map PoseMeasurement.pose) ∧ List.Forall₂ (MeasurementOf use_jpl) T M) ∧
    readTimeStampedPoses (writeTable ([t] :: T.map StampedPose.toRow)) JPL_quaternion_format = .error .value := by
  have hne : ∀ r ∈ T.map StampedPose.toRow, r ≠ [] := by
    intro r hr
    obtain ⟨p, -, rfl⟩ := List.mem_map.mp hr
    simp [StampedPose.toRow]
  have hne' : ∀ r ∈ [t] :: T.map StampedPose.toRow, r ≠ [] := by
    intro r hr
    rcases List.mem_cons.mp hr with rfl | hr
    · simp
    · exact hne r hr
  constructor
  · obtain ⟨M, h1, h2⟩ := C87_reads_tables_partial use_jpl T h
    refine ⟨M, ?_, h2⟩
    rw [readPoses_write _ _ hne] at h1
    rw [readPoses_write _ _ hne', Py.mapM_cons, h1]
    rfl
  · unfold readTimeStampedPoses readTable
    have hm : (fileLines (writeTable ([t] :: T.map StampedPose.toRow))).mapM
        (fun l => (splitChar ',' l).mapM parseFloat) =
        .ok (([t] :: T.map StampedPose.toRow).map fun r => r.map rounded18) := by
      rw [fileLines_write, List.mapM_map]
      refine Py.mapM_ok fun r hr => ?_
      have := readRow false r (hne' r hr)
      simpa using this
    rw [hm, Py.ok_bind]
    have hbad : ¬ ∀ r ∈ ([t] :: T.map StampedPose.toRow).map (fun r => r.map rounded18),
        ∀ r' ∈ ([t] :: T.map StampedPose.toRow).map (fun r => r.map rounded18), r.length = r'.length := by
      intro hall
      obtain ⟨p, T', rfl⟩ := List.exists_cons_of_ne_nil h0
      have := hall ([t].map rounded18) (by simp) (p.toRow.map rounded18) (by simp)
      simp [StampedPose.toRow] at this
    unfold pyRequire
    rw [if_neg hbad]
    rfl

/-- The header that the target extractor writes by default ends the batch estimator. -/
theorem C87_header_refuted (use_jpl : Bool) (rest : Text) :
    readPosesFromCsv use_jpl (timestampedHeader ++ rest) = .error .value := by
  have hl : splitChar '\n' (timestampedHeader ++ rest) = headerLine :: splitChar '\n' rest := by
    have : timestampedHeader ++ rest = headerLine ++ '\n' :: rest := by
      unfold timestampedHeader; rw [List.append_assoc]; rfl
    rw [this, splitChar_append (by decide)]
  have hf : ∃ ls, getlines '\n' (timestampedHeader ++ rest) = headerLine :: ls := by
    unfold getlines
    rw [hl]
    split_ifs with h
    · cases hr : splitChar '\n' rest with
      | nil => exact absurd hr (splitChar_ne_nil _ _)
      | cons a b => exact ⟨_, List.dropLast_cons_of_ne_nil (by simp)⟩
    · exact ⟨_, rfl⟩
  obtain ⟨ls, hf⟩ := hf
  have hc : ∃ cs, getlines ',' headerLine = ['t', 'i', 'm', 'e', 's', 't', 'a', 'm', 'p'] :: cs := by
    have : splitChar ',' headerLine =
        ['t', 'i', 'm', 'e', 's', 't', 'a', 'm', 'p'] :: splitChar ',' (headerLine.drop 10) := by
      rw [← splitChar_append (by decide) (headerLine.drop 10)]; rfl
    unfold getlines
    rw [this]
    split_ifs with h
    · cases hr : splitChar ',' (headerLine.drop 10) with
      | nil => exact absurd hr (splitChar_ne_nil _ _)
      | cons a b => exact ⟨_, List.dropLast_cons_of_ne_nil (by simp)⟩
    · exact ⟨_, rfl⟩
  obtain ⟨cs, hc⟩ := hc
  have hs : stod ['t', 'i', 'm', 'e', 's', 't', 'a', 'm', 'p'] = .error .value := by
    unfold stod
    rw [show (['t', 'i', 'm', 'e', 's', 't', 'a', 'm', 'p'].dropWhile fun c => c = ' ' ∨ c = '\t' ∨ c = '\r') =
      ['t', 'i', 'm', 'e', 's', 't', 'a', 'm', 'p'] by decide]
    show leadingUnsigned ['t', 'i', 'm', 'e', 's', 't', 'a', 'm', 'p'] = _
    unfold leadingUnsigned
    exact if_pos (by decide)
  unfold readPosesFromCsv
  rw [hf, Py.mapM_cons, hc, Py.mapM_cons, hs]
  rfl

/-- Malformed numbers are not noticed by the batch estimator: what follows a number is ignored, `0.5.7` is read as `0.5`,
which `csv_io` rejects. -/
theorem C87_junk_refuted : stod ['0', '.', '5', '.', '7'] = .ok 0.5 ∧ parseFloat ['0', '.', '5', '.', '7'] = .error .value := by
  constructor
  · unfold stod
    rw [show (['0', '.', '5', '.', '7'].dropWhile fun c => c = ' ' ∨ c = '\t' ∨ c = '\r') = ['0', '.', '5', '.', '7'] by decide]
    show leadingUnsigned ['0', '.', '5', '.', '7'] = _
    unfold leadingUnsigned
    dsimp only
    rw [show ['0', '.', '5', '.', '7'].takeWhile Char.isDigit = ['0'] by decide,
      show ['0', '.', '5', '.', '7'].dropWhile Char.isDigit = ['.', '5', '.', '7'] by decide]
    rw [List.head?_cons, if_pos rfl, if_pos rfl, List.tail_cons,
      show ['5', '.', '7'].takeWhile Char.isDigit = ['5'] by decide,
      show ['5', '.', '7'].dropWhile Char.isDigit = ['.', '7'] by decide,
      show leadingExponent ['.', '7'] = 0 by decide, show digitsValue ['0'] = 0 by decide,
      show digitsValue ['5'] = 5 by decide]
    simp
    norm_num
  · unfold parseFloat
    rw [show strip ['0', '.', '5', '.', '7'] = ['0', '.', '5', '.', '7'] by decide]
    show parseUnsigned ['0', '.', '5', '.', '7'] = _
    unfold parseUnsigned
    rw [show parseNat ((['0', '.', '5', '.', '7'].dropWhile (· ≠ '.')).drop 1) = none by decide,
      show parseNat (['0', '.', '5', '.', '7'].takeWhile (· ≠ '.')) = some 0 by decide]

/-- A blank line ends the batch estimator. -/
theorem C87_blank_line (use_jpl : Bool) (T : List StampedPose)
    (h : ∀ p ∈ T, |1 - quatLength p.pose.q| ≤ 1e-8 - 1e-18) :
    readPosesFromCsv use_jpl (writeTable (T.map StampedPose.toRow ++ [[]])) = .error .assertion := by
  obtain ⟨M, h1, -⟩ := C87_reads_tables_partial use_jpl T h
  unfold readPosesFromCsv at h1 ⊢
  rw [getlines_write] at h1 ⊢
  rw [List.map_append, List.mapM_append, h1, Py.ok_bind]
  rfl

/-- One row. -/
example : ∃ M : List StampedPose, readPosesFromCsv false (writeTable ([(⟨1, ⟨⟨2, 3, 4⟩, ⟨0.6, 0, 0, 0.8⟩⟩⟩ : StampedPose)].map
    StampedPose.toRow)) = .ok (M.map PoseMeasurement.pose) ∧ M.length = 1 := by
  have hq : quatLength ⟨0.6, 0, 0, 0.8⟩ = 1 := by
    unfold quatLength; rw [Real.sqrt_eq_one]; norm_num
  obtain ⟨M, h1, h2⟩ := C87_reads_tables_partial false [⟨1, ⟨⟨2, 3, 4⟩, ⟨0.6, 0, 0, 0.8⟩⟩⟩] (by
    intro p hp
    rw [List.mem_singleton.mp hp]
    dsimp only
    rw [hq]; norm_num)
  exact ⟨M, h1, h2.length_eq.symm⟩

/-- A row that `csv_io` normalises, and that ends the batch estimator. -/
example : readPosesFromCsv true (writeTable ([(⟨1, ⟨⟨2, 3, 4⟩, ⟨0, 0, 0, 2⟩⟩⟩ : StampedPose)].map StampedPose.toRow)) =
    .error .assertion := by
  refine C87_norm_refuted true _ _ (List.mem_singleton.mpr rfl) ?_
  have hq : quatLength ⟨0, 0, 0, 2⟩ = 2 := by
    unfold quatLength
    rw [show ((0 : ℝ) ^ 2 + 0 ^ 2 + 0 ^ 2 + 2 ^ 2) = 2 ^ 2 by norm_num, Real.sqrt_sq (by norm_num)]
  rw [hq]
  norm_num

/-- Three samples in half a tenth of a second. -/
example : ∃ s ∈ sampleTimes 0 0.05 0.02, s ≤ 0.045 ∧ (0.045 : ℝ) < s + 0.02 :=
  (C87_samples 0 0.05 0.02 (by norm_num) (by norm_num)).2.2 0.045 (by norm_num) (by norm_num)

end HandEye
