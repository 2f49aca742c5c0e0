import Verif.Spec.CompleteScript

/-!
# C88: the complete calibration
-/

namespace HandEye

open Spec

theorem FileSystem.write_same {τ : Type} (fs : FileSystem τ) (p : FilePath) (t : τ) : fs.write p t p = some t := by
  unfold FileSystem.write; rw [if_pos rfl]

theorem FileSystem.write_ne {τ : Type} (fs : FileSystem τ) {p n : FilePath} (h : n ≠ p) (t : τ) : fs.write p t n = fs n := by
  unfold FileSystem.write; rw [if_neg h]

theorem alignedPath_ne (a : FilePath) : a ≠ alignedPath a := by
  intro h
  have := congrArg (fun p => p.basename.length) h
  simp [alignedPath, alignedPrefix] at this
  omega

theorem alignedPath_inj {a b : FilePath} (h : a ≠ b) : alignedPath a ≠ alignedPath b := by
  intro he
  obtain ⟨d, n⟩ := a
  obtain ⟨d', n'⟩ := b
  unfold alignedPath at he
  rw [FilePath.mk.injEq] at he
  obtain ⟨h1, h2⟩ := he
  dsimp only at h1 h2
  rw [List.append_cancel_left_eq] at h2
  exact h (by rw [h1, h2])

theorem alignedPath_ne_of_head {a : FilePath} {d n : Text} {c : Char} (h : c ≠ 'a') : alignedPath a ≠ ⟨d, c :: n⟩ := by
  intro he
  unfold alignedPath alignedPrefix at he
  rw [FilePath.mk.injEq] at he
  have := he.2
  rw [List.cons_append] at this
  exact h (List.cons.inj this).1.symm

theorem outPath_ne_optimized (a : FilePath) : optimizedPath ≠ outPath a := by
  intro h
  have := congrArg (fun p => p.basename.getLast?) h
  simp [outPath, optimizedPath] at this

/-- C88, with inputs that the script does not overwrite: if the three programs end well, the optimised calibration is that of
the two tables, and the exit code is zero.  Missing: programs that fail, see `C88_stale_refuted`, and inputs that are
overwritten, see `C88_overwritten_refuted`. -/
theorem C88_complete_partial {τ : Type} (w : CompleteWorld τ) (a b : FilePath) (fs : FileSystem τ) (hs : Separate a b)
    {ta tb c : τ} (ha : fs a = some ta) (hb : fs b = some tb) (hc : CompleteCalibration w ta tb c) :
    (completeScript w a b fs).1 optimizedPath = some c ∧ (completeScript w a b fs).2 = true := by
  obtain ⟨aa, ab, off, guess, oa, ob, h1, h2, h3⟩ := hc
  have n1 : alignedPath a ≠ timeOffsetPath := alignedPath_ne_of_head (by decide)
  have n2 : alignedPath b ≠ timeOffsetPath := alignedPath_ne_of_head (by decide)
  have s1 : alignStep w a b fs =
      some (((fs.write (alignedPath a) aa).write (alignedPath b) ab).write timeOffsetPath off) := by
    unfold alignStep
    simp [ha, hb, h1]
  have s2 : calibrateStep w a b (((fs.write (alignedPath a) aa).write (alignedPath b) ab).write timeOffsetPath off) =
      some ((((fs.write (alignedPath a) aa).write (alignedPath b) ab).write timeOffsetPath off).write calibrationPath guess) := by
    unfold calibrateStep
    rw [FileSystem.write_ne _ n1, FileSystem.write_ne _ (alignedPath_inj hs.ne), FileSystem.write_same,
      FileSystem.write_ne _ n2, FileSystem.write_same, FileSystem.write_same]
    simp [h2]
  have s3 : estimateStep w a b ((((fs.write (alignedPath a) aa).write (alignedPath b) ab).write timeOffsetPath off).write
      calibrationPath guess) = some ((((((fs.write (alignedPath a) aa).write (alignedPath b) ab).write timeOffsetPath off).write
      calibrationPath guess).write (outPath a) oa).write (outPath b) ob |>.write optimizedPath c) := by
    unfold estimateStep
    rw [FileSystem.write_ne _ hs.a_calibration, FileSystem.write_ne _ hs.a_offset, FileSystem.write_ne _ hs.a_aligned,
      FileSystem.write_ne _ (alignedPath_ne a), ha,
      FileSystem.write_ne _ hs.b_calibration, FileSystem.write_ne _ hs.b_offset, FileSystem.write_ne _ (alignedPath_ne b),
      FileSystem.write_ne _ hs.b_aligned, hb, FileSystem.write_same]
    simp [h3]
  unfold completeScript
  rw [s1, Option.getD_some]
  dsimp only
  rw [s2, Option.getD_some, s3, Option.getD_some]
  exact ⟨FileSystem.write_same .., rfl⟩

/-- C88, the inputs are kept. -/
theorem C88_inputs_kept {τ : Type} (w : CompleteWorld τ) (a b : FilePath) (fs : FileSystem τ) (hs : Separate a b) (p : FilePath)
    (hp : p = a ∨ p = b) (h1 : p ≠ outPath a) (h2 : p ≠ outPath b) (h3 : p ≠ optimizedPath) :
    (completeScript w a b fs).1 p = fs p := by
  have q : p ≠ alignedPath a ∧ p ≠ alignedPath b ∧ p ≠ timeOffsetPath ∧ p ≠ calibrationPath := by
    rcases hp with rfl | rfl
    · exact ⟨alignedPath_ne _, hs.a_aligned, hs.a_offset, hs.a_calibration⟩
    · exact ⟨hs.b_aligned, alignedPath_ne _, hs.b_offset, hs.b_calibration⟩
  have s1 : ∀ fs : FileSystem τ, ((alignStep w a b fs).getD fs) p = fs p := by
    intro fs
    cases h : alignStep w a b fs with
    | none => rfl
    | some fs' =>
      unfold alignStep at h
      simp only [Option.bind_eq_bind, Option.bind_eq_some_iff, Option.pure_def, Option.some.injEq] at h
      obtain ⟨ta, -, tb, -, r, -, rfl⟩ := h
      rw [Option.getD_some, FileSystem.write_ne _ q.2.2.1, FileSystem.write_ne _ q.2.1, FileSystem.write_ne _ q.1]
  have s2 : ∀ fs : FileSystem τ, ((calibrateStep w a b fs).getD fs) p = fs p := by
    intro fs
    cases h : calibrateStep w a b fs with
    | none => rfl
    | some fs' =>
      unfold calibrateStep at h
      simp only [Option.bind_eq_bind, Option.bind_eq_some_iff, Option.pure_def, Option.some.injEq] at h
      obtain ⟨ta, -, tb, -, off, -, r, -, rfl⟩ := h
      rw [Option.getD_some, FileSystem.write_ne _ q.2.2.2]
  have s3 : ∀ fs : FileSystem τ, ((estimateStep w a b fs).getD fs) p = fs p := by
    intro fs
    cases h : estimateStep w a b fs with
    | none => rfl
    | some fs' =>
      unfold estimateStep at h
      simp only [Option.bind_eq_bind, Option.bind_eq_some_iff, Option.pure_def, Option.some.injEq] at h
      obtain ⟨ta, -, tb, -, g, -, r, -, rfl⟩ := h
      rw [Option.getD_some, FileSystem.write_ne _ h3, FileSystem.write_ne _ h2, FileSystem.write_ne _ h1]
  unfold completeScript
  dsimp only
  rw [s3, s2, s1]

/-- C88 fails when the alignment fails and there are files of an earlier run: the script goes on with these, and reports
success.  The old files can be those of any other tables. -/
theorem C88_stale_refuted {τ : Type} (w : CompleteWorld τ) (a b : FilePath) (fs : FileSystem τ) (hs : Separate a b)
    {ta tb old_a old_b old_off guess oa ob c : τ} (ha : fs a = some ta) (hb : fs b = some tb)
    (hf : w.align ta tb = none) (h1 : fs (alignedPath a) = some old_a) (h2 : fs (alignedPath b) = some old_b)
    (h3 : fs timeOffsetPath = some old_off) (h4 : w.calibrate old_a old_b old_off = some guess)
    (h5 : w.estimate ta tb guess = some (oa, ob, c)) :
    (completeScript w a b fs).1 optimizedPath = some c ∧ (completeScript w a b fs).2 = true ∧
      ¬ CompleteCalibration w ta tb c := by
  have s1 : alignStep w a b fs = none := by
    unfold alignStep
    simp [ha, hb, hf]
  have s2 : calibrateStep w a b fs = some (fs.write calibrationPath guess) := by
    unfold calibrateStep
    simp [h1, h2, h3, h4]
  have s3 : estimateStep w a b (fs.write calibrationPath guess) =
      some (((fs.write calibrationPath guess).write (outPath a) oa).write (outPath b) ob |>.write optimizedPath c) := by
    unfold estimateStep
    rw [FileSystem.write_ne _ hs.a_calibration, FileSystem.write_ne _ hs.b_calibration, ha, hb, FileSystem.write_same]
    simp [h5]
  refine ⟨?_, ?_, ?_⟩
  · unfold completeScript
    rw [s1, Option.getD_none]
    dsimp only
    rw [s2, Option.getD_some, s3, Option.getD_some]
    exact FileSystem.write_same ..
  · unfold completeScript
    rw [s1, Option.getD_none]
    dsimp only
    rw [s2, Option.getD_some, s3]
    rfl
  · rintro ⟨aa, ab, off, g, oa', ob', h, -⟩
    rw [hf] at h
    cases h

/-- When the second input has the name of the first aligned table, it is overwritten before the batch estimator reads
it, so that the estimator gets the aligned table. -/
theorem C88_overwritten {τ : Type} (w : CompleteWorld τ) (a : FilePath) (fs : FileSystem τ)
    (hoff : a ≠ timeOffsetPath) (hcal : a ≠ calibrationPath) {ta tb aa ab off guess oa ob c : τ}
    (ha : fs a = some ta) (hb : fs (alignedPath a) = some tb) (h1 : w.align ta tb = some (aa, ab, off))
    (h2 : w.calibrate aa ab off = some guess) (h3 : w.estimate ta aa guess = some (oa, ob, c)) :
    (completeScript w a (alignedPath a) fs).1 optimizedPath = some c ∧
      (completeScript w a (alignedPath a) fs).1 (alignedPath a) = some aa := by
  have n0 : a ≠ alignedPath a := alignedPath_ne a
  have n1 : alignedPath a ≠ timeOffsetPath := alignedPath_ne_of_head (by decide)
  have n2 : alignedPath (alignedPath a) ≠ timeOffsetPath := alignedPath_ne_of_head (by decide)
  have n3 : alignedPath a ≠ alignedPath (alignedPath a) := alignedPath_ne _
  have n4 : a ≠ alignedPath (alignedPath a) := by
    intro h
    have := congrArg (fun p => p.basename.length) h
    simp [alignedPath, alignedPrefix] at this
    omega
  have n5 : alignedPath a ≠ calibrationPath := alignedPath_ne_of_head (by decide)
  have n6 : alignedPath a ≠ optimizedPath := alignedPath_ne_of_head (by decide)
  have len : ∀ p q : FilePath, p = q → p.basename.length = q.basename.length := fun p q h => by rw [h]
  have n7 : alignedPath a ≠ outPath a := by
    intro h
    have := len _ _ h
    simp [alignedPath, alignedPrefix, outPath] at this
    omega
  have n8 : alignedPath a ≠ outPath (alignedPath a) := by
    intro h
    have := len _ _ h
    simp [alignedPath, alignedPrefix, outPath] at this
  have s1 : alignStep w a (alignedPath a) fs = some (((fs.write (alignedPath a) aa).write
      (alignedPath (alignedPath a)) ab).write timeOffsetPath off) := by
    unfold alignStep
    simp [ha, hb, h1]
  have s2 : calibrateStep w a (alignedPath a) (((fs.write (alignedPath a) aa).write
      (alignedPath (alignedPath a)) ab).write timeOffsetPath off) = some ((((fs.write (alignedPath a) aa).write
      (alignedPath (alignedPath a)) ab).write timeOffsetPath off).write calibrationPath guess) := by
    unfold calibrateStep
    rw [FileSystem.write_ne _ n1, FileSystem.write_ne _ n3, FileSystem.write_same,
      FileSystem.write_ne _ n2, FileSystem.write_same, FileSystem.write_same]
    simp [h2]
  have s3 : estimateStep w a (alignedPath a) ((((fs.write (alignedPath a) aa).write
      (alignedPath (alignedPath a)) ab).write timeOffsetPath off).write calibrationPath guess) =
      some ((((((fs.write (alignedPath a) aa).write
      (alignedPath (alignedPath a)) ab).write timeOffsetPath off).write calibrationPath guess).write (outPath a) oa).write
      (outPath (alignedPath a)) ob |>.write optimizedPath c) := by
    unfold estimateStep
    rw [FileSystem.write_ne _ hcal, FileSystem.write_ne _ hoff, FileSystem.write_ne _ n4, FileSystem.write_ne _ n0, ha,
      FileSystem.write_ne _ n5, FileSystem.write_ne _ n1, FileSystem.write_ne _ n3, FileSystem.write_same,
      FileSystem.write_same]
    simp [h3]
  unfold completeScript
  rw [s1, Option.getD_some]
  dsimp only
  rw [s2, Option.getD_some, s3, Option.getD_some]
  refine ⟨FileSystem.write_same .., ?_⟩
  rw [FileSystem.write_ne _ n6, FileSystem.write_ne _ n8, FileSystem.write_ne _ n7, FileSystem.write_ne _ n5,
    FileSystem.write_ne _ n1, FileSystem.write_ne _ n3, FileSystem.write_same]

/-- C88: the exit code only tells that the batch estimator ended well; in particular, if it does, some optimised calibration
was written. -/
theorem C88_exit_code {τ : Type} (w : CompleteWorld τ) (a b : FilePath) (fs : FileSystem τ)
    (h : (completeScript w a b fs).2 = true) :
    ∃ ta tb guess oa ob c, w.estimate ta tb guess = some (oa, ob, c) ∧ (completeScript w a b fs).1 optimizedPath = some c := by
  unfold completeScript at h ⊢
  dsimp only at h ⊢
  generalize ((calibrateStep w a b ((alignStep w a b fs).getD fs)).getD ((alignStep w a b fs).getD fs)) = fs2 at h ⊢
  cases he : estimateStep w a b fs2 with
  | none => rw [he] at h; cases h
  | some fs' =>
    unfold estimateStep at he
    simp only [Option.bind_eq_bind, Option.bind_eq_some_iff, Option.pure_def, Option.some.injEq] at he
    obtain ⟨ta, -, tb, -, g, -, r, hr, rfl⟩ := he
    exact ⟨ta, tb, g, r.1, r.2.1, r.2.2, hr, by rw [Option.getD_some]; exact FileSystem.write_same ..⟩

/-! ## Examples: tables are numbers, the alignment takes differences, and fails for equal tables -/

/-- Programs. -/
def exampleComplete : CompleteWorld ℤ where
  align x y := if x = y then none else some (x - y, y - x, x + y)
  calibrate x y off := some (x - y + off)
  estimate x y g := some (x, y, x + y + g)

/-- Two tables. -/
def pathA : FilePath := ⟨['.'], ['a', '.', 'c', 's', 'v']⟩

/-- Two tables. -/
def pathB : FilePath := ⟨['.'], ['b', '.', 'c', 's', 'v']⟩

theorem pathAB : Separate pathA pathB := by constructor <;> decide

example : (completeScript exampleComplete pathA pathB
    (fun p => if p = pathA then some 5 else if p = pathB then some 3 else none)).1 optimizedPath = some 20 := by
  refine (C88_complete_partial exampleComplete pathA pathB _ pathAB (ta := 5) (tb := 3) (by decide) (by decide) ?_).1
  exact ⟨2, -2, 8, 12, 5, 3, by decide, by decide, by decide⟩

/-- The alignment fails, the files of an earlier run are used. -/
example : ∃ fs : FileSystem ℤ, fs pathA = some 4 ∧ fs pathB = some 4 ∧
    (completeScript exampleComplete pathA pathB fs).2 = true ∧
    (completeScript exampleComplete pathA pathB fs).1 optimizedPath = some 20 := by
  refine ⟨fun p => if p = pathA then some 4 else if p = pathB then some 4 else
    if p = alignedPath pathA then some 2 else if p = alignedPath pathB then some (-2) else
    if p = timeOffsetPath then some 8 else none, by decide, by decide, by decide, by decide⟩

/-- C88 fails when the second input has the name of the first aligned table: the result is not the calibration of the two
tables. -/
theorem C88_overwritten_refuted : ∃ (w : CompleteWorld ℤ) (a b : FilePath) (fs : FileSystem ℤ) (ta tb c : ℤ), a ≠ b ∧
    fs a = some ta ∧ fs b = some tb ∧ (completeScript w a b fs).2 = true ∧
    (completeScript w a b fs).1 optimizedPath = some c ∧ ¬ CompleteCalibration w ta tb c := by
  refine ⟨exampleComplete, pathA, alignedPath pathA,
    fun p => if p = pathA then some 5 else if p = alignedPath pathA then some 3 else none, 5, 3, 19,
    by decide, by decide, by decide, by decide, by decide, ?_⟩
  rintro ⟨aa, ab, off, guess, oa, ob, h1, h2, h3⟩
  simp only [exampleComplete] at h1 h2 h3
  norm_num at h1 h2 h3
  omega

end HandEye
