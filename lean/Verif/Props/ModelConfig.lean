import Verif.Model.ModelConfig
import Verif.Props.Commands2
import Verif.Spec.Circle

/-! # Property C94: the experiments tell the batch estimator which sensors are absolute -/

namespace HandEye

theorem pairs_of_combinations {α : Type} (l : List α) : (combinations l 2).filterMap asPair = Spec.pairs l := by
  have one : ∀ l : List α, combinations l 1 = l.map fun a => [a] := by
    intro l
    induction l with
    | nil => rfl
    | cons a l ih => rw [combinations, ih, combinations]; rfl
  induction l with
  | nil => rfl
  | cons a l ih =>
    rw [combinations, List.filterMap_append, ih, one, Spec.pairs, List.map_map, List.filterMap_map]
    congr 1
    exact List.filterMap_eq_map (f := fun b => (a, b)) ▸ rfl

theorem zip_pairs {α β : Type} : ∀ (l : List α) (m : List β), l.length = m.length →
    (Spec.pairs l).zip (Spec.pairs m) = (Spec.pairs (l.zip m)).map fun p => ((p.1.1, p.2.1), (p.1.2, p.2.2))
  | [], [], _ => rfl
  | a :: l, b :: m, h => by
    have h' : l.length = m.length := by simpa using h
    rw [Spec.pairs, Spec.pairs, List.zip_append (by simp [h']), zip_pairs l m h', List.zip_cons_cons, Spec.pairs, List.map_append,
      List.zip_map, List.map_map]
    congr 1

theorem pairs_map {α β : Type} (f : α → β) : ∀ l : List α, Spec.pairs (l.map f) = (Spec.pairs l).map fun p => (f p.1, f p.2)
  | [] => rfl
  | a :: l => by
    rw [List.map_cons, Spec.pairs, Spec.pairs, pairs_map f l, List.map_append, List.map_map, List.map_map]
    rfl

theorem length_pairs {α β : Type} : ∀ (l : List α) (m : List β), l.length = m.length → (Spec.pairs l).length = (Spec.pairs m).length
  | [], [], _ => rfl
  | a :: l, b :: m, h => by
    have h' : l.length = m.length := by simpa using h
    rw [Spec.pairs, Spec.pairs, List.length_append, List.length_append, length_pairs l m h', List.length_map, List.length_map, h']

/-- C94 for the pairs: if there is a flag for every file, the pairs are those of the files, each with the flags of its files. -/
theorem C94_pairs (files : List Text) (flags : List ℤ) (h2 : 2 ≤ files.length) (hl : flags.length = files.length) :
    experimentPairs files (some flags) = .ok ((Spec.pairs (files.zip flags)).map fun p =>
      ((p.1.1, p.2.1), (decide (p.1.2 ≠ 0), decide (p.2.2 ≠ 0)))) := by
  unfold experimentPairs absoluteFlags
  dsimp only
  have hm : (flags.map fun flag => decide (flag ≠ 0)).length = files.length := by rw [List.length_map, hl]
  rw [pyAssert_pos h2, Py.ok_bind, pyAssert_pos hm, Py.ok_bind, Py.pure_eq, Py.ok_bind, pairs_of_combinations, pairs_of_combinations,
    pyAssert_pos (length_pairs _ _ hm.symm), Py.ok_bind, zip_pairs _ _ hm.symm, List.zip_map_right, pairs_map, List.map_map]
  rfl

example : experimentPairs ["a".toList, "b".toList, "c".toList] (some [0, 2, 0]) = .ok [(("a".toList, "b".toList), (false, true)),
    (("a".toList, "c".toList), (false, false)), (("b".toList, "c".toList), (true, false))] :=
  C94_pairs _ _ (by decide) rfl

/-- Without flags no sensor is absolute. -/
theorem C94_default (files : List Text) (h2 : 2 ≤ files.length) :
    experimentPairs files none = .ok ((Spec.pairs files).map fun p => (p, (false, false))) := by
  unfold experimentPairs absoluteFlags
  dsimp only
  have hm : (List.replicate files.length false).length = files.length := List.length_replicate
  rw [pyAssert_pos h2, Py.ok_bind, pyAssert_pos hm, Py.ok_bind, Py.pure_eq, Py.ok_bind, pairs_of_combinations, pairs_of_combinations,
    pyAssert_pos (length_pairs _ _ hm.symm), Py.ok_bind, zip_pairs _ _ hm.symm]
  have : files.zip (List.replicate files.length false) = files.map fun f => (f, false) := by
    clear h2 hm
    induction files with
    | nil => rfl
    | cons a l ih => rw [List.length_cons, List.replicate_succ, List.zip_cons_cons, ih, List.map_cons]
  rw [this, pairs_map, List.map_map]
  rfl

example : experimentPairs ["a".toList, "b".toList] none = .ok [(("a".toList, "b".toList), (false, false))] :=
  C94_default _ (by decide)

/-- Too few files, or another number of flags: an AssertionError. -/
theorem C94_count (files : List Text) (flags : List ℤ) (h : files.length < 2 ∨ flags.length ≠ files.length) :
    experimentPairs files (some flags) = .error .assertion := by
  unfold experimentPairs absoluteFlags
  dsimp only
  by_cases h2 : 2 ≤ files.length
  · rw [pyAssert_pos h2, Py.ok_bind, pyAssert_neg]
    · rfl
    · rw [List.length_map]
      exact h.resolve_left (by omega)
  · rw [pyAssert_neg h2]
    rfl

example : experimentPairs ["a".toList, "b".toList] (some [1]) = .error .assertion := C94_count _ _ (Or.inr (by decide))

/-- The words of the command of the experiments. -/
theorem flags_optimize (a b g o m : Text) :
    parseFlags estimatorFlags none ["-v".toList, "1".toList, "--pose1_csv=".toList ++ a, "--pose2_csv=".toList ++ b,
      "--init_guess_file=".toList ++ g, "--output_file=".toList ++ o, "--model_config=".toList ++ m] =
      some ([("v".toList, "1".toList), ("pose1_csv".toList, a), ("pose2_csv".toList, b), ("init_guess_file".toList, g),
        ("output_file".toList, o), ("model_config".toList, m)], []) := by
  have h1 := flag_equals (known := estimatorFlags) (n := "pose1_csv".toList) (by decide) (by decide) a
  have h2 := flag_equals (known := estimatorFlags) (n := "pose2_csv".toList) (by decide) (by decide) b
  have h3 := flag_equals (known := estimatorFlags) (n := "init_guess_file".toList) (by decide) (by decide) g
  have h4 := flag_equals (known := estimatorFlags) (n := "output_file".toList) (by decide) (by decide) o
  have h5 := flag_equals (known := estimatorFlags) (n := "model_config".toList) (by decide) (by decide) m
  have hv : ∀ r, parseFlags estimatorFlags none ("-v".toList :: "1".toList :: r) =
      (parseFlags estimatorFlags none r).map fun p => (("v".toList, "1".toList) :: p.1, p.2) := fun r => rfl
  rw [hv]
  show (parseFlags estimatorFlags none (('-' :: '-' :: ("pose1_csv".toList ++ '=' :: a)) :: ('-' :: '-' :: ("pose2_csv".toList ++ '=' :: b)) ::
    ('-' :: '-' :: ("init_guess_file".toList ++ '=' :: g)) :: ('-' :: '-' :: ("output_file".toList ++ '=' :: o)) ::
    ('-' :: '-' :: ("model_config".toList ++ '=' :: m)) :: [])).map _ = _
  rw [h1, h2, h3, h4, h5]
  rfl

/-- The command of the experiments as words. -/
theorem split_optimize (a b g o m : Text) (h : ∀ t ∈ [a, b, g, o, m], Spec.Plain t) :
    shlexSplit (optimizeCommand a b g o m) =
      .ok ("rosrun".toList :: "hand_eye_calibration_batch_estimation".toList :: "batch_estimator".toList ::
        ["-v".toList, "1".toList, "--pose1_csv=".toList ++ a, "--pose2_csv=".toList ++ b,
      "--init_guess_file=".toList ++ g, "--output_file=".toList ++ o, "--model_config=".toList ++ m]) := by
  simp only [List.forall_mem_cons, List.not_mem_nil, false_imp_iff, implies_true, and_true] at h
  obtain ⟨ha, hb, hg, ho, hm⟩ := h
  have e : optimizeCommand a b g o m = "rosrun".toList ++ ([(" ".toList, "hand_eye_calibration_batch_estimation".toList),
      (" ".toList, "batch_estimator".toList), (" ".toList, "-v".toList), (" ".toList, "1".toList),
      ("               ".toList, "--pose1_csv=".toList ++ a), (" ".toList, "--pose2_csv=".toList ++ b),
      ("               ".toList, "--init_guess_file=".toList ++ g),
      ("               ".toList, "--output_file=".toList ++ o),
      ("               ".toList, "--model_config=".toList ++ m)].flatMap (fun p => p.1 ++ p.2) ++ []) := by
    have e1 : "rosrun hand_eye_calibration_batch_estimation batch_estimator -v 1               --pose1_csv=".toList =
      "rosrun".toList ++ (" ".toList ++ ("hand_eye_calibration_batch_estimation".toList ++ (" ".toList ++ ("batch_estimator".toList ++
      (" ".toList ++ ("-v".toList ++ (" ".toList ++ ("1".toList ++ ("               ".toList ++ "--pose1_csv=".toList))))))))) := by decide
    have e2 : " --pose2_csv=".toList = " ".toList ++ "--pose2_csv=".toList := by decide
    have e3 : "               --init_guess_file=".toList = "               ".toList ++ "--init_guess_file=".toList := by decide
    have e4 : "               --output_file=".toList = "               ".toList ++ "--output_file=".toList := by decide
    have e5 : "               --model_config=".toList = "               ".toList ++ "--model_config=".toList := by decide
    unfold optimizeCommand
    rw [e1, e2, e3, e4, e5]
    simp only [List.append_assoc, List.flatMap_cons, List.flatMap_nil, List.append_nil]
  rw [e, C93_split "rosrun".toList (by decide) _ ?_ [] (by simp)]
  · rfl
  · simp only [List.forall_mem_cons, List.not_mem_nil, false_imp_iff, implies_true, and_true]
    refine ⟨by decide, by decide, by decide, by decide, ⟨by decide, by decide, ?_, plain_append (by decide) ha⟩,
      ⟨by decide, by decide, ?_, plain_append (by decide) hb⟩, ⟨by decide, by decide, ?_, plain_append (by decide) hg⟩,
      ⟨by decide, by decide, ?_, plain_append (by decide) ho⟩, ⟨by decide, by decide, ?_, plain_append (by decide) hm⟩⟩ <;>
    exact List.append_ne_nil_of_left_ne_nil (by decide) _

/-- What the batch estimator finds, given the text of `--model_config`. -/
theorem absolute_of_config (values : Text → Text) (a b g o m : Text) :
    estimatorAbsolute values ["-v".toList, "1".toList, "--pose1_csv=".toList ++ a, "--pose2_csv=".toList ++ b,
      "--init_guess_file=".toList ++ g, "--output_file=".toList ++ o, "--model_config=".toList ++ m] =
      some (((modelStore m values) "pose1/absoluteMeasurements".toList).bind boolValue,
        ((modelStore m values) "pose2/absoluteMeasurements".toList).bind boolValue) := by
  unfold estimatorAbsolute
  rw [flags_optimize]
  rfl

/-- C94 is false: whatever the flags are, the batch estimator takes the first sensor for absolute and the second one not.  The scripts
call `lower()` on the whole text, so the keys have no capital letters. -/
theorem C94_flags_refuted (values : Text → Text) (a b g o : Text) (h : ∀ t ∈ [a, b, g, o], Spec.Plain t) (abs1 abs2 : Bool) :
    ∃ argv, shlexSplit (optimizeCommand a b g o (modelConfigString abs1 abs2)) =
        .ok ("rosrun".toList :: "hand_eye_calibration_batch_estimation".toList :: "batch_estimator".toList :: argv) ∧
      estimatorAbsolute values argv = some (some true, some false) := by
  refine ⟨_, split_optimize a b g o _ ?_, ?_⟩
  · simp only [List.forall_mem_cons, List.not_mem_nil, false_imp_iff, implies_true, and_true] at h ⊢
    refine ⟨h.1, h.2.1, h.2.2.1, h.2.2.2, ?_⟩
    revert abs1 abs2
    decide
  · rw [absolute_of_config]
    cases abs1 <;> cases abs2 <;> rfl

/-- The call of the README: three sensors that are not absolute; the batch estimator takes the first one of every pair for absolute. -/
example (values : Text → Text) : ∃ argv, shlexSplit (optimizeCommand "a".toList "b".toList "g.json".toList "o.json".toList (modelConfigString false false)) =
      .ok ("rosrun".toList :: "hand_eye_calibration_batch_estimation".toList :: "batch_estimator".toList :: argv) ∧
    estimatorAbsolute values argv = some (some true, some false) :=
  C94_flags_refuted values _ _ _ _ (by decide) false false

example : modelConfigString true false = "pose1/absolutemeasurements=true,pose2/absolutemeasurements=false".toList := by rfl

/-- C94 holds exactly for pairs of an absolute sensor and another one. -/
theorem C94_flags_partial (values : Text → Text) (a b g o : Text) (h : ∀ t ∈ [a, b, g, o], Spec.Plain t) (abs1 abs2 : Bool) :
    (∃ argv, shlexSplit (optimizeCommand a b g o (modelConfigString abs1 abs2)) =
        .ok ("rosrun".toList :: "hand_eye_calibration_batch_estimation".toList :: "batch_estimator".toList :: argv) ∧
      estimatorAbsolute values argv = some (some abs1, some abs2)) ↔ abs1 = true ∧ abs2 = false := by
  obtain ⟨argv, h1, h2⟩ := C94_flags_refuted values a b g o h abs1 abs2
  constructor
  · rintro ⟨argv', h1', h2'⟩
    rw [h1] at h1'
    obtain rfl : argv = argv' := by simpa using h1'
    rw [h2] at h2'
    simp only [Option.some.injEq, Prod.mk.injEq] at h2'
    exact ⟨h2'.1.symm, h2'.2.symm⟩
  · rintro ⟨rfl, rfl⟩
    exact ⟨argv, h1, h2⟩

/-- The batch estimator would listen: with the keys as in the configuration file, and the values in lower case, the flags arrive. -/
theorem C94_intended (values : Text → Text) (a b g o : Text) (h : ∀ t ∈ [a, b, g, o], Spec.Plain t) (abs1 abs2 : Bool) :
    ∃ argv, shlexSplit (optimizeCommand a b g o ("pose1/absoluteMeasurements=".toList ++ pyLower (pyBoolText abs1) ++
          ",pose2/absoluteMeasurements=".toList ++ pyLower (pyBoolText abs2))) =
        .ok ("rosrun".toList :: "hand_eye_calibration_batch_estimation".toList :: "batch_estimator".toList :: argv) ∧
      estimatorAbsolute values argv = some (some abs1, some abs2) := by
  refine ⟨_, split_optimize a b g o _ ?_, ?_⟩
  · simp only [List.forall_mem_cons, List.not_mem_nil, false_imp_iff, implies_true, and_true] at h ⊢
    refine ⟨h.1, h.2.1, h.2.2.1, h.2.2.2, ?_⟩
    revert abs1 abs2
    decide
  · rw [absolute_of_config]
    cases abs1 <;> cases abs2 <;> rfl

end HandEye
