import Verif.Model.Script
import Verif.Model.RoundedTables
import Verif.Props.RoundedEval3

/-! # Property C121: the preparation in exact arithmetic, and tables of different lengths -/

namespace HandEye

theorem exact_fromPose (p : Pose) : exactArith.fromPose p = DQuat.fromPose p := rfl

theorem exact_tablePoses (i : Bool) (rows : List StampedPose) :
    exactArith.tablePoses i (rows.map (·.pose)) = inputPoses (if i then none else some rows) (if i then some rows else none) := by
  have e : (fun p => exactArith.dqInverse (exactArith.fromPose p)) = fun p : Pose => (DQuat.fromPose p).inverse := by
    funext p
    rw [exact_dqInverse, exact_fromPose]
  unfold Arith.tablePoses inputPoses
  cases i
  · simp only [Bool.false_eq_true, if_false, List.map_map]
    rfl
  · simp only [if_true, e, List.mapM_map]
    rfl

/-- **C121**, exact arithmetic: the script of `Model/Script.lean` is the preparation without rounding, followed by RANSAC and the output. -/
theorem C121_exact (svd : Svd) (rng : ℕ → List ℕ) (fuel : ℕ) (i₁ i₂ : Bool) (rows1 rows2 : List StampedPose) (extrinsics : Bool) (t : Option ℝ)
    (calibration : Bool) (ht : calibration = true → t.isSome) (args : ScriptArgs)
    (hargs : args = ⟨if i₁ then none else some rows1, if i₁ then some rows1 else none, if i₂ then none else some rows2, if i₂ then some rows2 else none,
      extrinsics, t, calibration⟩) :
    calibrationScript svd rng fuel args = (do
      let paths ← exactArith.preparedPaths i₁ i₂ (rows1.map (·.pose)) (rows2.map (·.pose))
      let r ← ransac svd rng getExhaustiveSearchScalarPartInliersConfig.config paths.1 paths.2 fuel
      writeOutputs args r) := by
  subst hargs
  unfold calibrationScript Arith.preparedPaths
  rw [pyAssert_pos (by cases i₁ <;> simp), Py.ok_bind, pyAssert_pos (by cases i₂ <;> simp), Py.ok_bind, pyAssert_pos ht, Py.ok_bind]
  simp only [exact_tablePoses, exact_alignPaths, bind_assoc, pure_bind]

/-- **C121**, tables of different lengths: if the rows can be read, that is an `AssertionError`, in every arithmetic. -/
theorem C121_lengths (A : Arith) (i₁ i₂ : Bool) (P Q : List Pose) (h : P.length ≠ Q.length)
    (h1 : i₁ = true → ∀ p ∈ P, ∃ d, A.dqInverse (A.fromPose p) = .ok d) (h2 : i₂ = true → ∀ p ∈ Q, ∃ d, A.dqInverse (A.fromPose p) = .ok d) :
    A.preparedPaths i₁ i₂ P Q = .error .assertion := by
  have read : ∀ (i : Bool) (T : List Pose), (i = true → ∀ p ∈ T, ∃ d, A.dqInverse (A.fromPose p) = .ok d) →
      ∃ v, A.tablePoses i T = .ok v ∧ v.length = T.length := by
    intro i T hT
    unfold Arith.tablePoses
    cases i
    · exact ⟨_, rfl, List.length_map _⟩
    · simp only [if_true]
      replace hT := hT rfl
      clear h h1 h2
      induction T with
      | nil => exact ⟨[], rfl, rfl⟩
      | cons p T ih =>
        obtain ⟨d, hd⟩ := hT p (by simp)
        obtain ⟨v, hv, hl⟩ := ih fun q hq => hT q (by simp [hq])
        refine ⟨d :: v, ?_, by simp [hl]⟩
        rw [List.mapM_cons, hd, Py.ok_bind, hv, Py.ok_bind]
        rfl
  obtain ⟨v, hv, l1⟩ := read i₁ P h1
  obtain ⟨w, hw, l2⟩ := read i₂ Q h2
  unfold Arith.preparedPaths
  rw [hv, Py.ok_bind, hw, Py.ok_bind, pyAssert_neg (by omega), Py.error_bind]

noncomputable def twoPoseRows : List Pose := [⟨⟨0, 0, 0⟩, ⟨0, 0, 0, 1⟩⟩, ⟨⟨1, 0, 0⟩, ⟨0, 0, 0.6, 0.8⟩⟩]

example (acos : ℝ → ℝ) : (doubleArith acos).preparedPaths false false twoPoseRows [] = .error .assertion :=
  C121_lengths _ false false _ _ (by simp [twoPoseRows]) (by simp) (by simp)

/-- Two tables of inverse and of direct poses. -/
example (svd : Svd) (rng : ℕ → List ℕ) (fuel : ℕ) :
    calibrationScript svd rng fuel { aligned_poses_H_B := some (twoPoseRows.map (⟨0, ·⟩)), aligned_poses_W_E := some (twoPoseRows.map (⟨0, ·⟩)) } = (do
      let paths ← exactArith.preparedPaths true false twoPoseRows twoPoseRows
      let r ← ransac svd rng getExhaustiveSearchScalarPartInliersConfig.config paths.1 paths.2 fuel
      writeOutputs { aligned_poses_H_B := some (twoPoseRows.map (⟨0, ·⟩)), aligned_poses_W_E := some (twoPoseRows.map (⟨0, ·⟩)) } r) := by
  have := C121_exact svd rng fuel true false (twoPoseRows.map (⟨0, ·⟩)) (twoPoseRows.map (⟨0, ·⟩)) false none false (by simp) _ rfl
  simpa [List.map_map, Function.comp_def] using this

end HandEye
