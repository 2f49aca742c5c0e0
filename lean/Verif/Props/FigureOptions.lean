import Verif.Model.FigureOptions
import Verif.Props.Figures3d2

/-! # Property C84: the option for the thinning of the figures -/

namespace HandEye

/-- C84, `--plot_every_nth_pose` of `compute_hand_eye_calibration.py`: the figures of the evaluation show every n-th pose, and with
zero they are a ValueError. -/
theorem C84_option (ot pt : ℝ) (n : ℕ) (A B : List Pose) (hl : A.length = B.length) (hA : A ≠ [])
    (qA : ∀ p ∈ A, p.q.norm > 1e-8) (qB : ∀ p ∈ B, p.q.norm > 1e-8) :
    (n ≠ 0 → ∃ errors poses a b, configuredFigures ot pt (singleScriptConfig n) A B = some (.ok (errors, poses)) ∧
      poses.paths.map PathDrawing.line = [a, b] ∧
      (∀ i : ℕ, a[i]? = (A[i * n]?).map fun p => p.pos) ∧ ∀ i : ℕ, b[i]? = (B[i * n]?).map fun p => p.pos) ∧
    (n = 0 → configuredFigures ot pt (singleScriptConfig n) A B = some (.error .value)) := by
  have e : configuredFigures ot pt (singleScriptConfig n) A B = some (evaluationFigures ot pt n A B) := rfl
  rw [e]
  refine ⟨fun hn => ?_, fun hn => ?_⟩
  · obtain ⟨errors, poses, a, b, h, r⟩ := C84_evaluation ot pt n hn A B hl hA qA qB
    exact ⟨errors, poses, a, b, by rw [h], r⟩
  · obtain ⟨errors, es, h, -⟩ := C84_errors ot pt A B hl hA qA qB
    unfold evaluationFigures
    rw [h, Py.ok_bind, hn]
    rfl

/-- C84, `--plot_every_nth_pose` of `compute_set_of_hand_eye_calibrations.py`: whatever the option says, zero included, the figures of
the evaluation show every tenth pose. -/
theorem C84_option_refuted (ot pt : ℝ) (n : ℕ) (A B : List Pose) (hl : A.length = B.length) (hA : A ≠ [])
    (qA : ∀ p ∈ A, p.q.norm > 1e-8) (qB : ∀ p ∈ B, p.q.norm > 1e-8) :
    ∃ errors poses a b, configuredFigures ot pt (setScriptConfig n) A B = some (.ok (errors, poses)) ∧
      poses.paths.map PathDrawing.line = [a, b] ∧
      (∀ i : ℕ, a[i]? = (A[i * 10]?).map fun p => p.pos) ∧ ∀ i : ℕ, b[i]? = (B[i * 10]?).map fun p => p.pos := by
  obtain ⟨errors, poses, a, b, h, r⟩ := C84_evaluation ot pt 10 (by norm_num) A B hl hA qA qB
  have e : configuredFigures ot pt (setScriptConfig n) A B = some (evaluationFigures ot pt 10 A B) := rfl
  exact ⟨errors, poses, a, b, by rw [e, h], r⟩

/-- C84, the figure before the calibration: every n-th pose in both scripts. -/
theorem C84_unaligned_figure (n : ℕ) (A B : List Pose) (hA : A ≠ []) (hB : B ≠ []) :
    (n ≠ 0 → ∃ poses a b, unalignedFigure n A B = .ok poses ∧ poses.paths.map PathDrawing.line = [a, b] ∧
      (∀ i : ℕ, a[i]? = (A[i * n]?).map fun p => p.pos) ∧ ∀ i : ℕ, b[i]? = (B[i * n]?).map fun p => p.pos) ∧
    (n = 0 → unalignedFigure n A B = .error .value) := by
  refine ⟨fun hn => ?_, fun hn => ?_⟩
  · obtain ⟨a, ha, ga, na⟩ := C84_every_nth A n hn
    obtain ⟨b, hb, gb, nb⟩ := C84_every_nth B n hn
    obtain ⟨fig, hf, hline, -⟩ := C84_positions [a, b] true (by simp) (by simp) (by simp [na hA, nb hB])
    refine ⟨fig, a.map fun p => p.pos, b.map fun p => p.pos, ?_, by simpa using hline, ?_, ?_⟩
    · unfold unalignedFigure
      rw [ha, Py.ok_bind, hb, Py.ok_bind, hf]
    · intro i
      rw [List.getElem?_map, ga]
    · intro i
      rw [List.getElem?_map, gb]
  · unfold unalignedFigure
    rw [hn]
    rfl

/-- Two poses each and the option 1: the one script draws both of them, the other one draws the first only. -/
example : ∃ A B : List Pose, A.length = 2 ∧ B.length = 2 ∧
    (∃ errors poses, configuredFigures 1 1 (singleScriptConfig 1) A B = some (.ok (errors, poses)) ∧
      poses.paths.map PathDrawing.line = [[⟨0, 0, 0⟩, ⟨1, 0, 0⟩], [⟨0, 0, 0⟩, ⟨1, 0, 0⟩]]) ∧
    ∃ errors poses, configuredFigures 1 1 (setScriptConfig 1) A B = some (.ok (errors, poses)) ∧
      poses.paths.map PathDrawing.line = [[⟨0, 0, 0⟩], [⟨0, 0, 0⟩]] := by
  have hq : (⟨0, 0, 0, 1⟩ : Quat).norm = 1 := by simp [Quat.norm, Quat.dot]
  have hu : ∀ p ∈ ([⟨⟨0, 0, 0⟩, ⟨0, 0, 0, 1⟩⟩, ⟨⟨1, 0, 0⟩, ⟨0, 0, 0, 1⟩⟩] : List Pose), p.q.norm > 1e-8 := by
    intro p hp
    simp only [List.mem_cons, List.not_mem_nil, or_false] at hp
    rcases hp with rfl | rfl <;> (show Quat.norm _ > _; rw [hq]; norm_num)
  refine ⟨[⟨⟨0, 0, 0⟩, ⟨0, 0, 0, 1⟩⟩, ⟨⟨1, 0, 0⟩, ⟨0, 0, 0, 1⟩⟩], [⟨⟨0, 0, 0⟩, ⟨0, 0, 0, 1⟩⟩, ⟨⟨1, 0, 0⟩, ⟨0, 0, 0, 1⟩⟩], rfl, rfl, ?_, ?_⟩
  · obtain ⟨errors, poses, a, b, h, hl, ha, hb⟩ := (C84_option 1 1 1 _ _ rfl (by simp) hu hu).1 (by norm_num)
    refine ⟨errors, poses, h, ?_⟩
    rw [hl, List.ext_getElem? (l₁ := a) (l₂ := [⟨0, 0, 0⟩, ⟨1, 0, 0⟩]) fun i => by rw [ha i, mul_one, ← List.getElem?_map]; rfl,
      List.ext_getElem? (l₁ := b) (l₂ := [⟨0, 0, 0⟩, ⟨1, 0, 0⟩]) fun i => by rw [hb i, mul_one, ← List.getElem?_map]; rfl]
  · obtain ⟨errors, poses, a, b, h, hl, ha, hb⟩ := C84_option_refuted 1 1 1 _ _ rfl (by simp) hu hu
    have tenth : ∀ i : ℕ, (([⟨⟨0, 0, 0⟩, ⟨0, 0, 0, 1⟩⟩, ⟨⟨1, 0, 0⟩, ⟨0, 0, 0, 1⟩⟩] : List Pose)[i * 10]?).map (fun p => p.pos) =
        ([⟨0, 0, 0⟩] : List Vec3)[i]? := by
      intro i
      cases i with
      | zero => rfl
      | succ i => rw [List.getElem?_eq_none (by simp; omega), List.getElem?_eq_none (by simp)]; rfl
    refine ⟨errors, poses, h, ?_⟩
    rw [hl, List.ext_getElem? (l₁ := a) (l₂ := [⟨0, 0, 0⟩]) fun i => by rw [ha i, tenth],
      List.ext_getElem? (l₁ := b) (l₂ := [⟨0, 0, 0⟩]) fun i => by rw [hb i, tenth]]

end HandEye
