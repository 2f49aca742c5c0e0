import Verif.Props.OutlierScript3

/-! # C96: an example with the outliers at the end of the tables -/

namespace HandEye

/-- The hand: the good rows, and two rows at rest. -/
noncomputable def badEndA : List Pose := exactRows ++ [⟨⟨0, 0, 0⟩, ⟨0, 0, 0, 1⟩⟩, ⟨⟨0, 0, 0⟩, ⟨0, 0, 0, 1⟩⟩]

/-- The eye: the good rows, and two displaced rows. -/
noncomputable def badEndB : List Pose := exactRows ++ [⟨⟨5, 5, 0⟩, ⟨0, 0, 0, 1⟩⟩, ⟨⟨5, 5, 0⟩, ⟨0, 0, 0, 1⟩⟩]

theorem badEndA_mem (p : Pose) : p ∈ badEndA ↔ p ∈ badStartA := by
  simp only [badEndA, badStartA, List.mem_append, List.mem_cons, List.not_mem_nil, or_false]
  tauto

theorem badEndB_mem (p : Pose) : p ∈ badEndB ↔ p ∈ badStartB := by
  simp only [badEndB, badStartB, List.mem_append, List.mem_cons, List.not_mem_nil, or_false]
  tauto

theorem badEnd_perm : (Spec.measurements badEndA badEndB).Perm (Spec.measurements badStartA badStartB) := by
  have e : Spec.measurements badEndA badEndB = (exactRows.map Spec.poseDual).zip (exactRows.map Spec.poseDual) ++
      [(Spec.poseDual ⟨⟨0, 0, 0⟩, ⟨0, 0, 0, 1⟩⟩, Spec.poseDual ⟨⟨5, 5, 0⟩, ⟨0, 0, 0, 1⟩⟩),
        (Spec.poseDual ⟨⟨0, 0, 0⟩, ⟨0, 0, 0, 1⟩⟩, Spec.poseDual ⟨⟨5, 5, 0⟩, ⟨0, 0, 0, 1⟩⟩)] := rfl
  rw [e]
  exact List.perm_append_comm

/-- With the two outliers at the end instead of the beginning, the script ends normally, and writes the true transform (which is the
identity here). -/
example : ∃ svd : Svd, ∃ fuel, ∀ rng : ℕ → List ℕ, ∃ out P, calibrationScript svd rng fuel
    { aligned_poses_B_H := some (badEndA.map fun p => ⟨0, p⟩), aligned_poses_W_E := some (badEndB.map fun p => ⟨0, p⟩),
      extrinsics_output := true } = .ok (some out) ∧ out.extrinsics = some P ∧ ∀ x, Spec.poseMotion P x = x := by
  have u1 := DQuat.isUnit_one
  have e1 : ∀ x, Spec.motion 1 x = x := fun y => by
    have := DQuat.motion_conj_motion DQuat.isUnit_one y
    have hc1 : (1 : DQuat).conj = 1 := DQuat.ext' (by ext <;> simp) (by ext <;> simp)
    rw [hc1, ← DQuat.motion_mul DQuat.isUnit_one DQuat.isUnit_one, one_mul] at this
    exact this
  have hm : ∀ m, m ∈ Spec.measurements badEndA badEndB ↔ m ∈ Spec.measurements badStartA badStartB := fun m => badEnd_perm.mem_iff
  have hnum : ∀ P, Spec.number P (Spec.measurements badEndA badEndB) = Spec.number P (Spec.measurements badStartA badStartB) := fun P => by
    unfold Spec.number
    exact badEnd_perm.countP_eq _
  have hA : ∀ p ∈ badEndA, p.q.norm = 1 := fun p hp => badStartA_norm p ((badEndA_mem p).mp hp)
  have hB : ∀ p ∈ badEndB, p.q.norm = 1 := fun p hp => badStartB_norm p ((badEndB_mem p).mp hp)
  have hvis : ∀ p ∈ Spec.measurements badEndA badEndB, Spec.FitsMotion 1 1 p → ∀ q ∈ Spec.measurements badEndA badEndB,
      Spec.Corresponds 0.01 p q → Spec.FitsMotion 1 1 q := by
    intro p hp hpf q hq hc
    rw [hm] at hp hq
    revert q
    revert p
    refine badStart_cases (fun h => absurd h bad_not_fits) fun p hp _ => badStart_cases ?_ fun q _ _ => same_fits _
    exact fun h => absurd h (good_sees_bad p hp)
  have hfew : ∀ p ∈ Spec.measurements badEndA badEndB, ¬ Spec.FitsMotion 1 1 p →
      Spec.number (Spec.Corresponds 0.01 p) (Spec.measurements badEndA badEndB) < 10 := by
    intro p hp
    rw [hm] at hp
    rw [hnum]
    revert p
    exact badStart_cases (fun _ => badStart_few) fun p _ h => absurd (same_fits _) h
  have hnA : ∀ p ∈ badEndA, ∀ q ∈ badEndA, ¬ Spec.HalfTurn p q := fun p hp q hq =>
    badStartA_turns p ((badEndA_mem p).mp hp) q ((badEndA_mem q).mp hq)
  have hnB : ∀ p ∈ badEndB, ∀ q ∈ badEndB, ¬ Spec.HalfTurn p q := fun p hp q hq =>
    badStartB_turns p ((badEndB_mem p).mp hp) q ((badEndB_mem q).mp hq)
  have h2 : Spec.TurnsAboutTwoAxes (Spec.handsOf (Spec.FitsMotion 1 1) (Spec.measurements badEndA badEndB)) := by
    have hh : ∀ a, a ∈ Spec.handsOf (Spec.FitsMotion 1 1) (Spec.measurements badStartA badStartB) →
        a ∈ Spec.handsOf (Spec.FitsMotion 1 1) (Spec.measurements badEndA badEndB) := fun a ha =>
      ((badEnd_perm.filter _).map _).mem_iff.mpr ha
    obtain ⟨a, ha, b, hb, c, hc, hx⟩ := badStart_axes
    exact ⟨a, hh a ha, b, hh b hb, c, hh c hc, hx⟩
  have hst : Spec.BothStartTurning badEndA badEndB := by
    have hq : (0.6 : ℝ) ≤ √0.5904 := Real.le_sqrt_of_sq_le (by norm_num)
    have hf : Spec.FarTurns ⟨⟨0, 0, 0⟩, ⟨0.6, 0, 0, 0.8⟩⟩ ⟨⟨0, 0, 0⟩, ⟨0.28, 0, 0, 0.96⟩⟩ ⟨⟨0, 0, 0⟩, ⟨0, 0.6, 0, 0.8⟩⟩ := by
      refine ⟨0.352, √0.5904, by norm_num, lt_of_lt_of_le (by norm_num) hq, ?_⟩
      rw [Real.sq_sqrt (by norm_num)]
      simp only [turn_eq]
      refine ⟨by norm_num [Quat.conj, Quat.vec], by norm_num [Quat.conj, Quat.vec], ?_⟩
      refine le_trans (b := 0.95 * (0.352 * 0.6)) (by norm_num [Quat.conj, Quat.vec, abs_of_pos]) ?_
      have : (0.352 : ℝ) * 0.6 ≤ 0.352 * √0.5904 := mul_le_mul_of_nonneg_left hq (by norm_num)
      linarith
    refine ⟨_, _, [], _, _, (badEndA.drop 2).zip (badEndB.drop 2), ⟨⟨0, 0, 0⟩, ⟨0, 0.6, 0, 0.8⟩⟩, ⟨⟨0, 0, 0⟩, ⟨0, 0.6, 0, 0.8⟩⟩, rfl,
      by simp, by simp [badEndA, badEndB, exactRows], hf, hf⟩
  obtain ⟨svd, hsvd, hs⟩ := C96_succeeds_partial
  obtain ⟨fuel, hfuel⟩ := hs 1 1 u1 u1 (by norm_num) badEndA badEndB hA hB rfl hvis hfew hnA hnB h2 (by rw [hnum]; exact badStart_good.ge)
    ⟨0, by norm_num, _, rfl, same_fits _⟩ hst
  refine ⟨svd, fuel, fun rng => ?_⟩
  have g1 : Given (some (badEndA.map fun p => (⟨0, p⟩ : StampedPose))) none badEndA := Or.inl ⟨_, rfl, rfl, by simp [List.map_map, Function.comp_def]⟩
  have g2 : Given (some (badEndB.map fun p => (⟨0, p⟩ : StampedPose))) none badEndB := Or.inl ⟨_, rfl, rfl, by simp [List.map_map, Function.comp_def]⟩
  obtain ⟨out, ho⟩ := hfuel rng
    { aligned_poses_B_H := some (badEndA.map fun p => ⟨0, p⟩),
      aligned_poses_W_E := some (badEndB.map fun p => ⟨0, p⟩), extrinsics_output := true } g1 g2 (by simp)
  obtain ⟨P, p1, -, -, p4⟩ := (C96_outliers svd hsvd rng fuel 1 1 u1 u1 (by norm_num) badEndA badEndB hA hB hvis hfew hnA hnB h2 _ g1 g2
    out ho).1 rfl
  exact ⟨out, P, ho, p1, fun x => by rw [p4, e1]⟩

end HandEye
