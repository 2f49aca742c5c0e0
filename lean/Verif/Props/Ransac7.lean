import Verif.Props.Ransac6

/-! # Property C92: an exhaustive search that reports the mounting of ten measurements instead of that of thirty -/

namespace HandEye

namespace Majority

/-- The hand poses of the few measurements. -/
noncomputable def few : List DQuat :=
  [1, ⟨⟨0.6, 0, 0, 0.8⟩, 0⟩, ⟨⟨0, 0.6, 0, 0.8⟩, 0⟩] ++ List.replicate 7 1

/-- The hand poses of the many. -/
noncomputable def many : List DQuat :=
  List.replicate 10 ⟨⟨0.8, 0, 0, 0.6⟩, 0⟩ ++ List.replicate 10 ⟨⟨0, 0.8, 0, 0.6⟩, 0⟩ ++ List.replicate 10 ⟨⟨0, 0, 0.8, 0.6⟩, 0⟩

/-- A mounting that differs from the identity by two metres along each axis. -/
noncomputable def shifted : DQuat := ⟨⟨0, 0, 0, 1⟩, ⟨1, 1, 1, 0⟩⟩

noncomputable def hands : List DQuat := few ++ many

noncomputable def eyes : List DQuat := few.map (fun b => 1 * b * shifted) ++ many.map (fun b => 1 * b * 1)

theorem few_mem {b : DQuat} (h : b ∈ few) : b ∈ [(1 : DQuat), ⟨⟨0.6, 0, 0, 0.8⟩, 0⟩, ⟨⟨0, 0.6, 0, 0.8⟩, 0⟩] := by
  rcases List.mem_append.mp h with h | h
  · exact h
  · rw [List.eq_of_mem_replicate h]; exact List.mem_cons_self

theorem many_mem {b : DQuat} (h : b ∈ many) :
    b ∈ [(⟨⟨0.8, 0, 0, 0.6⟩, 0⟩ : DQuat), ⟨⟨0, 0.8, 0, 0.6⟩, 0⟩, ⟨⟨0, 0, 0.8, 0.6⟩, 0⟩] := by
  simp only [many, List.mem_append] at h
  rcases h with (h | h) | h <;> rw [List.eq_of_mem_replicate h] <;> simp

theorem few_unit {b : DQuat} (h : b ∈ few) : Spec.IsUnit b := by
  have := few_mem h
  simp only [List.mem_cons, List.not_mem_nil, or_false] at this
  rcases this with rfl | rfl | rfl <;> rw [DQuat.isUnit_iff] <;> norm_num [Quat.dot]

theorem many_unit {b : DQuat} (h : b ∈ many) : Spec.IsUnit b := by
  have := many_mem h
  simp only [List.mem_cons, List.not_mem_nil, or_false] at this
  rcases this with rfl | rfl | rfl <;> rw [DQuat.isUnit_iff] <;> norm_num [Quat.dot]

theorem one_unit : Spec.IsUnit (1 : DQuat) := by rw [DQuat.isUnit_iff]; norm_num [Quat.dot]

theorem shifted_unit : Spec.IsUnit shifted := by rw [DQuat.isUnit_iff]; norm_num [Quat.dot, shifted]

theorem apart {a b : DQuat} (ha : a ∈ few) (hb : b ∈ many) :
    ¬ Spec.Corresponds 1e-2 (a, 1 * a * shifted) (b, 1 * b * 1) ∧ ¬ Spec.Corresponds 1e-2 (b, 1 * b * 1) (a, 1 * a * shifted) := by
  have ha := few_mem ha
  have hb := many_mem hb
  simp only [List.mem_cons, List.not_mem_nil, or_false] at ha hb
  refine ⟨?_, ?_⟩ <;> rintro ⟨-, h⟩ <;> revert h <;> simp only [Spec.scalarParts, shifted] <;>
    rcases ha with rfl | rfl | rfl <;> rcases hb with rfl | rfl | rfl <;> norm_num [abs_le] 

theorem zip_eq : hands.zip eyes = few.map (fun b => (b, 1 * b * shifted)) ++ many.map (fun b => (b, 1 * b * 1)) := by
  have e : ∀ (l : List DQuat) (f : DQuat → DQuat), l.zip (l.map f) = l.map fun b => (b, f b) := by
    intro l f
    induction l with
    | nil => rfl
    | cons a l ih => rw [List.map_cons, List.zip_cons_cons, ih, List.map_cons]
  unfold hands eyes
  rw [List.zip_append (by simp), e, e]

theorem cases_zip {p : DQuat × DQuat} (hp : p ∈ hands.zip eyes) :
    (∃ b ∈ few, p = (b, 1 * b * shifted)) ∨ ∃ b ∈ many, p = (b, 1 * b * 1) := by
  rw [zip_eq] at hp
  rcases List.mem_append.mp hp with hp | hp <;> obtain ⟨b, hb, rfl⟩ := List.mem_map.mp hp
  · exact Or.inl ⟨b, hb, rfl⟩
  · exact Or.inr ⟨b, hb, rfl⟩

theorem hands_unit : ∀ a ∈ hands, Spec.IsUnit a := by
  intro a ha
  rcases List.mem_append.mp ha with ha | ha
  · exact few_unit ha
  · exact many_unit ha

theorem eyes_unit : ∀ a ∈ eyes, Spec.IsUnit a := by
  intro a ha
  rcases List.mem_append.mp ha with ha | ha <;> obtain ⟨b, hb, rfl⟩ := List.mem_map.mp ha
  · exact DQuat.isUnit_mul (DQuat.isUnit_mul one_unit (few_unit hb)) shifted_unit
  · exact DQuat.isUnit_mul (DQuat.isUnit_mul one_unit (many_unit hb)) one_unit

theorem eyes_length : eyes.length = 40 := by simp [eyes, few, many]

theorem hands_length : hands.length = 40 := by simp [hands, few, many]

theorem few_fits (b : DQuat) : Spec.Fits 1 shifted (b, 1 * b * shifted) := fits_iff.mpr rfl

theorem many_fits (b : DQuat) : Spec.Fits 1 1 (b, 1 * b * 1) := fits_iff.mpr rfl

theorem few_only {b : DQuat} (h : b ∈ few) : ¬ Spec.Fits 1 1 (b, 1 * b * shifted) := by
  intro hf
  rw [fits_iff] at hf
  have := few_mem h
  simp only [List.mem_cons, List.not_mem_nil, or_false] at this
  have hd := congrArg (fun d => d.dual.y) hf
  revert hd
  rcases this with rfl | rfl | rfl <;> norm_num [shifted]

theorem many_only {b : DQuat} (h : b ∈ many) : ¬ Spec.Fits 1 shifted (b, 1 * b * 1) := by
  intro hf
  exact (apart (a := 1) (by simp [few]) h).1 (fits_agree (by norm_num) one_unit shifted_unit one_unit (many_unit h) (few_fits 1) hf)

theorem sep_few : ∀ p ∈ hands.zip eyes, Spec.Fits 1 shifted p → ∀ q ∈ hands.zip eyes, Spec.Corresponds 1e-2 p q → Spec.Fits 1 shifted q := by
  intro p hp hpf q hq hpq
  rcases cases_zip hq with ⟨b, hb, rfl⟩ | ⟨b, hb, rfl⟩
  · exact few_fits b
  · rcases cases_zip hp with ⟨a, ha, rfl⟩ | ⟨a, ha, rfl⟩
    · exact absurd hpq (apart ha hb).1
    · exact absurd hpf (many_only ha)

theorem sep_many : ∀ p ∈ hands.zip eyes, Spec.Fits 1 1 p → ∀ q ∈ hands.zip eyes, Spec.Corresponds 1e-2 p q → Spec.Fits 1 1 q := by
  intro p hp hpf q hq hpq
  rcases cases_zip hq with ⟨b, hb, rfl⟩ | ⟨b, hb, rfl⟩
  · rcases cases_zip hp with ⟨a, ha, rfl⟩ | ⟨a, ha, rfl⟩
    · exact absurd hpf (few_only ha)
    · exact absurd hpq (apart hb ha).2
  · exact many_fits b

theorem number_few : Spec.number (Spec.Fits 1 shifted) (hands.zip eyes) = 10 := by
  classical
  unfold Spec.number
  rw [zip_eq, List.countP_append, List.countP_map, List.countP_map, List.countP_eq_length.mpr, List.countP_eq_zero.mpr]
  · simp [few]
  · intro b hb
    simpa using many_only hb
  · intro b _
    exact decide_eq_true (few_fits b)

theorem number_many : Spec.number (Spec.Fits 1 1) (hands.zip eyes) = 30 := by
  classical
  unfold Spec.number
  rw [zip_eq, List.countP_append, List.countP_map, List.countP_map, List.countP_eq_zero.mpr, List.countP_eq_length.mpr]
  · simp [many]
  · intro b _
    exact decide_eq_true (many_fits b)
  · intro b hb
    simpa using few_only hb

theorem mem_few {b : DQuat} (h : b ∈ few) : b ∈ Spec.handsOf (Spec.Fits 1 shifted) (hands.zip eyes) := by
  classical
  refine List.mem_map.mpr ⟨(b, 1 * b * shifted), List.mem_filter.mpr ⟨?_, decide_eq_true (few_fits b)⟩, rfl⟩
  rw [zip_eq]
  exact List.mem_append_left _ (List.mem_map_of_mem h)

theorem mem_many {b : DQuat} (h : b ∈ many) : b ∈ Spec.handsOf (Spec.Fits 1 1) (hands.zip eyes) := by
  classical
  refine List.mem_map.mpr ⟨(b, 1 * b * 1), List.mem_filter.mpr ⟨?_, decide_eq_true (many_fits b)⟩, rfl⟩
  rw [zip_eq]
  exact List.mem_append_right _ (List.mem_map_of_mem h)

theorem axes_few : Spec.TurnsAboutTwoAxes (Spec.handsOf (Spec.Fits 1 shifted) (hands.zip eyes)) := by
  refine ⟨1, mem_few (by simp [few]), ⟨⟨0.6, 0, 0, 0.8⟩, 0⟩, mem_few (by simp [few]), ⟨⟨0, 0.6, 0, 0.8⟩, 0⟩, mem_few (by simp [few]), ?_⟩
  rw [Ne, cross_eq_zero]
  norm_num [Quat.vec]

theorem axes_many : Spec.TurnsAboutTwoAxes (Spec.handsOf (Spec.Fits 1 1) (hands.zip eyes)) := by
  refine ⟨⟨⟨0.8, 0, 0, 0.6⟩, 0⟩, mem_many (by simp [many]), ⟨⟨0, 0.8, 0, 0.6⟩, 0⟩, mem_many (by simp [many]),
    ⟨⟨0, 0, 0.8, 0.6⟩, 0⟩, mem_many (by simp [many]), ?_⟩
  rw [Ne, cross_eq_zero]
  norm_num [Quat.vec]

end Majority

open Majority in
/-- C92 fails for a concrete data set: thirty exact measurements fit the identity as mounting and ten a mounting that is shifted by two
metres along each axis, and the two groups are told apart by the scalar parts.  The exhaustive search with the default values
(without the prefilter) tries all samples and reports the shifted mounting with ten inliers, because it tries one of its
samples first. -/
theorem C92_majority_refuted :
    ∃ (bs ws : List DQuat) (X' : DQuat) (svd : Svd), (∀ T s V, svd T = .ok (s, V) → Spec.IsSVD T s V) ∧
      (∀ a ∈ bs, Spec.IsUnit a) ∧ (∀ a ∈ ws, Spec.IsUnit a) ∧ bs.length = 40 ∧ ws.length = 40 ∧
      Spec.number (Spec.Fits 1 1) (bs.zip ws) = 30 ∧ Spec.TurnsAboutTwoAxes (Spec.handsOf (Spec.Fits 1 1) (bs.zip ws)) ∧
      (∀ x, Spec.motion X' x = ⟨x.x + 2, x.y + 2, x.z + 2⟩) ∧
      ∀ rng, ∃ r, ransac svd rng { prefilter_poses_enabled := false, enable_exhaustive_search := true } bs ws (Nat.choose 40 3) =
        .ok (some r) ∧ r.success = true ∧ r.dq_H_E = some X' ∧ r.num_inliers = 10 := by
  obtain ⟨svd, hv, hgood⟩ := exists_good_svd
  have hl : eyes.length = hands.length := by rw [eyes_length, hands_length]
  refine ⟨hands, eyes, shifted, svd, hv, hands_unit, eyes_unit, hands_length, eyes_length, number_many, axes_many, ?_, fun rng => ?_⟩
  · intro x
    rw [DQuat.motion_eq]
    ext <;> norm_num [shifted, Quat.dot, Quat.vec]
  set cfg : HandEyeConfig := { prefilter_poses_enabled := false, enable_exhaustive_search := true } with hcfg
  have hsolve : ∀ X : DQuat, Spec.IsUnit X → X.rot.w ≠ 0 → ∀ B W, Spec.Exact B W X → (∀ b ∈ B, Spec.IsUnit b) → Spec.TwoAxes B →
      B.head? = some ⟨⟨0, 0, 0, 1⟩, ⟨0, 0, 0, 0⟩⟩ →
      ∃ r, computeHandEyeCalibration svd B W cfg.hand_eye_calibration_scalar_part_equality_tolerance = .ok r :=
    fun X hX hXw B W h1 _ h3 h4 => hgood B W X hX hXw h1 h3 h4 _ (by norm_num [hcfg])
  have hsw : shifted.rot.w ≠ 0 := by norm_num [shifted]
  have hu : ∀ m ∈ hands.zip eyes, Spec.IsUnit m.1 := fun m hm => hands_unit _ (List.of_mem_zip hm).1
  have hev : ∀ s, Spec.IsSample eyes.length cfg.ransac_sample_size s → ∃ o, evaluateSample svd cfg hands eyes hands eyes s = .ok o := by
    intro s hs
    obtain ⟨i0, s', rfl⟩ : ∃ i0 s', s = i0 :: s' := by
      cases s with
      | nil => simp [Spec.IsSample, hcfg] at hs
      | cons a l => exact ⟨a, l, rfl⟩
    have hi0 : i0 < eyes.length := hs.2.2 i0 List.mem_cons_self
    obtain ⟨p, hp⟩ : ∃ p, (hands.zip eyes)[i0]? = some p := ⟨_, List.getElem?_eq_getElem (by rw [List.length_zip]; omega)⟩
    have hpm := List.mem_of_getElem? hp
    rcases cases_zip hpm with ⟨b, hb, hpb⟩ | ⟨b, hb, hpb⟩
    · have hpf : Spec.Fits 1 shifted p := by rw [hpb]; exact few_fits b
      obtain ⟨s1, s2⟩ := agree_good (tol := 1e-2) (by norm_num) one_unit shifted_unit hu hpm hpf (sep_few p hpm hpf)
      obtain ⟨o, o1, -⟩ := cluster_outcome hv (cfg := cfg) rfl (tol := 1e-2) rfl (by norm_num) hl hands_unit eyes_unit hs hp
        ⟨one_unit, shifted_unit, hsw, sep_few p hpm hpf, by rw [s1]; exact axes_few, by rw [s2, number_few]⟩
        (hsolve _ shifted_unit hsw)
      exact ⟨o, o1⟩
    · have hpf : Spec.Fits 1 1 p := by rw [hpb]; exact many_fits b
      obtain ⟨s1, s2⟩ := agree_good (tol := 1e-2) (by norm_num) one_unit one_unit hu hpm hpf (sep_many p hpm hpf)
      obtain ⟨o, o1, -⟩ := cluster_outcome hv (cfg := cfg) rfl (tol := 1e-2) rfl (by norm_num) hl hands_unit eyes_unit hs hp
        ⟨one_unit, one_unit, by simp, sep_many p hpm hpf, by rw [s1]; exact axes_many, by rw [s2, number_many]; norm_num [hcfg]⟩
        (hsolve _ one_unit (by simp))
      exact ⟨o, o1⟩
  have hf : filteredPoses cfg hands eyes = .ok (hands, eyes) := rfl
  have hab : ∀ k, ∃ b, earlyAbort cfg k = .ok b := by
    intro k
    unfold earlyAbort
    rw [if_neg (by simp [hcfg])]
    exact ⟨false, rfl⟩
  set rng' : ℕ → List ℕ := fun _ => [0, 1, 2] with hrng'
  have hs : Spec.IsSample eyes.length cfg.ransac_sample_size [0, 1, 2] := by
    rw [eyes_length]
    refine ⟨rfl, by decide, by decide⟩
  rw [C39_deterministic svd rng rng' cfg hands eyes _ rfl]
  obtain ⟨o, ho⟩ := ransac_ok hl (by rw [eyes_length]; norm_num [hcfg]) hf (by rw [eyes_length]; norm_num [hcfg]) (fun _ => hs) hev hab
    (rng := rng') (Nat.choose 40 3)
  cases o with
  | none =>
    exfalso
    refine C39_terminates svd rng' cfg hands eyes _ rfl ?_ ho
    intro bf wf h
    rw [hf] at h
    cases h
    rw [eyes_length]
  | some r =>
    have hd : drawSample cfg rng' eyes.length 0 = .ok [0, 1, 2] := by
      rw [eyes_length]
      unfold drawSample
      rw [if_pos rfl]
      rfl
    have hfirst : Spec.AllFit 1 shifted hands eyes [0, 1, 2] := by
      intro i hi q hq
      have hi' : i < (few.map fun b => (b, 1 * b * shifted)).length := by
        have : i < 3 := by simp at hi; omega
        simp [few]
        omega
      rw [zip_eq, List.getElem?_append_left hi'] at hq
      obtain ⟨b, -, rfl⟩ := List.mem_map.mp (List.mem_of_getElem? hq)
      exact few_fits b
    have hpm : ((1 : DQuat), (1 : DQuat) * 1 * shifted) ∈ hands.zip eyes := by
      rw [zip_eq]
      exact List.mem_append_left _ (List.mem_map_of_mem (by simp [few]))
    have hp : (hands.zip eyes)[0]? = some ((1 : DQuat), (1 : DQuat) * 1 * shifted) := by
      rw [zip_eq]; rfl
    obtain ⟨s1, s2⟩ := agree_good (tol := 1e-2) (by norm_num) one_unit shifted_unit hu hpm (few_fits 1) (sep_few _ hpm (few_fits 1))
    obtain ⟨o, o1, o2⟩ := cluster_outcome hv (cfg := cfg) rfl (tol := 1e-2) rfl (by norm_num) hl hands_unit eyes_unit hs hp
      ⟨one_unit, shifted_unit, hsw, sep_few _ hpm (few_fits 1), by rw [s1]; exact axes_few, by rw [s2, number_few]⟩
      (hsolve _ shifted_unit hsw)
    obtain ⟨c, rfl, -⟩ := o2 fun i hi q hq =>
      fits_agree (by norm_num) one_unit shifted_unit one_unit (hu q (List.mem_of_getElem? hq)) (few_fits 1) (hfirst i hi q hq)
    have hsucc : r.success = true := by
      obtain ⟨bf, wf, samples, outs, e1, e2, e3, -⟩ := C38_success_iff svd rng' cfg hands eyes _ r ho
      rw [hf] at e1
      obtain ⟨rfl, rfl⟩ := Prod.mk.inj (Except.ok.inj e1)
      apply e3.mpr
      have hz := e2.outcomes
      cases hz with
      | nil =>
        exfalso
        rcases e2.stops with h | ⟨-, d, hd'⟩
        · simp [Spec.Exhausted, hcfg, eyes_length] at h
          revert h
          decide
        · simp at hd'
      | @cons s' o' samples' outs' z1 z2 =>
        have := e2.drawn 0 s' rfl
        rw [hd] at this
        cases this
        rw [o1] at z1
        cases z1
        exact ⟨c, List.mem_cons_self⟩
    have hall : ∀ p ∈ hands.zip eyes, Spec.Fits 1 1 p ∨ Spec.Fits 1 shifted p := by
      intro p hp
      rcases cases_zip hp with ⟨b, -, rfl⟩ | ⟨b, -, rfl⟩
      · exact Or.inr (few_fits b)
      · exact Or.inl (many_fits b)
    obtain ⟨dq, d1, d2, d3, d4, -⟩ := C92_first_wins_refuted svd hv rng' cfg rfl 1e-2 rfl (by norm_num) rfl (by norm_num [hcfg])
      1 1 1 shifted one_unit shifted_unit hsw rfl rfl hands eyes hands_unit eyes_unit hall sep_few axes_few (by rw [number_few])
      (hsolve _ shifted_unit hsw) [0, 1, 2] hs hd hfirst _ r ho hsucc
    refine ⟨r, ho, hsucc, ?_, by rw [d4, number_few]⟩
    rcases sameUpToSign_iff.mp d2 with h | h
    · rw [d1, h]
    · rw [h] at d3
      norm_num [shifted] at d3

open Majority in
/-- With one inlier more required the same data are covered by `C92_most_inliers_partial`: no mounting fits more measurements than the
reported one has inliers, which are therefore thirty. -/
example (svd : Svd) (hsvd : ∀ T s V, svd T = .ok (s, V) → Spec.IsSVD T s V) (rng : ℕ → List ℕ) (fuel : ℕ) (r : CalibrationResult)
    (h : ransac svd rng { min_num_inliers := 11 } hands eyes fuel = .ok (some r)) (hs : r.success = true) : 30 ≤ r.num_inliers := by
  have hu : ∀ m ∈ hands.zip eyes, Spec.IsUnit m.1 := fun m hm => hands_unit _ (List.of_mem_zip hm).1
  have := C92_most_inliers_partial svd hsvd rng { min_num_inliers := 11 } rfl 1e-2 rfl (by norm_num) 1 1 one_unit one_unit (by simp)
    hands eyes hands_unit eyes_unit sep_many (fun p hp hpf => ?_) axes_many fuel r h hs 1 1 one_unit one_unit
  · rwa [number_many] at this
  · rcases cases_zip hp with ⟨b, hb, hpb⟩ | ⟨b, hb, rfl⟩
    · have hpf' : Spec.Fits 1 shifted p := by rw [hpb]; exact few_fits b
      rw [(agree_good (by norm_num) one_unit shifted_unit hu hp hpf' (sep_few p hp hpf')).2, number_few]
      norm_num
    · exact absurd (many_fits b) hpf

end HandEye
