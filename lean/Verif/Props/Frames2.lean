import Verif.Props.Frames

/-! # C95: the calibration script, and the prefilter -/

namespace HandEye

/-- What the script reads of a sensor, seen from another world frame. -/
theorem given_seen {g : DQuat} (hg : Spec.IsUnit g) {A A' : List Pose} (hA : ∀ p ∈ A, p.q.norm = 1)
    (hA' : ∀ p ∈ A', p.q.norm = 1) (h : Spec.PosesSeenFrom g A A')
    (hne : ∀ p₀, A.head? = some p₀ → ∀ p ∈ A, ¬ Spec.HalfTurn p₀ p) {d i d' i' : Option (List StampedPose)}
    (h1 : Given d i A) (h2 : Given d' i' A') :
    d.isSome ≠ i.isSome ∧ d'.isSome ≠ i'.isSome ∧ ∃ v v', inputPoses d i = .ok v ∧ inputPoses d' i' = .ok v' ∧
      v'.length = v.length ∧ alignPathsAtIndex v' = alignPathsAtIndex v := by
  obtain ⟨i1, v, j1, s1⟩ := given_input hA h1
  obtain ⟨i2, v', j2, s2⟩ := given_input hA' h2
  have hu : ∀ b ∈ A.map DQuat.fromPose, Spec.IsUnit b := by
    intro b hb
    obtain ⟨p, hp, rfl⟩ := List.mem_map.mp hb
    exact fromPose_isUnit (hA p hp)
  have hneb : ∀ b₀, (A.map DQuat.fromPose).head? = some b₀ → ∀ b ∈ A.map DQuat.fromPose, (b₀.conj * b).rot.w ≠ 0 := by
    intro b₀ hb₀ b hb
    rw [List.head?_map] at hb₀
    obtain ⟨p₀, hp₀, rfl⟩ := Option.map_eq_some_iff.mp hb₀
    obtain ⟨p, hp, rfl⟩ := List.mem_map.mp hb
    have e := relative_toH (hA _ (List.mem_of_mem_head? hp₀)) (hA p hp)
    intro h0
    apply hne p₀ hp₀ p hp
    unfold Spec.HalfTurn
    rw [← e]
    exact h0
  have hs : List.Forall₂ (fun a a' => a' = g * a ∨ a' = -(g * a)) (A.map DQuat.fromPose) (A'.map DQuat.fromPose) := by
    rw [List.forall₂_map_left_iff, List.forall₂_map_right_iff]
    refine List.forall₂_iff_get.mpr ⟨h.length_eq, fun n h1 h2 => ?_⟩
    have hp := hA _ (List.get_mem A ⟨n, h1⟩)
    have hq := hA' _ (List.get_mem A' ⟨n, h2⟩)
    have hx := (List.forall₂_iff_get.mp h).2 n h1 h2
    have up := fromPose_isUnit hp
    apply motion_ext (fromPose_isUnit hq) (DQuat.isUnit_mul hg up)
    intro x
    rw [DQuat.motion_mul hg up, ← poseMotion_eq hq, ← poseMotion_eq hp]
    exact hx x
  have hs' : List.Forall₂ (fun a a' => a' = g * a ∨ a' = -(g * a)) (A.map DQuat.fromPose) v' := by
    refine List.forall₂_iff_get.mpr ⟨hs.length_eq.trans s2.length_eq, fun n h1 h2 => ?_⟩
    have hm : n < (A'.map DQuat.fromPose).length := by rw [← hs.length_eq]; exact h1
    have e1 := (List.forall₂_iff_get.mp hs).2 n h1 hm
    have e2 := (List.forall₂_iff_get.mp s2).2 n hm h2
    rcases e1 with e1 | e1 <;> rcases e2 with e2 | e2 <;> rw [e2, e1]
    · exact Or.inl rfl
    · exact Or.inr rfl
    · exact Or.inr rfl
    · exact Or.inl (neg_neg _)
  refine ⟨i1, i2, v, v', j1, j2, ?_, ?_⟩
  · rw [← s1.length_eq, ← hs'.length_eq]
  · rw [align_signs hu s1 hneb]
    refine align_seen hg hu hs' 0 fun k a hk ha => hneb a ?_
    have : k = 0 := by
      unfold pyPos at hk
      simp only [le_refl, if_true, Int.toNat_zero] at hk
      split at hk
      · exact (Option.some.inj hk).symm
      · cases hk
    rw [List.head?_eq_getElem?, ← this]
    exact ha

/-- C95: the calibration script writes the same, or raises the same, whatever world frames the two tables are given in, whether
as poses or as inverse poses, and whatever signs their quaternions have.  The tables can be anything, as long as no pose
differs from the first one of its table by a half turn. -/
theorem C95_script (svd : Svd) (rng : ℕ → List ℕ) (fuel : ℕ) (g g' : DQuat) (hg : Spec.IsUnit g) (hg' : Spec.IsUnit g')
    (A A' B B' : List Pose) (hA : ∀ p ∈ A, p.q.norm = 1) (hA' : ∀ p ∈ A', p.q.norm = 1) (hB : ∀ p ∈ B, p.q.norm = 1)
    (hB' : ∀ p ∈ B', p.q.norm = 1) (hsA : Spec.PosesSeenFrom g A A') (hsB : Spec.PosesSeenFrom g' B B')
    (hnA : ∀ p₀, A.head? = some p₀ → ∀ p ∈ A, ¬ Spec.HalfTurn p₀ p)
    (hnB : ∀ p₀, B.head? = some p₀ → ∀ p ∈ B, ¬ Spec.HalfTurn p₀ p) (args args' : ScriptArgs)
    (h1 : Given args.aligned_poses_B_H args.aligned_poses_H_B A) (h1' : Given args'.aligned_poses_B_H args'.aligned_poses_H_B A')
    (h2 : Given args.aligned_poses_W_E args.aligned_poses_E_W B) (h2' : Given args'.aligned_poses_W_E args'.aligned_poses_E_W B')
    (ho : args'.extrinsics_output = args.extrinsics_output) (hc : args'.calibration_output = args.calibration_output)
    (ht : args'.time_offset_input = args.time_offset_input) :
    calibrationScript svd rng fuel args' = calibrationScript svd rng fuel args := by
  obtain ⟨a1, a2, v, v', a3, a4, a5, a6⟩ := given_seen hg hA hA' hsA hnA h1 h1'
  obtain ⟨b1, b2, w, w', b3, b4, b5, b6⟩ := given_seen hg' hB hB' hsB hnB h2 h2'
  have hw : ∀ r, writeOutputs args' r = writeOutputs args r := by
    intro r
    unfold writeOutputs
    rw [ho, hc, ht]
  unfold calibrationScript
  rw [pyAssert_pos a1, pyAssert_pos a2, pyAssert_pos b1, pyAssert_pos b2, a3, a4, b3, b4, hc, ht]
  simp only [Py.ok_bind, a5, b5, a6, b6, hw]

/-- If the axes of all poses are close to that of the first, the prefilter keeps that one only, and fails. -/
theorem prefilter_one {thr : ℝ} {a : DQuat} {n : Vec3} {l : List DQuat} (ha : Spec.HasAxis a n)
    (hu : ∀ b ∈ a :: l, Spec.IsUnit b) (h : ∀ b ∈ l, ∃ m, Spec.HasAxis b m ∧ thr < n.dot m) :
    prefilterUsingScrewAxis (a :: l) (a :: l) thr = .error .assertion := by
  have hax : ∀ a, Spec.IsUnit a → ∃ r, a.screwAxis = .ok r := fun a ha => by
    obtain ⟨_, _, _, h, _⟩ := C18_parameters a ha
    exact ⟨_, h⟩
  have hpre := prefilter_eq thr ((a :: l).map fun b => (b, b)) (by
    intro p hp
    obtain ⟨b, hb, rfl⟩ := List.mem_map.mp hp
    exact pairAxes_ok (hax _ (hu b hb)) (hax _ (hu b hb)))
  rw [List.map_map, List.map_map] at hpre
  have e : ∀ l : List DQuat, l.map (Prod.fst ∘ fun b => (b, b)) = l ∧ l.map (Prod.snd ∘ fun b => (b, b)) = l := by
    intro l
    induction l with
    | nil => exact ⟨rfl, rfl⟩
    | cons a l ih => exact ⟨congrArg (a :: ·) ih.1, congrArg (a :: ·) ih.2⟩
  rw [(e (a :: l)).1, (e (a :: l)).2] at hpre
  rw [hpre, List.map_cons, greedy_some _ _ (axesOf_eq ha ha)]
  have hf : ((l.map fun b => (b, b)).filter (survives axesOf (nearBy thr) (n, n))) = [] := by
    rw [List.filter_eq_nil_iff]
    intro p hp
    obtain ⟨b, hb, rfl⟩ := List.mem_map.mp hp
    obtain ⟨m, h1, h2⟩ := h b hb
    rw [survives, axesOf_eq h1 h1]
    simp only [Bool.not_eq_true, Bool.not_eq_false', decide_eq_true_eq]
    exact Or.inl h2
  rw [hf, greedy]
  exact if_neg (by simp)

/-- Turns by thirty-three degrees about z and x, from a resting pose. -/
noncomputable def frameHand : List DQuat :=
  ⟨⟨0, 0, 0, 1⟩, ⟨0, 0, 0, 0⟩⟩ :: ⟨⟨0, 0, 0.28, 0.96⟩, ⟨0, 0, 0, 0⟩⟩ :: ⟨⟨0.28, 0, 0, 0.96⟩, ⟨0, 0, 0, 0⟩⟩ ::
    List.replicate 7 ⟨⟨0, 0, 0, 1⟩, ⟨0, 0, 0, 0⟩⟩

/-- A half turn about z. -/
noncomputable def frameTurn : DQuat := ⟨⟨0, 0, 1, 0⟩, ⟨0, 0, 0, 0⟩⟩

theorem frameTurn_unit : Spec.IsUnit frameTurn := by
  rw [DQuat.isUnit_iff]
  norm_num [frameTurn, Quat.dot]

theorem frameHand_cases {P : DQuat → Prop} (h1 : P ⟨⟨0, 0, 0, 1⟩, ⟨0, 0, 0, 0⟩⟩) (h2 : P ⟨⟨0, 0, 0.28, 0.96⟩, ⟨0, 0, 0, 0⟩⟩)
    (h3 : P ⟨⟨0.28, 0, 0, 0.96⟩, ⟨0, 0, 0, 0⟩⟩) : ∀ a ∈ frameHand, P a := by
  intro a ha
  simp only [frameHand, List.mem_cons, List.mem_replicate] at ha
  rcases ha with rfl | rfl | rfl | ⟨-, rfl⟩
  · exact h1
  · exact h2
  · exact h3
  · exact h1

theorem frameHand_unit : ∀ a ∈ frameHand, Spec.IsUnit a := by
  apply frameHand_cases <;> rw [DQuat.isUnit_iff] <;> norm_num [Quat.dot]

theorem frameHand_turns : Spec.NoHalfTurns frameHand := by
  rw [noHalfTurns_iff]
  apply frameHand_cases <;> apply frameHand_cases <;> norm_num [DQuat.conj, Quat.conj]

/-- C95 fails with the prefilter, for the configuration that the calibration script uses: RANSAC on exact data (both sensors are
the same, and no two poses differ by a half turn) succeeds, and with both world frames turned it raises an AssertionError. -/
theorem C95_prefilter_refuted : ∃ (g : DQuat) (bs : List DQuat), Spec.IsUnit g ∧ (∀ a ∈ bs, Spec.IsUnit a) ∧
    Spec.NoHalfTurns bs ∧
    (∃ svd : Svd, (∀ T s V, svd T = .ok (s, V) → Spec.IsSVD T s V) ∧ ∃ fuel, ∀ rng, ∃ r,
      ransac svd rng getExhaustiveSearchScalarPartInliersConfig.config bs bs fuel = .ok (some r) ∧ r.success = true) ∧
    ∃ bs', Spec.SeenFrom g bs bs' ∧ ∀ svd rng fuel,
      ransac svd rng getExhaustiveSearchScalarPartInliersConfig.config bs' bs' fuel = .error .assertion := by
  have hcfg : getExhaustiveSearchScalarPartInliersConfig.config.prefilter_dot_product_threshold = 0.95 := rfl
  refine ⟨frameTurn, frameHand, frameTurn_unit, frameHand_unit, frameHand_turns, ?_, frameHand.map (frameTurn * ·), ?_, ?_⟩
  · obtain ⟨svd, hv, hgood⟩ := exists_good_svd
    have h1 := DQuat.isUnit_one
    have hm : Spec.Mounted 1 1 frameHand frameHand := by rw [mounted_iff]; simp
    have hc1 : (1 : DQuat).conj = 1 := DQuat.ext' (by ext <;> simp) (by ext <;> simp)
    have h2 : Spec.TurnsAboutTwoAxes frameHand := by
      refine ⟨_, List.mem_cons_self, _, List.mem_cons_of_mem _ List.mem_cons_self, _,
        List.mem_cons_of_mem _ (List.mem_cons_of_mem _ List.mem_cons_self), ?_⟩
      norm_num [DQuat.conj, Quat.conj, Spec.cross, Quat.vec]
    obtain ⟨r0, hpre⟩ := prefilter_mounted h1 frameHand_unit (by rw [hc1]; exact hm) (b₁ := ⟨⟨0, 0, 0.28, 0.96⟩, ⟨0, 0, 0, 0⟩⟩)
      (b₂ := ⟨⟨0.28, 0, 0, 0.96⟩, ⟨0, 0, 0, 0⟩⟩) (still := [⟨⟨0, 0, 0, 1⟩, ⟨0, 0, 0, 0⟩⟩]) (rest := frameHand.drop 2) rfl
      (by intro b hb; rw [List.mem_singleton.mp hb]; rfl) (by simp [frameHand]) (s₁ := 0.28) (s₂ := 0.28) (by norm_num)
      (by norm_num) (by norm_num) (by norm_num) (by norm_num)
    obtain ⟨bf', wf', hpre', l1, l2, -⟩ | hpre' := C32_unit_trajectories frameHand frameHand 0.95 rfl frameHand_unit frameHand_unit
    swap
    · rw [hpre] at hpre'; cases hpre'
    have hfil : filteredPoses getExhaustiveSearchScalarPartInliersConfig.config frameHand frameHand = .ok (bf', wf') := by
      unfold filteredPoses
      rw [if_pos (by rfl), hcfg, hpre', Py.ok_bind, pyAssert_pos l1.symm, Py.ok_bind]
      rfl
    obtain ⟨r, r1, r2⟩ := C61_succeeds svd hv (fun _ => [0]) getExhaustiveSearchScalarPartInliersConfig.config rfl
      (by norm_num [getExhaustiveSearchScalarPartInliersConfig, getBasicConfig])
      (by norm_num [getExhaustiveSearchScalarPartInliersConfig, getBasicConfig])
      (by norm_num [getExhaustiveSearchScalarPartInliersConfig, getBasicConfig])
      (by norm_num [getExhaustiveSearchScalarPartInliersConfig, getBasicConfig])
      (by norm_num [getExhaustiveSearchScalarPartInliersConfig, getBasicConfig])
      (by norm_num [getExhaustiveSearchScalarPartInliersConfig, getBasicConfig]) 1 1 h1 h1 (by norm_num) frameHand frameHand
      frameHand_unit hm h2
      (by norm_num [getExhaustiveSearchScalarPartInliersConfig, getBasicConfig, frameHand])
      (by norm_num [getExhaustiveSearchScalarPartInliersConfig, getBasicConfig, frameHand])
      (by
        intro k hk B' W' hB' hW'
        obtain ⟨B'', W'', e1, e2, e3, -, e5, -, e7, -⟩ := mounted_align h1 h1 frameHand_unit hm hk
        rw [hB'] at e1
        rw [hW'] at e2
        cases e1
        cases e2
        refine hgood B' W' 1 h1 (by norm_num) e5 ?_ e7 _ (by norm_num [getExhaustiveSearchScalarPartInliersConfig, getBasicConfig])
        obtain ⟨b₁, hb₁, b₂, hb₂, hne⟩ := twoAxes_any_base frameHand_unit h2 (List.getElem_mem hk)
        rw [e3, List.map_rotate]
        exact ⟨b₁, List.mem_rotate.mpr hb₁, b₂, List.mem_rotate.mpr hb₂, hne⟩)
      bf' wf' hfil (by change 1 ≤ _; omega)
      (fun _ => ⟨rfl, by simp, by simp; omega⟩)
    generalize (if getExhaustiveSearchScalarPartInliersConfig.config.enable_exhaustive_search = true then _ else _ : ℕ) =
      fuel at r1
    refine ⟨svd, hv, fuel, fun rng => ⟨r, ?_, r2⟩⟩
    rw [ransac_rng svd rng (fun _ => [0]) _ rfl]
    exact r1
  · rw [seen_iff, List.forall₂_map_right_iff]
    exact List.forall₂_same.mpr fun _ _ => Or.inl rfl
  · intro svd rng fuel
    have hu : ∀ a ∈ frameHand.map (frameTurn * ·), Spec.IsUnit a := by
      intro a ha
      obtain ⟨b, hb, rfl⟩ := List.mem_map.mp ha
      exact DQuat.isUnit_mul frameTurn_unit (frameHand_unit b hb)
    have key : ∀ (b : DQuat), b ∈ frameHand → ∃ m : Vec3, Spec.HasAxis (frameTurn * b) m ∧ 0.95 < (⟨0, 0, 1⟩ : Vec3).dot m := by
      have hx : ∀ (b : DQuat) (s : ℝ), b ∈ frameHand → 1e-12 < s → (frameTurn * b).rot.x ^ 2 + (frameTurn * b).rot.y ^ 2 +
          (frameTurn * b).rot.z ^ 2 = s ^ 2 → 0.95 < (frameTurn * b).rot.z / s →
          ∃ m : Vec3, Spec.HasAxis (frameTurn * b) m ∧ 0.95 < (⟨0, 0, 1⟩ : Vec3).dot m := by
        intro b s hb hs hv hd
        refine ⟨_, hasAxis_rotation (DQuat.isUnit_mul frameTurn_unit (frameHand_unit b hb)) hs hv, ?_⟩
        simpa [Vec3.dot] using hd
      intro b hb
      have : ∃ s : ℝ, 1e-12 < s ∧ (frameTurn * b).rot.x ^ 2 + (frameTurn * b).rot.y ^ 2 +
          (frameTurn * b).rot.z ^ 2 = s ^ 2 ∧ 0.95 < (frameTurn * b).rot.z / s := by
        revert b
        apply frameHand_cases
        · exact ⟨1, by norm_num [frameTurn], by norm_num [frameTurn], by norm_num [frameTurn]⟩
        · exact ⟨0.96, by norm_num [frameTurn], by norm_num [frameTurn], by norm_num [frameTurn]⟩
        · exact ⟨1, by norm_num [frameTurn], by norm_num [frameTurn], by norm_num [frameTurn]⟩
      obtain ⟨s, s1, s2, s3⟩ := this
      exact hx b s hb s1 s2 s3
    have h0 : Spec.HasAxis (frameTurn * ⟨⟨0, 0, 0, 1⟩, ⟨0, 0, 0, 0⟩⟩) ⟨0, 0, 1⟩ := by
      have := hasAxis_rotation (a := frameTurn * ⟨⟨0, 0, 0, 1⟩, ⟨0, 0, 0, 0⟩⟩) (s := 1)
        (DQuat.isUnit_mul frameTurn_unit (frameHand_unit _ List.mem_cons_self)) (by norm_num) (by norm_num [frameTurn])
      convert this using 1
      norm_num [frameTurn]
    have hpre := prefilter_one (thr := 0.95) (l := frameHand.tail.map (frameTurn * ·)) h0 hu (by
      intro b hb
      obtain ⟨c, hc, rfl⟩ := List.mem_map.mp hb
      exact key c (List.mem_of_mem_tail hc))
    have hpre' : prefilterUsingScrewAxis (frameHand.map (frameTurn * ·)) (frameHand.map (frameTurn * ·)) 0.95 =
      .error .assertion := hpre
    unfold ransac filteredPoses
    rw [pyAssert_pos rfl, Py.ok_bind, pyAssert_pos (by norm_num [getExhaustiveSearchScalarPartInliersConfig, frameHand]), Py.ok_bind,
      if_pos (by rfl), hcfg, hpre']
    rfl

/-! Examples: the poses of the script's example, seen from a world frame that is turned and shifted. -/

example : Spec.IsUnit scriptX ∧ Spec.PosesSeenFrom scriptX [⟨⟨0, 0, 0⟩, ⟨0, 0, 0, 1⟩⟩, ⟨⟨0, 0, 3⟩, ⟨0, 0, 0, -1⟩⟩]
    [⟨⟨0, 0, 2⟩, ⟨0, 0, -0.6, -0.8⟩⟩, ⟨⟨0, 0, 5⟩, ⟨0, 0, 0.6, 0.8⟩⟩] := by
  have u : Spec.IsUnit scriptX := by rw [DQuat.isUnit_iff]; norm_num [scriptX, Quat.dot]
  refine ⟨u, ?_⟩
  have key : ∀ p p' : Pose, p.q.norm = 1 → p'.q.norm = 1 → (DQuat.fromPose p' = scriptX * DQuat.fromPose p ∨
      DQuat.fromPose p' = -(scriptX * DQuat.fromPose p)) → ∀ x, Spec.poseMotion p' x = Spec.motion scriptX (Spec.poseMotion p x) := by
    intro p p' hp hp' h x
    rw [poseMotion_eq hp, poseMotion_eq hp', ← DQuat.motion_mul u (fromPose_isUnit hp)]
    rcases h with h | h <;> rw [h]
    exact motion_neg _ _
  have n : ∀ q : Quat, q.dot q = 1 → q.norm = 1 := fun q h => Quat.norm_eq_one.mpr h
  have f : ∀ p : Pose, p.q.dot p.q = 1 → DQuat.fromPose p = ⟨p.q, (0.5 : ℝ) • ((⟨p.pos.x, p.pos.y, p.pos.z, 0⟩ : Quat) * p.q)⟩ := by
    intro p h
    unfold DQuat.fromPose
    rw [Quat.normalize_unit h]
  refine .cons (key _ _ (n _ ?_) (n _ ?_) (Or.inr ?_)) (.cons (key _ _ (n _ ?_) (n _ ?_) (Or.inr ?_)) .nil)
  · norm_num [Quat.dot]
  · norm_num [Quat.dot]
  · rw [f _ (by norm_num [Quat.dot]), f _ (by norm_num [Quat.dot])]
    ext <;> norm_num [scriptX]
  · norm_num [Quat.dot]
  · norm_num [Quat.dot]
  · rw [f _ (by norm_num [Quat.dot]), f _ (by norm_num [Quat.dot])]
    ext <;> norm_num [scriptX]

end HandEye
