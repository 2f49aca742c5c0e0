import Verif.Props.RoundedRansac2
import Verif.Props.RoundedBaseline2
import Verif.Props.AlgorithmsExample

/-! # Property C117: a run of RANSAC in `float64` -/

namespace HandEye

/-- A turn whose components are `float64` numbers, also after a multiplication with `2⁻²⁸`, and whose length is one without rounding errors. -/
structure PlainTurn (acos : ℝ → ℝ) (q : Quat) : Prop where
  x : roundDouble q.x = q.x
  y : roundDouble q.y = q.y
  z : roundDouble q.z = q.z
  w : roundDouble q.w = q.w
  ex : roundDouble (2⁻¹ ^ 28 * q.x) = 2⁻¹ ^ 28 * q.x
  ey : roundDouble (2⁻¹ ^ 28 * q.y) = 2⁻¹ ^ 28 * q.y
  ez : roundDouble (2⁻¹ ^ 28 * q.z) = 2⁻¹ ^ 28 * q.z
  ew : roundDouble (2⁻¹ ^ 28 * q.w) = 2⁻¹ ^ 28 * q.w
  length : (doubleArith acos).norm q = 1
  pos : 0 < q.w

theorem rd_half_eps : roundDouble (2⁻¹ ^ 28 * (1 / 2)) = 2⁻¹ ^ 28 * (1 / 2) := by
  rw [roundDouble_eq 81 (2 ^ 52) (by norm_num) (by norm_num) (by norm_num)]; norm_num

theorem rd_minus_half_eps : roundDouble (2⁻¹ ^ 28 * (-1 / 2)) = 2⁻¹ ^ 28 * (-1 / 2) := by
  rw [show (2⁻¹ ^ 28 * (-1 / 2) : ℝ) = -(2⁻¹ ^ 28 * (1 / 2)) by ring, roundDouble_neg, rd_half_eps]

theorem plain_one (acos : ℝ → ℝ) : PlainTurn acos ⟨0, 0, 0, 1⟩ := by
  have hfl : ∀ x, (doubleArith acos).fl x = roundDouble x := fun _ => rfl
  refine ⟨roundDouble_zero, roundDouble_zero, roundDouble_zero, rd_one, ?_, ?_, ?_, ?_, ?_, one_pos⟩
  iterate 3 · rw [mul_zero, roundDouble_zero]
  · rw [mul_one, rd_eps]
  · unfold Arith.norm
    rw [dot_last, mul_one, rd_one, rd_one, hfl, Real.sqrt_one, rd_one]

theorem plain_halves (acos : ℝ → ℝ) {x : ℝ} (hx : x = 1 / 2 ∨ x = -1 / 2) : PlainTurn acos ⟨x, 1 / 2, 1 / 2, 1 / 2⟩ := by
  have hfl : ∀ x, (doubleArith acos).fl x = roundDouble x := fun _ => rfl
  have hq : roundDouble (1 / 4) = 1 / 4 := by
    rw [roundDouble_eq 54 (2 ^ 52) (by norm_num) (by norm_num) (by norm_num)]; norm_num
  have h3 : roundDouble (3 / 4) = 3 / 4 := by
    rw [roundDouble_eq 53 (3 * 2 ^ 51) (by norm_num) (by norm_num) (by norm_num)]; norm_num
  have hl : (doubleArith acos).norm ⟨x, 1 / 2, 1 / 2, 1 / 2⟩ = 1 := by
    have hxx : x * x = 1 / 4 := by rcases hx with rfl | rfl <;> norm_num
    unfold Arith.norm
    simp only [doubleArith, hxx, hq, show (1 / 2 * (1 / 2) : ℝ) = 1 / 4 by norm_num, show (1 / 4 + 1 / 4 : ℝ) = 1 / 2 by norm_num, rd_half,
      show (1 / 2 + 1 / 4 : ℝ) = 3 / 4 by norm_num, h3, show (3 / 4 + 1 / 4 : ℝ) = 1 by norm_num, rd_one, Real.sqrt_one]
  rcases hx with rfl | rfl
  · exact ⟨rd_half, rd_half, rd_half, rd_half, rd_half_eps, rd_half_eps, rd_half_eps, rd_half_eps, hl, by norm_num⟩
  · exact ⟨rd_minus_half, rd_half, rd_half, rd_half, rd_minus_half_eps, rd_half_eps, rd_half_eps, rd_half_eps, hl, by norm_num⟩

section
variable {acos : ℝ → ℝ} {q : Quat} (h : PlainTurn acos q)
include h

/-- The normalisation of such a turn changes nothing. -/
theorem PlainTurn.normalize {d : Quat} (d1 : roundDouble d.x = d.x) (d2 : roundDouble d.y = d.y) (d3 : roundDouble d.z = d.z) (d4 : roundDouble d.w = d.w) :
    (doubleArith acos).dqNormalize ⟨q, d⟩ = .ok ⟨q, d⟩ := by
  have hfl : ∀ x, (doubleArith acos).fl x = roundDouble x := fun _ => rfl
  unfold Arith.dqNormalize Arith.divScalar
  simp only [h.length, one_ne_zero, if_false, Py.ok_bind, Py.pure_eq, Arith.quot, hfl, div_one, h.x, h.y, h.z, h.w, d1, d2, d3, d4]

theorem PlainTurn.toPose : (doubleArith acos).toPose ⟨q, ⟨0, 0, 0, 0⟩⟩ = .ok ⟨⟨0, 0, 0⟩, q⟩ := by
  have hfl : ∀ x, (doubleArith acos).fl x = roundDouble x := fun _ => rfl
  unfold Arith.toPose
  rw [h.normalize roundDouble_zero roundDouble_zero roundDouble_zero roundDouble_zero, Py.ok_bind]
  simp [Arith.mul, Arith.smul, hfl, roundDouble_zero, Quat.vec, h.pos.not_gt, Py.pure_eq]

/-- Such a turn moved by the calibration that the solver finds. -/
theorem PlainTurn.moved : (doubleArith acos).alignedHandPose ⟨⟨0, 0, 0, 1⟩, ⟨0, 0, 0, 2⁻¹ ^ 28⟩⟩ ⟨q, ⟨0, 0, 0, 0⟩⟩ ⟨q, ⟨0, 0, 0, 0⟩⟩ =
    .ok ⟨q, ⟨2⁻¹ ^ 28 * q.x, 2⁻¹ ^ 28 * q.y, 2⁻¹ ^ 28 * q.z, 2⁻¹ ^ 28 * q.w⟩⟩ := by
  have hfl : ∀ x, (doubleArith acos).fl x = roundDouble x := fun _ => rfl
  have hm : (doubleArith acos).dqMul ⟨q, ⟨0, 0, 0, 0⟩⟩ ⟨⟨0, 0, 0, 1⟩, ⟨0, 0, 0, 2⁻¹ ^ 28⟩⟩ =
      ⟨q, ⟨2⁻¹ ^ 28 * q.x, 2⁻¹ ^ 28 * q.y, 2⁻¹ ^ 28 * q.z, 2⁻¹ ^ 28 * q.w⟩⟩ := by
    unfold Arith.dqMul Arith.mul Arith.add
    simp only [hfl, mul_one, mul_zero, roundDouble_zero, add_zero, zero_add, sub_zero, h.x, h.y, h.z, h.w, mul_comm _ ((2⁻¹ : ℝ) ^ 28), h.ex, h.ey,
      h.ez, h.ew]
  unfold Arith.alignedHandPose
  rw [hm, h.normalize (by simpa using h.ex) (by simpa using h.ey) (by simpa using h.ez) (by simpa using h.ew), Py.ok_bind]
  simp [h.pos.not_gt, Py.pure_eq]

/-- Aligned at the first pose. -/
theorem PlainTurn.rebased : (doubleArith acos).rebase ⟨⟨0, 0, 0, 1⟩, ⟨0, 0, 0, -2⁻¹ ^ 28⟩⟩ true
    ⟨q, ⟨2⁻¹ ^ 28 * q.x, 2⁻¹ ^ 28 * q.y, 2⁻¹ ^ 28 * q.z, 2⁻¹ ^ 28 * q.w⟩⟩ = ⟨q, ⟨0, 0, 0, 0⟩⟩ := by
  have hfl : ∀ x, (doubleArith acos).fl x = roundDouble x := fun _ => rfl
  unfold Arith.rebase Arith.dqMul Arith.mul Arith.add
  simp only [hfl, one_mul, zero_mul, roundDouble_zero, add_zero, sub_zero, h.x, h.y, h.z, h.w, if_true, if_neg h.pos.not_gt, neg_mul,
    roundDouble_neg, h.ex, h.ey, h.ez, h.ew, add_neg_cancel]

theorem PlainTurn.rebased_one : (doubleArith acos).rebase ⟨⟨0, 0, 0, 1⟩, ⟨0, 0, 0, 0⟩⟩ true ⟨q, ⟨0, 0, 0, 0⟩⟩ = ⟨q, ⟨0, 0, 0, 0⟩⟩ := by
  have hfl : ∀ x, (doubleArith acos).fl x = roundDouble x := fun _ => rfl
  unfold Arith.rebase Arith.dqMul Arith.mul Arith.add
  simp only [hfl, one_mul, zero_mul, mul_zero, roundDouble_zero, add_zero, sub_zero, h.x, h.y, h.z, h.w, if_true, if_neg h.pos.not_gt]

end

/-- The inverse of a calibration without rotation. -/
theorem plain_inverse (acos : ℝ → ℝ) (e : ℝ) (he : roundDouble e = e) :
    (doubleArith acos).dqInverse ⟨⟨0, 0, 0, 1⟩, ⟨0, 0, 0, e⟩⟩ = .ok ⟨⟨0, 0, 0, 1⟩, ⟨0, 0, 0, -e⟩⟩ := by
  have hfl : ∀ x, (doubleArith acos).fl x = roundDouble x := fun _ => rfl
  have hd : (doubleArith acos).dot ⟨0, 0, 0, 1⟩ ⟨0, 0, 0, 1⟩ = 1 := by rw [dot_last, mul_one, rd_one, rd_one]
  unfold Arith.dqInverse Arith.inverse Arith.divScalar
  rw [(plain_one acos).length, hd, pyAssert_pos (by norm_num), Py.ok_bind, if_neg one_ne_zero, Py.ok_bind, Py.pure_eq]
  simp [Arith.quot, Arith.mul, hfl, Quat.conj, roundDouble_zero, rd_one, roundDouble_neg, he]

/-- An alignment at a first pose that does not turn. -/
theorem plain_align (acos : ℝ → ℝ) (e : ℝ) (he : roundDouble e = e) (v r : List DQuat)
    (hr : (⟨⟨0, 0, 0, 1⟩, ⟨0, 0, 0, e⟩⟩ :: v).map ((doubleArith acos).rebase ⟨⟨0, 0, 0, 1⟩, ⟨0, 0, 0, -e⟩⟩ true) = ⟨⟨0, 0, 0, 1⟩, ⟨0, 0, 0, 0⟩⟩ :: r) :
    (doubleArith acos).alignPaths (⟨⟨0, 0, 0, 1⟩, ⟨0, 0, 0, e⟩⟩ :: v) 0 true = .ok (⟨⟨0, 0, 0, 1⟩, ⟨0, 0, 0, 0⟩⟩ :: r) := by
  have hg : pyGet (⟨⟨0, 0, 0, 1⟩, ⟨0, 0, 0, e⟩⟩ :: v) 0 = .ok (⟨⟨0, 0, 0, 1⟩, ⟨0, 0, 0, e⟩⟩ : DQuat) := by
    simp [pyGet, pyPos]
  have hi : DQuat.allclose ⟨⟨0, 0, 0, 1⟩, ⟨0, 0, 0, 0⟩⟩ DQuat.identity 1e-8 := by
    norm_num [DQuat.allclose, Quat.allclose, npIsclose, DQuat.identity]
  have hz : ∀ l : List DQuat, pyFrom l 0 ++ pyTo l 0 = l := by
    intro l
    simp [pyFrom, pyTo, pyBound]
  unfold Arith.alignPaths
  rw [hg, Py.ok_bind, plain_inverse acos e he, Py.ok_bind]
  simp only [hr, hz, pyAt, List.getElem?_cons_zero, Py.ok_bind, pyAssert_pos hi, Py.pure_eq]

/-- The poses of the turns. -/
noncomputable def twoPoses : List Pose := twoTurns.map fun a => ⟨⟨0, 0, 0⟩, a.rot⟩

theorem two_poses (acos : ℝ → ℝ) : (doubleArith acos).getAlignedPoses twoTurns twoTurns ⟨⟨0, 0, 0, 1⟩, ⟨0, 0, 0, -2⁻¹ ^ 28⟩⟩ = .ok (twoPoses, twoPoses) := by
  have p0 := plain_one acos
  have p1 := plain_halves acos (.inl rfl : (1 / 2 : ℝ) = 1 / 2 ∨ _)
  have p2 := plain_halves acos (.inr rfl : (-1 / 2 : ℝ) = 1 / 2 ∨ _)
  have hinv : (doubleArith acos).inverseCalibration ⟨⟨0, 0, 0, 1⟩, ⟨0, 0, 0, -2⁻¹ ^ 28⟩⟩ = .ok ⟨⟨0, 0, 0, 1⟩, ⟨0, 0, 0, 2⁻¹ ^ 28⟩⟩ := by
    unfold Arith.inverseCalibration
    rw [plain_inverse acos _ (by rw [roundDouble_neg, rd_eps]), Py.ok_bind, neg_neg,
      p0.normalize roundDouble_zero roundDouble_zero roundDouble_zero rd_eps, Py.ok_bind]
    dsimp only
    rw [p0.length, pyAssert_pos (by norm_num), Py.ok_bind, if_neg (by norm_num), Py.pure_eq]
  have ha := plain_align acos (2⁻¹ ^ 28) rd_eps
    [⟨⟨1 / 2, 1 / 2, 1 / 2, 1 / 2⟩, ⟨2⁻¹ ^ 28 * (1 / 2), 2⁻¹ ^ 28 * (1 / 2), 2⁻¹ ^ 28 * (1 / 2), 2⁻¹ ^ 28 * (1 / 2)⟩⟩,
      ⟨⟨-1 / 2, 1 / 2, 1 / 2, 1 / 2⟩, ⟨2⁻¹ ^ 28 * (-1 / 2), 2⁻¹ ^ 28 * (1 / 2), 2⁻¹ ^ 28 * (1 / 2), 2⁻¹ ^ 28 * (1 / 2)⟩⟩]
    [⟨⟨1 / 2, 1 / 2, 1 / 2, 1 / 2⟩, ⟨0, 0, 0, 0⟩⟩, ⟨⟨-1 / 2, 1 / 2, 1 / 2, 1 / 2⟩, ⟨0, 0, 0, 0⟩⟩] (by
      have r0 := p0.rebased
      simp only [mul_zero, mul_one] at r0
      simp only [List.map_cons, List.map_nil]
      rw [r0]
      congr 2
      · exact p1.rebased
      · congr 1
        exact p2.rebased)
  have m0 := p0.moved
  simp only [mul_zero, mul_one] at m0
  have hm : (twoTurns.zip twoTurns).mapM (fun p => (doubleArith acos).alignedHandPose ⟨⟨0, 0, 0, 1⟩, ⟨0, 0, 0, 2⁻¹ ^ 28⟩⟩ p.1 p.2) =
      .ok (⟨⟨0, 0, 0, 1⟩, ⟨0, 0, 0, 2⁻¹ ^ 28⟩⟩ ::
        [⟨⟨1 / 2, 1 / 2, 1 / 2, 1 / 2⟩, ⟨2⁻¹ ^ 28 * (1 / 2), 2⁻¹ ^ 28 * (1 / 2), 2⁻¹ ^ 28 * (1 / 2), 2⁻¹ ^ 28 * (1 / 2)⟩⟩,
          ⟨⟨-1 / 2, 1 / 2, 1 / 2, 1 / 2⟩, ⟨2⁻¹ ^ 28 * (-1 / 2), 2⁻¹ ^ 28 * (1 / 2), 2⁻¹ ^ 28 * (1 / 2), 2⁻¹ ^ 28 * (1 / 2)⟩⟩]) := by
    simp only [twoTurns, List.zip_cons_cons, List.zip_nil_left, List.mapM_cons, List.mapM_nil, m0, p1.moved, p2.moved, Py.ok_bind, Py.pure_eq]
  have hp : twoTurns.mapM (doubleArith acos).toPose = .ok twoPoses := by
    simp only [twoTurns, twoPoses, List.mapM_cons, List.mapM_nil, p0.toPose, p1.toPose, p2.toPose, Py.ok_bind, Py.pure_eq, List.map_cons, List.map_nil]
  unfold Arith.getAlignedPoses
  rw [pyAssert_pos rfl, Py.ok_bind, hinv, Py.ok_bind, hm, Py.ok_bind, ha, Py.ok_bind]
  rw [show [_, _, _] = twoTurns from rfl, hp, Py.ok_bind, Py.ok_bind, Py.pure_eq]

/-- The evaluation gives numbers: poses that are equal have a defined angle. -/
theorem two_evaluate (A : Arith) (o p : ℝ) : ∃ rp ro fl, A.evaluate o p twoPoses twoPoses = .ok (rp, some ro, fl) := by
  obtain ⟨r, hr⟩ := evaluate_ok A o p (as := twoPoses) (bs := twoPoses) rfl (by simp [twoPoses, twoTurns])
  obtain ⟨-, -, e⟩ := evaluate_eq_ok hr
  have ho : ∀ a : Pose, ∃ x, A.orientationError a a = .ok x := by
    intro a
    have hab : ∀ q : Quat, A.angleBetween q q = .ok 0 := by
      intro q
      unfold Arith.angleBetween
      rw [if_pos]
      have : ∀ x : ℝ, npIsclose x x 1e-12 := by
        intro x
        have := abs_nonneg x
        simp only [npIsclose, sub_self, abs_zero]
        positivity
      exact ⟨this _, this _, this _, this _⟩
    unfold Arith.orientationError
    simp only [hab, Py.ok_bind]
    exact ⟨_, rfl⟩
  have hn : A.rmseNan ((twoPoses.zip twoPoses).map fun x => (A.orientationError x.1 x.2).toOption) ≠ none := by
    unfold Arith.rmseNan
    rw [if_neg]
    · simp
    · intro hm
      obtain ⟨x, hx, e⟩ := List.mem_map.mp hm
      have : x.1 = x.2 := by
        simp only [twoPoses, twoTurns, List.map_cons, List.map_nil, List.zip_cons_cons, List.zip_nil_left, List.mem_cons, List.not_mem_nil, or_false] at hx
        obtain rfl | rfl | rfl := hx <;> rfl
      rw [this] at e
      obtain ⟨y, hy⟩ := ho x.2
      rw [hy] at e
      cases e
  obtain ⟨ro, hro⟩ := Option.ne_none_iff_exists'.mp hn
  rw [hro] at e
  exact ⟨_, ro, _, by rw [hr, e]⟩

/-- The settings of the run: one iteration with the first two pairs as the sample, no prefilter, at least three inliers. -/
noncomputable def ransacConfig : HandEyeConfig :=
  { min_num_inliers := 3, hand_eye_calibration_scalar_part_equality_tolerance := 1e-2, prefilter_poses_enabled := false, ransac_sample_size := 2,
    ransac_max_number_iterations := 1 }

theorem two_scalarMatch (acos : ℝ → ℝ) (x y z w : ℝ) :
    (doubleArith acos).scalarMatch 1e-2 ⟨⟨x, y, z, w⟩, ⟨0, 0, 0, 0⟩⟩ ⟨⟨x, y, z, w⟩, ⟨0, 0, 0, 0⟩⟩ = .ok true := by
  unfold Arith.scalarMatch
  simp only [turn_scalar, Py.ok_bind, Py.pure_eq, decide_eq_true (scalar_close _)]

theorem two_try (acos : ℝ → ℝ) : (doubleArith acos).tryCalibrate twoSvd 1e-2 twoTurns twoTurns =
    some ⟨⟨⟨0, 0, 0, 1⟩, ⟨0, 0, 0, -2⁻¹ ^ 28⟩⟩, List.ofFn twoS, badSingularValues (List.ofFn twoS), twoTurns⟩ := by
  unfold Arith.tryCalibrate
  rw [two_calibrate]
  simp only [Py.ok_bind, (plain_one acos).normalize (d := ⟨0, 0, 0, -2⁻¹ ^ 28⟩) roundDouble_zero roundDouble_zero roundDouble_zero
    (show roundDouble (-2⁻¹ ^ 28) = -2⁻¹ ^ 28 by rw [roundDouble_neg, rd_eps]), Py.pure_eq]

theorem two_sample (acos : ℝ → ℝ) : ∃ c, (doubleArith acos).evaluateSample twoSvd ransacConfig twoTurns twoTurns twoTurns twoTurns [0, 1] = .ok (.candidate c) ∧
    c.calibration = ⟨⟨⟨0, 0, 0, 1⟩, ⟨0, 0, 0, -2⁻¹ ^ 28⟩⟩, List.ofFn twoS, badSingularValues (List.ofFn twoS), twoTurns⟩ ∧ c.rmse_orientation.isSome := by
  have hs : [0, 1].mapM (pyAt twoTurns) = .ok [⟨⟨0, 0, 0, 1⟩, ⟨0, 0, 0, 0⟩⟩, ⟨⟨1 / 2, 1 / 2, 1 / 2, 1 / 2⟩, ⟨0, 0, 0, 0⟩⟩] := rfl
  have ha : (doubleArith acos).alignPaths [⟨⟨0, 0, 0, 1⟩, ⟨0, 0, 0, 0⟩⟩, ⟨⟨1 / 2, 1 / 2, 1 / 2, 1 / 2⟩, ⟨0, 0, 0, 0⟩⟩] 0 true =
      .ok [⟨⟨0, 0, 0, 1⟩, ⟨0, 0, 0, 0⟩⟩, ⟨⟨1 / 2, 1 / 2, 1 / 2, 1 / 2⟩, ⟨0, 0, 0, 0⟩⟩] := by
    refine plain_align acos 0 roundDouble_zero _ _ ?_
    simp only [neg_zero, List.map_cons, List.map_nil, (plain_one acos).rebased_one, (plain_halves acos (.inl rfl : (1 / 2 : ℝ) = 1 / 2 ∨ _)).rebased_one]
  have ht : (doubleArith acos).sampleTest ransacConfig twoTurns twoTurns [0, 1] =
      .ok (true, [⟨⟨0, 0, 0, 1⟩, ⟨0, 0, 0, 0⟩⟩, ⟨⟨1 / 2, 1 / 2, 1 / 2, 1 / 2⟩, ⟨0, 0, 0, 0⟩⟩],
        [⟨⟨0, 0, 0, 1⟩, ⟨0, 0, 0, 0⟩⟩, ⟨⟨1 / 2, 1 / 2, 1 / 2, 1 / 2⟩, ⟨0, 0, 0, 0⟩⟩]) := by
    unfold Arith.sampleTest
    rw [hs, Py.ok_bind, Py.ok_bind, pyAssert_pos (by rfl), Py.ok_bind, if_pos (by norm_num [ransacConfig]), ha,
      Py.ok_bind, Py.ok_bind]
    simp only [Arith.allMatch, show ransacConfig.ransac_sample_rejection_scalar_part_equality_tolerance = 1e-2 from rfl, two_scalarMatch, Py.ok_bind, if_true,
      Py.pure_eq]
  have hk : (doubleArith acos).classify twoSvd ransacConfig [⟨⟨0, 0, 0, 1⟩, ⟨0, 0, 0, 0⟩⟩, ⟨⟨1 / 2, 1 / 2, 1 / 2, 1 / 2⟩, ⟨0, 0, 0, 0⟩⟩]
      [⟨⟨0, 0, 0, 1⟩, ⟨0, 0, 0, 0⟩⟩, ⟨⟨1 / 2, 1 / 2, 1 / 2, 1 / 2⟩, ⟨0, 0, 0, 0⟩⟩] twoTurns twoTurns = .ok (some ⟨none, twoTurns, [true, true, true]⟩) := by
    have hm : (twoTurns.zip twoTurns).mapM (fun p => (doubleArith acos).scalarMatch 1e-2 p.1 p.2) = .ok [true, true, true] := by
      simp only [twoTurns, List.zip_cons_cons, List.zip_nil_left, List.mapM_cons, List.mapM_nil, two_scalarMatch, Py.ok_bind, Py.pure_eq]
    unfold Arith.classify
    rw [show ransacConfig.ransac_inlier_classification = .scalarPartEquality from rfl]
    dsimp only
    unfold Arith.classifyByScalar
    rw [show ransacConfig.ransac_sample_rejection_scalar_part_equality_tolerance = 1e-2 from rfl, hm, Py.ok_bind, Py.pure_eq]
  obtain ⟨rp, ro, fl, he⟩ := two_evaluate (doubleArith acos) ransacConfig.ransac_orientation_error_threshold_deg ransacConfig.ransac_position_error_threshold_m
  have hb : (doubleArith acos).buildCandidate twoSvd ransacConfig [0, 1] ⟨none, twoTurns, [true, true, true]⟩ twoTurns =
      .ok (some ⟨[0, 1], ⟨⟨⟨0, 0, 0, 1⟩, ⟨0, 0, 0, -2⁻¹ ^ 28⟩⟩, List.ofFn twoS, badSingularValues (List.ofFn twoS), twoTurns⟩, rp, some ro, 3⟩) := by
    have hcomp : compress twoTurns [true, true, true] = twoTurns := rfl
    have hl : twoTurns.length = 3 := rfl
    unfold Arith.buildCandidate
    simp only [hcomp, pyAssert_pos, Py.ok_bind, hl]
    rw [if_neg (by norm_num [ransacConfig])]
    have hr : (doubleArith acos).refine twoSvd ransacConfig none twoTurns twoTurns =
        some ⟨⟨⟨0, 0, 0, 1⟩, ⟨0, 0, 0, -2⁻¹ ^ 28⟩⟩, List.ofFn twoS, badSingularValues (List.ofFn twoS), twoTurns⟩ := two_try acos
    rw [hr]
    dsimp only
    unfold Arith.posesToEvaluate
    rw [if_neg (by simp [ransacConfig]), two_poses, Py.ok_bind]
    dsimp only
    rw [he, Py.ok_bind, Py.pure_eq]
  have hal : (doubleArith acos).alignPaths twoTurns ((0 : ℕ) : ℤ) true = .ok twoTurns := two_align acos
  unfold Arith.evaluateSample
  rw [ht, Py.ok_bind]
  dsimp only
  rw [if_pos rfl, show pyAt [0, 1] 0 = .ok 0 from rfl, Py.ok_bind, hal, Py.ok_bind, Py.ok_bind, hk, Py.ok_bind]
  dsimp only
  rw [hb, Py.ok_bind]
  exact ⟨_, rfl, rfl, rfl⟩

/-- The run: RANSAC finds the calibration, up to a scalar dual part of `2⁻²⁸`. -/
theorem two_ransac (acos : ℝ → ℝ) : ∃ c, (doubleArith acos).ransac twoSvd (fun _ => [0, 1]) (fun _ => .ok false) ransacConfig (filteredPoses ransacConfig)
    twoTurns twoTurns 5 = .ok (some (some c)) ∧ c.calibration.dq_H_E = ⟨⟨0, 0, 0, 1⟩, ⟨0, 0, 0, -2⁻¹ ^ 28⟩⟩ ∧
    c.calibration.singular_values = List.ofFn twoS := by
  obtain ⟨c, hc, h1, h2⟩ := two_sample acos
  have hd : roundDouble (-2⁻¹ ^ 28) = -2⁻¹ ^ 28 := by rw [roundDouble_neg, rd_eps]
  have hstep : (doubleArith acos).ransacStep twoSvd ransacConfig (fun _ => [0, 1]) (fun _ => .ok false) twoTurns twoTurns twoTurns twoTurns {} =
      .ok ({ sample_number := 1, full_iterations := 1, prerejected_samples := 0, best := some c }, false) := by
    unfold Arith.ransacStep
    rw [show drawSample ransacConfig (fun _ => [0, 1]) twoTurns.length 0 = .ok [0, 1] from rfl, Py.ok_bind]
    dsimp only
    rw [hc, Py.ok_bind]
    dsimp only
    rw [Py.ok_bind, Py.pure_eq]
    unfold updateBestFloat
    rw [if_pos (by simp [numLtOrInf, h2])]
  have hloop : (doubleArith acos).ransacLoop twoSvd ransacConfig (fun _ => [0, 1]) (fun _ => .ok false) twoTurns twoTurns twoTurns twoTurns 5 {} =
      .ok (some { sample_number := 1, full_iterations := 1, prerejected_samples := 0, best := some c }) := by
    unfold Arith.ransacLoop
    rw [if_pos (by rfl)]
    dsimp only
    rw [hstep, Py.ok_bind]
    dsimp only
    rw [if_neg (by simp)]
    unfold Arith.ransacLoop
    rw [if_neg (by simp [loopCondition, ransacConfig])]
  have hpose : ∃ p, (doubleArith acos).toPose ⟨⟨0, 0, 0, 1⟩, ⟨0, 0, 0, -2⁻¹ ^ 28⟩⟩ = .ok p := by
    unfold Arith.toPose
    rw [(plain_one acos).normalize roundDouble_zero roundDouble_zero roundDouble_zero hd, Py.ok_bind]
    exact ⟨_, rfl⟩
  obtain ⟨p, hp⟩ := hpose
  have hfil : filteredPoses ransacConfig twoTurns twoTurns = .ok (twoTurns, twoTurns) := by
    unfold filteredPoses
    rw [if_neg (by simp [ransacConfig])]
  unfold Arith.ransac
  rw [pyAssert_pos rfl, Py.ok_bind, pyAssert_pos (show ransacConfig.ransac_sample_size < twoTurns.length by norm_num [ransacConfig, twoTurns]), Py.ok_bind,
    hfil, Py.ok_bind]
  dsimp only
  rw [hloop, Py.ok_bind]
  dsimp only
  unfold Arith.ransacResult
  dsimp only
  rw [h1]
  dsimp only
  rw [hp, Py.ok_bind, (plain_one acos).normalize roundDouble_zero roundDouble_zero roundDouble_zero hd, Py.ok_bind]
  exact ⟨_, rfl, rfl, rfl⟩

theorem two_far : ∀ p ∈ twoTurns.zip twoTurns, ∀ q ∈ twoTurns.zip twoTurns,
    Spec.normalisedError (2⁻¹ ^ 53) (Spec.relativeError (2⁻¹ ^ 53) 0 0 0) 0 < Spec.cosHalf p.1.rot q.1.rot := by
  intro p hp q hq
  simp only [twoTurns, List.zip_cons_cons, List.zip_nil_left, List.mem_cons, List.not_mem_nil, or_false] at hp hq
  obtain rfl | rfl | rfl := hp <;> obtain rfl | rfl | rfl := hq <;> norm_num [Spec.relativeError, Spec.normalisedError, Spec.cosHalf]

/-- The bounds for this run are less than `10⁻¹³`. -/
theorem two_ransac_bounds (acos : ℝ → ℝ) (c : FloatCandidate)
    (h : (doubleArith acos).ransac twoSvd (fun _ => [0, 1]) (fun _ => .ok false) ransacConfig (filteredPoses ransacConfig) twoTurns twoTurns 5 =
      .ok (some (some c))) (η : ℝ) (hη : η = Spec.normalisedError (2⁻¹ ^ 53) (Spec.relativeError (2⁻¹ ^ 53) 0 0 0) 0) :
    Spec.translationLength c.calibration.dq_H_E ≤ 1 / 100 ∧ c.calibration.singular_values[5]? = some (Real.sqrt 2) ∧
    0 ≤ 1.1 * (4 * (η + (2⁻¹ ^ 53 + 1.001 * 0) * (1 + 2 * 0 + η)) * Real.sqrt (twoTurns.length : ℝ) / Real.sqrt 2) + 25 * 2⁻¹ ^ 53 + 2.2 * 2⁻¹ ^ 56 ∧
    1.1 * (4 * (η + (2⁻¹ ^ 53 + 1.001 * 0) * (1 + 2 * 0 + η)) * Real.sqrt (twoTurns.length : ℝ) / Real.sqrt 2) + 25 * 2⁻¹ ^ 53 + 2.2 * 2⁻¹ ^ 56 ≤ 5e-14 := by
  have h2 : 1.4 ≤ Real.sqrt 2 := Real.le_sqrt_of_sq_le (by norm_num)
  have h3 : Real.sqrt (twoTurns.length : ℝ) ≤ 1.8 := Real.sqrt_le_iff.mpr ⟨by norm_num, by norm_num [twoTurns]⟩
  have h30 : 0 ≤ Real.sqrt (twoTurns.length : ℝ) := Real.sqrt_nonneg _
  have hη' : η = 71.8 * 2⁻¹ ^ 53 := by rw [hη]; norm_num [Spec.relativeError, Spec.normalisedError]
  obtain ⟨c', r1, r2, r3⟩ := two_ransac acos
  obtain rfl := Option.some.inj (Option.some.inj (Except.ok.inj (r1.symm.trans h)))
  rw [hη', r2, r3]
  refine ⟨?_, rfl, by positivity, ?_⟩
  · simp only [Spec.translationLength]
    have : Real.sqrt (0 ^ 2 + 0 ^ 2 + 0 ^ 2 + (-2⁻¹ ^ 28) ^ 2) ≤ 1 / 200 := Real.sqrt_le_iff.mpr ⟨by norm_num, by norm_num⟩
    linarith
  · have : 4 * (71.8 * 2⁻¹ ^ 53 + (2⁻¹ ^ 53 + 1.001 * 0) * (1 + 2 * 0 + 71.8 * 2⁻¹ ^ 53)) * Real.sqrt (twoTurns.length : ℝ) / Real.sqrt 2 ≤
        4 * (73 * 2⁻¹ ^ 53) * 1.8 / 1.4 := by
      gcongr
      norm_num
    refine (add_le_add_left (add_le_add_left (mul_le_mul_of_nonneg_left this (by norm_num)) _) _).trans (by norm_num)

/-- The bound of the rotation for this run: the rotation is correct to better than `10⁻¹²`, in the sine of half the angle. -/
example (acos : ℝ → ℝ) : ∃ c, (doubleArith acos).ransac twoSvd (fun _ => [0, 1]) (fun _ => .ok false) ransacConfig (filteredPoses ransacConfig)
    twoTurns twoTurns 5 = .ok (some (some c)) ∧ 1 - Spec.cosHalf c.calibration.dq_H_E.rot DQuat.identity.rot ^ 2 ≤ 1e-26 := by
  obtain ⟨c, h, -, -⟩ := two_ransac acos
  obtain ⟨ht, h5, hq0, hq⟩ := two_ransac_bounds acos c h _ rfl
  have ht0 : 0 ≤ Spec.translationLength c.calibration.dq_H_E := by unfold Spec.translationLength; positivity
  refine ⟨c, h, (C117_rotation_partial (machine_double acos) 0 (2⁻¹ ^ 56) le_rfl (by positivity) (by norm_num) twoSvd twoSvd_near 0 0 0 le_rfl (by norm_num)
    le_rfl le_rfl (by norm_num [Spec.relativeError]) DQuat.identity DQuat.identity turn_unit turn_unit twoTurns twoTurns _ two_recorded two_fits _ rfl two_far
    ransacConfig _ _ _ (C117_prefilter _) 5 c h (Real.sqrt 2) (by positivity) h5).2.trans ?_⟩
  refine (mul_le_mul (pow_le_pow_left₀ hq0 hq 2) (show 1 + Spec.translationLength c.calibration.dq_H_E ^ 2 / 4 ≤ 2 by nlinarith) (by positivity)
    (by positivity)).trans (by norm_num)

/-- The bound of the motion for this run: points within 10 m of the camera are mapped correctly to better than two picometres. -/
example (acos : ℝ → ℝ) : ∃ c, (doubleArith acos).ransac twoSvd (fun _ => [0, 1]) (fun _ => .ok false) ransacConfig (filteredPoses ransacConfig)
    twoTurns twoTurns 5 = .ok (some (some c)) ∧
    ∀ p : Vec3, Spec.dist p ⟨0, 0, 0⟩ ≤ 10 → Spec.dist (Spec.motion c.calibration.dq_H_E p) (Spec.motion DQuat.identity p) ≤ 2e-12 := by
  obtain ⟨c, h, -, -⟩ := two_ransac acos
  refine ⟨c, h, fun p hp => ?_⟩
  obtain ⟨ht, h5, hq0, hq⟩ := two_ransac_bounds acos c h _ rfl
  have ht0 : 0 ≤ Spec.translationLength c.calibration.dq_H_E := by unfold Spec.translationLength; positivity
  have hX : Spec.translationLength DQuat.identity = 0 := by norm_num [Spec.translationLength, DQuat.identity]
  have hs2 : Real.sqrt (1 + Spec.translationLength c.calibration.dq_H_E ^ 2 / 4) ≤ 1.1 := Real.sqrt_le_iff.mpr ⟨by norm_num, by nlinarith⟩
  have hρ := mul_le_mul hq hs2 (Real.sqrt_nonneg _) (by norm_num)
  refine (C117_motion_partial (machine_double acos) 0 (2⁻¹ ^ 56) le_rfl (by positivity) (by norm_num) twoSvd twoSvd_near 0 0 0 le_rfl (by norm_num)
    le_rfl le_rfl (by norm_num [Spec.relativeError]) DQuat.identity DQuat.identity turn_unit turn_unit twoTurns twoTurns _ two_recorded two_fits _ rfl two_far
    ransacConfig _ _ _ (C117_prefilter _) 5 c h (Real.sqrt 2) (by positivity) h5 _ rfl (hρ.trans (by norm_num)) p).trans ?_
  rw [hX]
  have hp0 : 0 ≤ Spec.dist p ⟨0, 0, 0⟩ := Real.sqrt_nonneg _
  exact (mul_le_mul hρ (show _ ≤ (25 : ℝ) by linarith) (by positivity) (by norm_num)).trans (by norm_num)

/-- Without rounding: a run for which `C117_exact` speaks. -/
example : ∃ svd : Svd, ∃ cfg rng r f, ransac svd rng cfg thriceHands thriceEyes 20 = .ok (some r) ∧
    exactArith.ransac svd rng (earlyAbort cfg) cfg (filteredPoses cfg) thriceHands thriceEyes 20 = .ok (some f) ∧
    f.map (fun c => c.calibration.dq_H_E) = r.dq_H_E := by
  obtain ⟨svd, -, -, -, -, -, ⟨r, hr⟩, -⟩ := both_families_run
  obtain ⟨f, h1, h2, -⟩ := C117_exact svd _ _ _ _ _ r hr
  exact ⟨svd, _, _, r, f, hr, h1, h2⟩

end HandEye
