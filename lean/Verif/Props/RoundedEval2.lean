import Verif.Props.RoundedEval

/-! # Property C97, continued: with `float64`, the calibration that fits is discarded -/

namespace HandEye

theorem mapM_replicate {α β : Type} {f : α → Py β} {a : α} {b : β} (n : ℕ) (h : f a = .ok b) : (List.replicate n a).mapM f = .ok (List.replicate n b) := by
  induction n with
  | zero => rfl
  | succ n ih => rw [List.replicate_succ, List.mapM_cons, h, Py.ok_bind, ih, Py.ok_bind, List.replicate_succ]; rfl

/-- What `get_aligned_poses` computes for a list of one pair of poses at the origin and `n` times another pair. -/
theorem getAligned_of {A : Arith} {X e a0 a1 i b w c : DQuat} {q0 pb pc : Pose} (n : ℕ) (hinv : A.inverseCalibration X = .ok e)
    (h0 : A.alignedHandPose e DQuat.identity DQuat.identity = .ok a0) (h1 : A.alignedHandPose e b w = .ok a1) (hi : A.dqInverse a0 = .ok i)
    (r0 : A.rebase i true a0 = DQuat.identity) (r1 : A.rebase i true a1 = c) (p0 : A.toPose DQuat.identity = .ok q0) (p1 : A.toPose c = .ok pc)
    (p2 : A.toPose b = .ok pb) :
    A.getAlignedPoses (DQuat.identity :: List.replicate n b) (DQuat.identity :: List.replicate n w) X = .ok (q0 :: List.replicate n pb, q0 :: List.replicate n pc) := by
  unfold Arith.getAlignedPoses
  rw [pyAssert_pos (by simp), Py.ok_bind, hinv, Py.ok_bind, List.zip_cons_cons, List.mapM_cons, h0, Py.ok_bind]
  have hz : (List.replicate n b).zip (List.replicate n w) = List.replicate n (b, w) := by
    rw [List.zip_replicate, min_self]
  rw [hz, mapM_replicate (f := fun p : DQuat × DQuat => A.alignedHandPose e p.1 p.2) (a := (b, w)) (b := a1) n h1, Py.ok_bind, Py.pure_eq, Py.ok_bind]
  have ha : A.alignPaths (a0 :: List.replicate n a1) 0 true = .ok (DQuat.identity :: List.replicate n c) := by
    unfold Arith.alignPaths
    have g : pyGet (a0 :: List.replicate n a1) 0 = .ok a0 := by simp [pyGet, pyPos]
    rw [g, Py.ok_bind, hi, Py.ok_bind, List.map_cons, r0, List.map_replicate, r1]
    have e1 : pyFrom (DQuat.identity :: List.replicate n c) 0 = DQuat.identity :: List.replicate n c := by simp [pyFrom, pyBound]
    have e2 : pyTo (DQuat.identity :: List.replicate n c) 0 = [] := by simp [pyTo, pyBound]
    dsimp only
    rw [e1, e2, List.append_nil]
    have g2 : pyAt (DQuat.identity :: List.replicate n c) 0 = .ok DQuat.identity := by simp [pyAt]
    rw [g2, Py.ok_bind, pyAssert_pos, Py.ok_bind]
    · rfl
    · refine ⟨⟨?_, ?_, ?_, ?_⟩, ?_, ?_, ?_, ?_⟩ <;> · unfold npIsclose; rw [sub_self, abs_zero]; positivity
  rw [ha, Py.ok_bind, List.mapM_cons, p0, Py.ok_bind, mapM_replicate n p1, Py.ok_bind, Py.pure_eq, Py.ok_bind, List.mapM_cons, p0, Py.ok_bind,
    mapM_replicate n p2, Py.ok_bind, Py.pure_eq, Py.ok_bind]
  rfl

/-- The zero quaternion. -/
def zeroQ : Quat := ⟨0, 0, 0, 0⟩

/-- An array of unit length that no rounding changes. -/
structure Exact (acos : ℝ → ℝ) (q : Quat) : Prop where
  one : (doubleArith acos).dot q q = 1
  x : roundDouble q.x = q.x
  y : roundDouble q.y = q.y
  z : roundDouble q.z = q.z
  w : roundDouble q.w = q.w

theorem Exact.conj {acos : ℝ → ℝ} {q : Quat} (h : Exact acos q) : Exact acos q.conj := by
  refine ⟨?_, ?_, ?_, ?_, h.w⟩
  · have := h.one
    unfold doubleArith at this ⊢
    simpa only [Quat.conj, neg_mul_neg] using this
  all_goals
    unfold Quat.conj
    dsimp only
    rw [roundDouble_neg]
  · rw [h.x]
  · rw [h.y]
  · rw [h.z]

theorem Exact.norm {acos : ℝ → ℝ} {q : Quat} (h : Exact acos q) : (doubleArith acos).norm q = 1 := by
  unfold Arith.norm
  rw [h.one, Real.sqrt_one]
  exact round_one

theorem Exact.quot {acos : ℝ → ℝ} {q : Quat} (h : Exact acos q) : (doubleArith acos).quot q 1 = q := by
  unfold Arith.quot
  simp only [div_one]
  ext
  · exact h.x
  · exact h.y
  · exact h.z
  · exact h.w

theorem quot_zeroQ (acos : ℝ → ℝ) : (doubleArith acos).quot zeroQ 1 = zeroQ := by
  unfold Arith.quot zeroQ doubleArith
  simp [roundDouble_zero]

theorem mul_zeroQ (acos : ℝ → ℝ) (q : Quat) : (doubleArith acos).mul q zeroQ = zeroQ := by
  unfold Arith.mul zeroQ doubleArith
  simp [roundDouble_zero]

theorem zeroQ_mul (acos : ℝ → ℝ) (q : Quat) : (doubleArith acos).mul zeroQ q = zeroQ := by
  unfold Arith.mul zeroQ doubleArith
  simp [roundDouble_zero]

theorem Exact.dqMul {acos : ℝ → ℝ} {p q r : Quat} (h : (doubleArith acos).mul p q = r) :
    (doubleArith acos).dqMul ⟨p, zeroQ⟩ ⟨q, zeroQ⟩ = ⟨r, zeroQ⟩ := by
  unfold Arith.dqMul
  dsimp only
  rw [h, mul_zeroQ, zeroQ_mul]
  congr 1
  unfold Arith.add zeroQ doubleArith
  simp [roundDouble_zero]

theorem Exact.dqNormalize {acos : ℝ → ℝ} {q : Quat} (h : Exact acos q) : (doubleArith acos).dqNormalize ⟨q, zeroQ⟩ = .ok ⟨q, zeroQ⟩ := by
  unfold Arith.dqNormalize Arith.divScalar
  dsimp only
  rw [h.norm, if_neg one_ne_zero, if_neg one_ne_zero, h.quot, quot_zeroQ]
  rfl

theorem Exact.inverse {acos : ℝ → ℝ} {q : Quat} (h : Exact acos q) : (doubleArith acos).inverse q = .ok q.conj := by
  unfold Arith.inverse Arith.divScalar
  rw [h.one, if_neg one_ne_zero, h.conj.quot]

theorem Exact.dqInverse {acos : ℝ → ℝ} {q : Quat} (h : Exact acos q) : (doubleArith acos).dqInverse ⟨q, zeroQ⟩ = .ok ⟨q.conj, zeroQ⟩ := by
  unfold Arith.dqInverse
  dsimp only
  rw [h.norm, pyAssert_pos (by norm_num), Py.ok_bind, h.inverse, Py.ok_bind, mul_zeroQ, zeroQ_mul]
  rfl

theorem Exact.toPose {acos : ℝ → ℝ} {q : Quat} (h : Exact acos q) (hw : 0 ≤ q.w) : (doubleArith acos).toPose ⟨q, zeroQ⟩ = .ok ⟨⟨0, 0, 0⟩, q⟩ := by
  unfold Arith.toPose
  rw [h.dqNormalize, Py.ok_bind]
  dsimp only
  have e : (doubleArith acos).smul 2 zeroQ = zeroQ := by
    unfold Arith.smul zeroQ doubleArith
    simp [roundDouble_zero]
  rw [e, zeroQ_mul, if_neg (not_lt.mpr hw)]
  rfl

theorem Exact.normalize {acos : ℝ → ℝ} {q : Quat} (h : Exact acos q) : (doubleArith acos).normalize q = q :=
  normalize_of_dot_one acos h.one h.x h.y h.z h.w

theorem exact_identity (acos : ℝ → ℝ) : Exact acos ⟨0, 0, 0, 1⟩ := by
  refine ⟨?_, roundDouble_zero, roundDouble_zero, roundDouble_zero, round_one⟩
  unfold doubleArith
  simp [roundDouble_zero, round_one]

theorem exact_halfTurn (acos : ℝ → ℝ) : Exact acos ⟨0, 1, 0, 0⟩ := by
  refine ⟨?_, roundDouble_zero, round_one, roundDouble_zero, roundDouble_zero⟩
  unfold doubleArith
  simp [roundDouble_zero, round_one]

theorem exact_nearlyA (acos : ℝ → ℝ) : Exact acos nearlyA := ⟨dot_nearlyA acos, round_xA, roundDouble_zero, round_z, round_wA⟩

theorem exact_nearlyB (acos : ℝ → ℝ) : Exact acos nearlyB := ⟨dot_nearlyB acos, round_xB, roundDouble_zero, roundDouble_zero, round_wB⟩

theorem mul_one_exact {acos : ℝ → ℝ} {q : Quat} (h : Exact acos q) : (doubleArith acos).mul q ⟨0, 0, 0, 1⟩ = q := by
  unfold Arith.mul doubleArith
  ext <;> simp [roundDouble_zero, h.x, h.y, h.z, h.w]

theorem one_mul_exact {acos : ℝ → ℝ} {q : Quat} (h : Exact acos q) : (doubleArith acos).mul ⟨0, 0, 0, 1⟩ q = q := by
  unfold Arith.mul doubleArith
  ext <;> simp [roundDouble_zero, h.x, h.y, h.z, h.w]

/-- The orientation error of two equal orientations. -/
theorem orientationError_self {acos : ℝ → ℝ} {q : Quat} (h : Exact acos q) (hw : 0 ≤ q.w) (t s : Vec3) :
    (doubleArith acos).orientationError ⟨t, q⟩ ⟨s, q⟩ = .ok 0 := by
  unfold Arith.orientationError
  dsimp only
  rw [h.normalize, if_neg (not_lt.mpr hw)]
  have : (doubleArith acos).angleBetween q q = .ok 0 := by
    unfold Arith.angleBetween
    rw [if_pos]
    refine ⟨?_, ?_, ?_, ?_⟩ <;> · unfold npIsclose; rw [sub_self, abs_zero]; positivity
  rw [this, Py.ok_bind, zero_mul]
  have e : (doubleArith acos).fl 0 = 0 := roundDouble_zero
  rw [e, if_neg (by norm_num)]
  rfl

/-- The evaluation of one pair at the origin and `n` times another pair. -/
theorem evaluate_replicate {A : Arith} {o p : ℝ} {q0 pb pc : Pose} (n : ℕ) (hn : 1 ≤ n) {e0 : ℝ} (h0 : A.orientationError q0 q0 = .ok e0) :
    (∀ e, A.orientationError pb pc = .error e → ∃ rp fl, A.evaluate o p (q0 :: List.replicate n pb) (q0 :: List.replicate n pc) = .ok (rp, none, fl)) ∧
    (∀ x, A.orientationError pb pc = .ok x → ∃ rp ro fl, A.evaluate o p (q0 :: List.replicate n pb) (q0 :: List.replicate n pc) = .ok (rp, some ro, fl)) := by
  obtain ⟨rp, ro, flags, h, -, hnan, -⟩ := C97_nan_spreads A o p (q0 :: List.replicate n pb) (q0 :: List.replicate n pc) (by simp) (by simp)
  constructor
  · intro e he
    have : ro = none := hnan.mpr ⟨1, pb, pc, by simp [List.getElem?_replicate]; omega, by simp [List.getElem?_replicate]; omega, e, he⟩
    exact ⟨rp, flags, by rw [h, this]⟩
  · intro x hx
    cases hro : ro with
    | some r => exact ⟨rp, r, flags, by rw [h, hro]⟩
    | none =>
      exfalso
      obtain ⟨i, a, b, h1, h2, e, he⟩ := hnan.mp hro
      cases i with
      | zero =>
        rw [List.getElem?_cons_zero] at h1 h2
        cases h1; cases h2
        rw [h0] at he
        cases he
      | succ i =>
        rw [List.getElem?_cons_succ] at h1 h2
        obtain rfl := List.eq_of_mem_replicate (List.mem_of_getElem? h1)
        obtain rfl := List.eq_of_mem_replicate (List.mem_of_getElem? h2)
        rw [hx] at he
        cases he

/-- The calibration that fits, evaluated. -/
theorem candidate_identity (acos : ℝ → ℝ) (o p : ℝ) (n : ℕ) (hn : 1 ≤ n) : ∃ c, nanCandidate (doubleArith acos) o p
    (DQuat.identity :: List.replicate n ⟨nearlyA, zeroQ⟩) (DQuat.identity :: List.replicate n ⟨nearlyB, zeroQ⟩) DQuat.identity = .ok c ∧
    c.rmse_orientation = none := by
  have hI := exact_identity acos
  have hc : Quat.conj ⟨0, 0, 0, 1⟩ = ⟨0, 0, 0, 1⟩ := by unfold Quat.conj; simp
  have hid : DQuat.identity = ⟨⟨0, 0, 0, 1⟩, zeroQ⟩ := rfl
  have wA : (0 : ℝ) < nearlyA.w := by unfold nearlyA; norm_num
  have wB : (0 : ℝ) < nearlyB.w := by unfold nearlyB; norm_num
  have h1 : (doubleArith acos).inverseCalibration DQuat.identity = .ok DQuat.identity := by
    unfold Arith.inverseCalibration
    rw [hid, hI.dqInverse, Py.ok_bind, hc, hI.dqNormalize, Py.ok_bind]
    dsimp only
    rw [hI.norm, pyAssert_pos (by norm_num), Py.ok_bind, if_neg (by norm_num)]
    rfl
  have h2 : (doubleArith acos).alignedHandPose DQuat.identity DQuat.identity DQuat.identity = .ok DQuat.identity := by
    unfold Arith.alignedHandPose
    rw [hid, Exact.dqMul (mul_one_exact hI), hI.dqNormalize, Py.ok_bind, if_neg (by norm_num)]
    rfl
  have h3 : (doubleArith acos).alignedHandPose DQuat.identity ⟨nearlyA, zeroQ⟩ ⟨nearlyB, zeroQ⟩ = .ok ⟨nearlyB, zeroQ⟩ := by
    unfold Arith.alignedHandPose
    rw [hid, Exact.dqMul (mul_one_exact (exact_nearlyB acos)), (exact_nearlyB acos).dqNormalize, Py.ok_bind, if_neg]
    · rfl
    · rintro (h | h)
      · exact absurd h.1 (not_lt.mpr wB.le)
      · exact absurd h.2 (not_lt.mpr wA.le)
  have h4 : (doubleArith acos).dqInverse DQuat.identity = .ok DQuat.identity := by
    rw [hid, hI.dqInverse, hc]
  have h5 : (doubleArith acos).rebase DQuat.identity true DQuat.identity = DQuat.identity := by
    unfold Arith.rebase
    rw [hid, Exact.dqMul (mul_one_exact hI), if_pos rfl, if_neg (by norm_num)]
  have h6 : (doubleArith acos).rebase DQuat.identity true ⟨nearlyB, zeroQ⟩ = ⟨nearlyB, zeroQ⟩ := by
    unfold Arith.rebase
    rw [hid, Exact.dqMul (one_mul_exact (exact_nearlyB acos)), if_pos rfl, if_neg (not_lt.mpr wB.le)]
  have h7 : (doubleArith acos).toPose DQuat.identity = .ok ⟨⟨0, 0, 0⟩, ⟨0, 0, 0, 1⟩⟩ := hI.toPose (by norm_num)
  have g := getAligned_of n h1 h2 h3 h4 h5 h6 h7 ((exact_nearlyB acos).toPose wB.le) ((exact_nearlyA acos).toPose wA.le)
  have hE : (doubleArith acos).orientationError ⟨⟨0, 0, 0⟩, nearlyA⟩ ⟨⟨0, 0, 0⟩, nearlyB⟩ = .error .nonFinite := by
    unfold Arith.orientationError
    dsimp only
    rw [(exact_nearlyA acos).normalize, (exact_nearlyB acos).normalize, if_neg (not_lt.mpr wA.le), if_neg (not_lt.mpr wB.le), angle_nearly, Py.error_bind]
  obtain ⟨rp, fl, he⟩ := (evaluate_replicate (o := o) (p := p) n hn (orientationError_self hI (by norm_num) ⟨0, 0, 0⟩ ⟨0, 0, 0⟩)).1 _ hE
  refine ⟨⟨DQuat.identity, rp, none⟩, ?_, rfl⟩
  unfold nanCandidate
  rw [g, Py.ok_bind]
  dsimp only
  rw [he, Py.ok_bind]
  rfl

theorem sum_nearlyB : roundDouble (roundDouble (8172310822647667 / 2 ^ 53 * (8172310822647667 / 2 ^ 53)) +
    roundDouble (7574423867897148 / 2 ^ 54 * (7574423867897148 / 2 ^ 54))) = 1 := by
  rw [roundDouble_eq (x := 7574423867897148 / 2 ^ 54 * (7574423867897148 / 2 ^ 54)) 55 6369560093874015 (by norm_num) (by norm_num)
      (by rw [abs_lt]; constructor <;> norm_num),
    roundDouble_eq (x := 8172310822647667 / 2 ^ 53 * (8172310822647667 / 2 ^ 53)) 53 7414809231272489 (by norm_num) (by norm_num)
      (by rw [abs_lt]; constructor <;> norm_num)]
  rw [roundDouble_eq 52 4503599627370496 (by norm_num) (by norm_num) (by rw [abs_lt]; constructor <;> norm_num)]
  norm_num

theorem square_nearlyB : roundDouble (roundDouble (8172310822647667 / 2 ^ 53 * (8172310822647667 / 2 ^ 53))) =
    roundDouble (8172310822647667 / 2 ^ 53 * (8172310822647667 / 2 ^ 53)) := by
  rw [roundDouble_eq (x := 8172310822647667 / 2 ^ 53 * (8172310822647667 / 2 ^ 53)) 53 7414809231272489 (by norm_num) (by norm_num)
      (by rw [abs_lt]; constructor <;> norm_num)]
  exact roundDouble_eq 53 7414809231272489 (by norm_num) (by norm_num) (by rw [abs_lt]; constructor <;> norm_num)

/-- `nearlyB` times the half turn about the y-axis. -/
noncomputable def turnedB : Quat := ⟨0, -(8172310822647667 / 2 ^ 53), -(7574423867897148 / 2 ^ 54), 0⟩

theorem exact_turnedB (acos : ℝ → ℝ) : Exact acos turnedB := by
  refine ⟨?_, roundDouble_zero, ?_, ?_, roundDouble_zero⟩
  · unfold doubleArith turnedB
    dsimp only
    rw [neg_mul_neg, neg_mul_neg, mul_zero, roundDouble_zero, zero_add, add_zero, square_nearlyB, sum_nearlyB, round_one]
  · unfold turnedB
    dsimp only
    rw [roundDouble_neg, round_wB]
  · unfold turnedB
    dsimp only
    rw [roundDouble_neg, round_xB]

theorem mul_turned (acos : ℝ → ℝ) : (doubleArith acos).mul nearlyB ⟨0, -1, 0, 0⟩ = turnedB := by
  unfold Arith.mul doubleArith nearlyB turnedB
  ext <;> simp [roundDouble_zero, roundDouble_neg, round_wB, round_xB]

theorem mul_back (acos : ℝ → ℝ) : (doubleArith acos).mul ⟨0, 1, 0, 0⟩ turnedB = nearlyB.conj := by
  unfold Arith.mul doubleArith turnedB nearlyB Quat.conj
  ext <;> simp [roundDouble_zero, roundDouble_neg, round_wB, round_xB]

theorem product_wrong (acos : ℝ → ℝ) : -1 ≤ ((doubleArith acos).mul nearlyA nearlyB).w ∧ ((doubleArith acos).mul nearlyA nearlyB).w ≤ 1 := by
  have e : ((doubleArith acos).mul nearlyA nearlyB).w = roundDouble (roundDouble (roundDouble (((7414809231272490 : ℕ) : ℝ) / 2 ^ 53 - ((6369560093874013 : ℕ) : ℝ) / 2 ^ 55))) := by
    unfold Arith.mul doubleArith nearlyA nearlyB
    dsimp only
    rw [mul_zero, mul_zero, roundDouble_zero, sub_zero, sub_zero,
      roundDouble_eq (x := 7574423867897145 / 2 ^ 54 * (7574423867897148 / 2 ^ 54)) 55 6369560093874013 (by norm_num) (by norm_num)
        (by rw [abs_lt]; constructor <;> norm_num),
      roundDouble_eq (x := 8172310822647668 / 2 ^ 53 * (8172310822647667 / 2 ^ 53)) 53 7414809231272490 (by norm_num) (by norm_num)
        (by rw [abs_lt]; constructor <;> norm_num)]
  rw [e]
  have near : ∀ x : ℝ, 0 ≤ x → |roundDouble x - x| ≤ x / 8 := by
    intro x hx
    have := roundDouble_near x
    rw [abs_of_nonneg hx] at this
    refine this.trans ?_
    rw [div_eq_inv_mul]
    exact mul_le_mul_of_nonneg_right (by norm_num) hx
  generalize hx : ((7414809231272490 : ℕ) : ℝ) / 2 ^ 53 - ((6369560093874013 : ℕ) : ℝ) / 2 ^ 55 = x
  have x1 : 0 ≤ x := by rw [← hx]; norm_num
  have x2 : x ≤ 13 / 20 := by rw [← hx]; norm_num
  obtain ⟨a1, a1'⟩ := abs_le.mp (near x x1)
  have b1 : 0 ≤ roundDouble x := by linarith
  obtain ⟨a2, a2'⟩ := abs_le.mp (near _ b1)
  have b2 : 0 ≤ roundDouble (roundDouble x) := by linarith
  obtain ⟨a3, a3'⟩ := abs_le.mp (near _ b2)
  constructor <;> linarith

/-- A wrong calibration, half a turn about the y-axis, evaluated. -/
theorem candidate_halfTurn (acos : ℝ → ℝ) (o p : ℝ) (n : ℕ) (hn : 1 ≤ n) : ∃ c x, nanCandidate (doubleArith acos) o p
    (DQuat.identity :: List.replicate n ⟨nearlyA, zeroQ⟩) (DQuat.identity :: List.replicate n ⟨nearlyB, zeroQ⟩) ⟨⟨0, 1, 0, 0⟩, zeroQ⟩ = .ok c ∧
    c.dq_H_E = ⟨⟨0, 1, 0, 0⟩, zeroQ⟩ ∧ c.rmse_orientation = some x := by
  have hI := exact_identity acos
  have hT := exact_halfTurn acos
  have hT' : Exact acos ⟨0, -1, 0, 0⟩ := by
    have := hT.conj
    unfold Quat.conj at this
    simpa using this
  have hc : Quat.conj ⟨0, 1, 0, 0⟩ = ⟨0, -1, 0, 0⟩ := by unfold Quat.conj; simp
  have hc' : Quat.conj ⟨0, -1, 0, 0⟩ = ⟨0, 1, 0, 0⟩ := by unfold Quat.conj; simp
  have hid : DQuat.identity = ⟨⟨0, 0, 0, 1⟩, zeroQ⟩ := rfl
  have wA : (0 : ℝ) < nearlyA.w := by unfold nearlyA; norm_num
  have wB : (0 : ℝ) < nearlyB.conj.w := by unfold nearlyB Quat.conj; norm_num
  have h1 : (doubleArith acos).inverseCalibration ⟨⟨0, 1, 0, 0⟩, zeroQ⟩ = .ok ⟨⟨0, -1, 0, 0⟩, zeroQ⟩ := by
    unfold Arith.inverseCalibration
    rw [hT.dqInverse, Py.ok_bind, hc, hT'.dqNormalize, Py.ok_bind]
    dsimp only
    rw [hT'.norm, pyAssert_pos (by norm_num), Py.ok_bind, if_neg (lt_irrefl 0)]
    rfl
  have h2 : (doubleArith acos).alignedHandPose ⟨⟨0, -1, 0, 0⟩, zeroQ⟩ DQuat.identity DQuat.identity = .ok ⟨⟨0, -1, 0, 0⟩, zeroQ⟩ := by
    unfold Arith.alignedHandPose
    rw [hid, Exact.dqMul (one_mul_exact hT'), hT'.dqNormalize, Py.ok_bind, if_neg (by norm_num)]
    rfl
  have h3 : (doubleArith acos).alignedHandPose ⟨⟨0, -1, 0, 0⟩, zeroQ⟩ ⟨nearlyA, zeroQ⟩ ⟨nearlyB, zeroQ⟩ = .ok ⟨turnedB, zeroQ⟩ := by
    unfold Arith.alignedHandPose
    rw [Exact.dqMul (mul_turned acos), (exact_turnedB acos).dqNormalize, Py.ok_bind, if_neg]
    · rfl
    · rintro (h | h)
      · exact lt_irrefl (0 : ℝ) h.1
      · exact lt_irrefl (0 : ℝ) h.1
  have h4 : (doubleArith acos).dqInverse ⟨⟨0, -1, 0, 0⟩, zeroQ⟩ = .ok ⟨⟨0, 1, 0, 0⟩, zeroQ⟩ := by
    rw [hT'.dqInverse, hc']
  have m : (doubleArith acos).mul ⟨0, 1, 0, 0⟩ ⟨0, -1, 0, 0⟩ = ⟨0, 0, 0, 1⟩ := by
    unfold Arith.mul doubleArith
    ext <;> simp [roundDouble_zero, roundDouble_neg, round_one]
  have h5 : (doubleArith acos).rebase ⟨⟨0, 1, 0, 0⟩, zeroQ⟩ true ⟨⟨0, -1, 0, 0⟩, zeroQ⟩ = DQuat.identity := by
    unfold Arith.rebase
    rw [Exact.dqMul m, if_pos rfl, if_neg (by norm_num), hid]
  have h6 : (doubleArith acos).rebase ⟨⟨0, 1, 0, 0⟩, zeroQ⟩ true ⟨turnedB, zeroQ⟩ = ⟨nearlyB.conj, zeroQ⟩ := by
    unfold Arith.rebase
    rw [Exact.dqMul (mul_back acos), if_pos rfl, if_neg (not_lt.mpr wB.le)]
  have h7 : (doubleArith acos).toPose DQuat.identity = .ok ⟨⟨0, 0, 0⟩, ⟨0, 0, 0, 1⟩⟩ := hI.toPose (by norm_num)
  have g := getAligned_of n h1 h2 h3 h4 h5 h6 h7 ((exact_nearlyB acos).conj.toPose wB.le) ((exact_nearlyA acos).toPose wA.le)
  have hcc : nearlyB.conj.conj = nearlyB := by unfold Quat.conj; simp
  have hE : ∃ x, (doubleArith acos).orientationError ⟨⟨0, 0, 0⟩, nearlyA⟩ ⟨⟨0, 0, 0⟩, nearlyB.conj⟩ = .ok x := by
    have : ∃ x, (doubleArith acos).angleBetween nearlyA nearlyB.conj = .ok x := by
      unfold Arith.angleBetween
      split_ifs
      · exact ⟨_, rfl⟩
      · rw [(exact_nearlyB acos).conj.inverse, hcc, Py.ok_bind]
        dsimp only
        rw [if_pos (product_wrong acos)]
        exact ⟨_, rfl⟩
    obtain ⟨x, hx⟩ := this
    unfold Arith.orientationError
    dsimp only
    rw [(exact_nearlyA acos).normalize, (exact_nearlyB acos).conj.normalize, if_neg (not_lt.mpr wA.le), if_neg (not_lt.mpr wB.le), hx, Py.ok_bind]
    exact ⟨_, rfl⟩
  obtain ⟨x, hE⟩ := hE
  obtain ⟨rp, ro, fl, he⟩ := (evaluate_replicate (o := o) (p := p) n hn (orientationError_self hI (by norm_num) ⟨0, 0, 0⟩ ⟨0, 0, 0⟩)).2 _ hE
  refine ⟨⟨⟨⟨0, 1, 0, 0⟩, zeroQ⟩, rp, some ro⟩, ro, ?_, rfl, rfl⟩
  unfold nanCandidate
  rw [g, Py.ok_bind]
  dsimp only
  rw [he, Py.ok_bind]
  rfl

theorem nearly_close : 2 * Spec.halfAngle nearlyA nearlyB ≤ 1e-10 := by
  have lenA : Spec.len nearlyA = Real.sqrt ((7574423867897145 / 2 ^ 54) ^ 2 + 0 ^ 2 + (1 / 2 ^ 36) ^ 2 + (8172310822647668 / 2 ^ 53) ^ 2) := rfl
  have lenB : Spec.len nearlyB = Real.sqrt ((7574423867897148 / 2 ^ 54) ^ 2 + 0 ^ 2 + 0 ^ 2 + (8172310822647667 / 2 ^ 53) ^ 2) := rfl
  have posA : 0 < Spec.len nearlyA := by rw [lenA]; apply Real.sqrt_pos.mpr; norm_num
  have posB : 0 < Spec.len nearlyB := by rw [lenB]; apply Real.sqrt_pos.mpr; norm_num
  have hC : ∀ x : ℝ, x = (nearlyA.x * nearlyB.x + nearlyA.y * nearlyB.y + nearlyA.z * nearlyB.z + nearlyA.w * nearlyB.w) /
      (Spec.len nearlyA * Spec.len nearlyB) → x < 1 ∧ 1 - 4e-22 ≤ x := by
    rintro x rfl
    have e : Spec.len nearlyA * Spec.len nearlyB = Real.sqrt (((7574423867897145 / 2 ^ 54) ^ 2 + 0 ^ 2 + (1 / 2 ^ 36) ^ 2 + (8172310822647668 / 2 ^ 53) ^ 2) *
        ((7574423867897148 / 2 ^ 54) ^ 2 + 0 ^ 2 + 0 ^ 2 + (8172310822647667 / 2 ^ 53) ^ 2)) := by
      rw [lenA, lenB, Real.sqrt_mul (by positivity)]
    have hD : nearlyA.x * nearlyB.x + nearlyA.y * nearlyB.y + nearlyA.z * nearlyB.z + nearlyA.w * nearlyB.w =
        7574423867897145 / 2 ^ 54 * (7574423867897148 / 2 ^ 54) + 8172310822647668 / 2 ^ 53 * (8172310822647667 / 2 ^ 53) := by
      unfold nearlyA nearlyB
      ring
    constructor
    · rw [div_lt_one (mul_pos posA posB), e, hD]
      apply Real.lt_sqrt_of_sq_lt
      norm_num
    · rw [le_div_iff₀ (mul_pos posA posB), e, hD, mul_comm, ← le_div_iff₀ (by norm_num)]
      apply Real.sqrt_le_iff.mpr
      constructor <;> norm_num
  obtain ⟨c1, c2⟩ := hC _ rfl
  have h := arccos_close (x := (nearlyA.x * nearlyB.x + nearlyA.y * nearlyB.y + nearlyA.z * nearlyB.z + nearlyA.w * nearlyB.w) /
    (Spec.len nearlyA * Spec.len nearlyB)) (y := 1) ⟨by norm_num at c2; linarith, c1.le⟩ ⟨by norm_num, le_rfl⟩
  rw [Real.arccos_one, sub_zero] at h
  have h2 : Real.sqrt (|(nearlyA.x * nearlyB.x + nearlyA.y * nearlyB.y + nearlyA.z * nearlyB.z + nearlyA.w * nearlyB.w) /
    (Spec.len nearlyA * Spec.len nearlyB) - 1| / 2) ≤ 1.5e-11 := by
    apply Real.sqrt_le_iff.mpr ⟨by norm_num, ?_⟩
    rw [abs_sub_comm, abs_of_pos (by linarith)]
    norm_num at c2 ⊢
    linarith
  have h3 := mul_le_mul_of_nonneg_left h2 Real.pi_pos.le
  have h4 := Real.pi_lt_d2
  have h5 := le_trans (le_abs_self _) (h.trans h3)
  unfold Spec.halfAngle
  norm_num at h4 h5 ⊢
  linarith

/-- The angle by which the pair `b`, `w` of orientations violates `b X = X w`, for exact arithmetic (between zero and a full turn, both of which are no violation). -/
noncomputable def Spec.misfit (X b w : DQuat) : ℝ := 2 * Spec.halfAngle (b.rot * X.rot) (X.rot * w.rot)

theorem misfit_identity (b w : DQuat) : Spec.misfit DQuat.identity b w = 2 * Spec.halfAngle b.rot w.rot := by
  unfold Spec.misfit
  congr 2
  · change Quat.mul b.rot ⟨0, 0, 0, 1⟩ = b.rot
    ext <;> simp [Quat.mul]
  · change Quat.mul ⟨0, 0, 0, 1⟩ w.rot = w.rot
    ext <;> simp [Quat.mul]

theorem misfit_halfTurn : 1 ≤ Spec.misfit ⟨⟨0, 1, 0, 0⟩, zeroQ⟩ ⟨nearlyA, zeroQ⟩ ⟨nearlyB, zeroQ⟩ ∧
    Spec.misfit ⟨⟨0, 1, 0, 0⟩, zeroQ⟩ ⟨nearlyA, zeroQ⟩ ⟨nearlyB, zeroQ⟩ ≤ Real.pi := by
  have e1 : nearlyA * (⟨0, 1, 0, 0⟩ : Quat) = ⟨-(1 / 2 ^ 36), 8172310822647668 / 2 ^ 53, 7574423867897145 / 2 ^ 54, 0⟩ := by
    change Quat.mul nearlyA ⟨0, 1, 0, 0⟩ = _
    unfold nearlyA
    ext <;> simp [Quat.mul]
  have e2 : (⟨0, 1, 0, 0⟩ : Quat) * nearlyB = ⟨0, 8172310822647667 / 2 ^ 53, -(7574423867897148 / 2 ^ 54), 0⟩ := by
    change Quat.mul ⟨0, 1, 0, 0⟩ nearlyB = _
    unfold nearlyB
    ext <;> simp [Quat.mul]
  unfold Spec.misfit
  dsimp only
  rw [e1, e2]
  unfold Spec.halfAngle
  have l1 : (9 / 10 : ℝ) ≤ Spec.len ⟨-(1 / 2 ^ 36), 8172310822647668 / 2 ^ 53, 7574423867897145 / 2 ^ 54, 0⟩ := by
    unfold Spec.len
    exact Real.le_sqrt_of_sq_le (by norm_num)
  have l2 : (9 / 10 : ℝ) ≤ Spec.len ⟨0, 8172310822647667 / 2 ^ 53, -(7574423867897148 / 2 ^ 54), 0⟩ := by
    unfold Spec.len
    exact Real.le_sqrt_of_sq_le (by norm_num)
  have l3 : (81 / 100 : ℝ) ≤ Spec.len ⟨-(1 / 2 ^ 36), 8172310822647668 / 2 ^ 53, 7574423867897145 / 2 ^ 54, 0⟩ *
      Spec.len ⟨0, 8172310822647667 / 2 ^ 53, -(7574423867897148 / 2 ^ 54), 0⟩ := by nlinarith
  dsimp only
  generalize Spec.len _ * Spec.len _ = L at l3 ⊢
  have h : (-(1 / 2 ^ 36) * 0 + 8172310822647668 / 2 ^ 53 * (8172310822647667 / 2 ^ 53) + 7574423867897145 / 2 ^ 54 * -(7574423867897148 / 2 ^ 54) + 0 * 0 : ℝ) / L ≤
      Real.cos (1 / 2) := by
    rw [div_le_iff₀ (by linarith)]
    have c : (7 / 8 : ℝ) ≤ Real.cos (1 / 2) := by
      have := Real.one_sub_sq_div_two_le_cos (x := 1 / 2)
      norm_num at this
      exact this
    have : (7 / 8 : ℝ) * (81 / 100) ≤ Real.cos (1 / 2) * L := mul_le_mul c l3 (by norm_num) (by linarith)
    refine le_trans ?_ this
    norm_num
  have := Real.arccos_le_arccos h
  rw [Real.arccos_cos (by norm_num) (by linarith [Real.pi_gt_three])] at this
  refine ⟨by linarith, ?_⟩
  have h2 : (0 : ℝ) ≤ (-(1 / 2 ^ 36) * 0 + 8172310822647668 / 2 ^ 53 * (8172310822647667 / 2 ^ 53) + 7574423867897145 / 2 ^ 54 * -(7574423867897148 / 2 ^ 54) + 0 * 0 : ℝ) / L :=
    div_nonneg (by norm_num) (by linarith)
  linarith [Real.arccos_le_pi_div_two.mpr h2]

/-- **C97** is refuted for `float64`: for every number of poses there are recordings, with pairs of orientations that differ by less than `1e-10` radians, for
which the calibration that fits (the identity) evaluates to an orientation error that is not a number, and which RANSAC therefore discards.  A calibration that is off by more than
one radian is taken instead if there is one, whether it was found before or after; otherwise there is no result. -/
theorem C97_refuted (acos : ℝ → ℝ) (o p : ℝ) (n : ℕ) (hn : 1 ≤ n) : ∃ (bs ws : List DQuat) (wrong : DQuat) (fits misses : NanCandidate),
    bs.length = n + 1 ∧ ws.length = n + 1 ∧
    (∀ (i : ℕ) (b w : DQuat), bs[i]? = some b → ws[i]? = some w → Spec.misfit DQuat.identity b w ≤ 1e-10 ∧ b.dual = zeroQ ∧ w.dual = zeroQ) ∧
    (∀ (i : ℕ) (b w : DQuat), 1 ≤ i → bs[i]? = some b → ws[i]? = some w → 1 ≤ Spec.misfit wrong b w ∧ Spec.misfit wrong b w ≤ Real.pi) ∧
    nanCandidate (doubleArith acos) o p bs ws DQuat.identity = .ok fits ∧ nanCandidate (doubleArith acos) o p bs ws wrong = .ok misses ∧
    fits.rmse_orientation = none ∧ misses.dq_H_E = wrong ∧
    bestNan [fits] = none ∧ bestNan [fits, misses] = some misses ∧ bestNan [misses, fits] = some misses := by
  obtain ⟨c, h1, h2⟩ := candidate_identity acos o p n hn
  obtain ⟨d, x, g1, g2, g3⟩ := candidate_halfTurn acos o p n hn
  refine ⟨_, _, ⟨⟨0, 1, 0, 0⟩, zeroQ⟩, c, d, ?_, ?_, ?_, ?_, h1, g1, h2, g2, ?_, ?_, ?_⟩
  · simp
  · simp
  · intro i b w hb hw
    cases i with
    | zero =>
      rw [List.getElem?_cons_zero] at hb hw
      cases hb; cases hw
      refine ⟨?_, rfl, rfl⟩
      rw [misfit_identity]
      unfold Spec.halfAngle Spec.len DQuat.identity
      norm_num
    | succ i =>
      rw [List.getElem?_cons_succ] at hb hw
      obtain rfl := List.eq_of_mem_replicate (List.mem_of_getElem? hb)
      obtain rfl := List.eq_of_mem_replicate (List.mem_of_getElem? hw)
      refine ⟨?_, rfl, rfl⟩
      rw [misfit_identity]
      exact nearly_close
  · intro i b w hi hb hw
    cases i with
    | zero => omega
    | succ i =>
      rw [List.getElem?_cons_succ] at hb hw
      obtain rfl := List.eq_of_mem_replicate (List.mem_of_getElem? hb)
      obtain rfl := List.eq_of_mem_replicate (List.mem_of_getElem? hw)
      exact misfit_halfTurn
  · exact updateBestNan_nan none h2
  · change updateBestNan (updateBestNan none c) d = some d
    rw [updateBestNan_nan none h2, updateBestNan_first g3]
  · change updateBestNan (updateBestNan none d) c = some d
    rw [updateBestNan_nan _ h2, updateBestNan_first g3]

end HandEye
