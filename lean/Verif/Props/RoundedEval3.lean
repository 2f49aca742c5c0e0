import Verif.Props.RoundedEval2

/-! # Property C97, continued: exact arithmetic, and when the error is a number -/

namespace HandEye

/-- Arithmetic without rounding. -/
noncomputable def exactArith : Arith where
  fl := id
  dot p q := p.x * q.x + p.y * q.y + p.z * q.z + p.w * q.w
  acos := Real.arccos

theorem exact_mul (p q : Quat) : exactArith.mul p q = p * q := rfl

theorem exact_norm (q : Quat) : exactArith.norm q = q.norm := rfl

theorem exact_normalize (q : Quat) : exactArith.normalize q = q.normalize := rfl

theorem exact_divScalar (q : Quat) (s : ℝ) : exactArith.divScalar q s = q.divScalar s := rfl

theorem exact_inverse (q : Quat) : exactArith.inverse q = q.inverse := rfl

theorem exact_dqMul (a b : DQuat) : exactArith.dqMul a b = a * b := rfl

theorem exact_dqNormalize (a : DQuat) : exactArith.dqNormalize a = a.normalize := by
  unfold Arith.dqNormalize DQuat.normalize
  rw [exact_divScalar, exact_divScalar, exact_norm]
  cases a.rot.divScalar a.rot.norm with
  | error e => rfl
  | ok r =>
    rw [Py.ok_bind, Py.ok_bind]
    cases a.dual.divScalar a.rot.norm with
    | error e => rfl
    | ok d => simp [DQuat.assertNormalization, DQuat.PyVal.truthy, pyAssert]

theorem exact_dqInverse (a : DQuat) : exactArith.dqInverse a = a.inverse := by
  unfold Arith.dqInverse DQuat.inverse DQuat.norm
  rw [exact_norm]
  by_cases h : a.rot.norm > 1e-8
  · simp only [pyAssert_pos h, Py.ok_bind, Py.pure_eq]
    rfl
  · simp only [pyAssert_neg h, Py.error_bind]

theorem exact_toPose (a : DQuat) : exactArith.toPose a = Prod.fst <$> a.toPose := by
  unfold Arith.toPose DQuat.toPose
  rw [exact_dqNormalize]
  cases a.normalize with
  | error e => rfl
  | ok r => rfl

theorem exact_alignedHandPose (e b w : DQuat) : exactArith.alignedHandPose e b w = alignedHandPose e b w := by
  unfold Arith.alignedHandPose alignedHandPose
  rw [exact_dqMul, exact_dqNormalize]

theorem exact_alignPaths (v : List DQuat) : exactArith.alignPaths v 0 true = alignPathsAtIndex v := by
  unfold Arith.alignPaths alignPathsAtIndex
  cases pyGet v 0 with
  | error e => rfl
  | ok a =>
    rw [Py.ok_bind, Py.ok_bind, exact_dqInverse]
    rfl

theorem exact_getAlignedPoses (bs ws : List DQuat) (X : DQuat) : exactArith.getAlignedPoses bs ws X = getAlignedPoses bs ws X := by
  unfold Arith.getAlignedPoses getAlignedPoses Arith.inverseCalibration
  have e1 : exactArith.toPose = fun d : DQuat => (Prod.fst <$> d.toPose : Py Pose) := funext exact_toPose
  have e2 : exactArith.alignedHandPose = alignedHandPose := by
    funext e b w
    exact exact_alignedHandPose e b w
  have e3 : (fun v => exactArith.alignPaths v 0 true) = fun v => alignPathsAtIndex v := funext exact_alignPaths
  simp only [exact_alignPaths, e1, e2, exact_dqInverse, exact_dqNormalize, bind_assoc, DQuat.enforcePositiveQRotW, DQuat.norm]
  congr 1
  funext _
  congr 1
  funext a
  congr 1
  funext b
  by_cases h : b.rot.norm > 1e-8
  · simp only [pyAssert_pos h, Py.ok_bind, Py.pure_eq]
    rw [pyAssert_pos (show exactArith.norm b.rot > 1e-8 from h), Py.ok_bind]
  · simp only [pyAssert_neg h, Py.error_bind]
    rw [pyAssert_neg (show ¬ exactArith.norm b.rot > 1e-8 from h), Py.error_bind]

/-- The orientation error for exact arithmetic. -/
theorem exact_poseError (a b : Pose) : computePoseError a b = (exactArith.orientationError a b).map fun x => (exactArith.distance a.pos b.pos, x) := by
  unfold computePoseError Arith.orientationError
  have ha : ∀ p q : Quat, exactArith.angleBetween p q = angleBetweenQuaternions p q := by
    intro p q
    unfold Arith.angleBetween angleBetweenQuaternions
    split_ifs with h
    · rfl
    · rw [exact_inverse]
      cases q.inverse with
      | error e => rfl
      | ok i =>
        rw [Py.ok_bind, Py.ok_bind]
        unfold npArccos
        rw [exact_mul]
        dsimp only
        split_ifs with h2
        · rfl
        · rfl
  have hd : exactArith.distance a.pos b.pos = (a.pos - b.pos).norm := by
    unfold Arith.distance Vec3.norm
    change Real.sqrt (_ * _ + _ * _ + _ * _ + 0 * 0) = _
    rw [mul_zero, add_zero]
    rfl
  dsimp only
  rw [ha, exact_normalize, exact_normalize, hd]
  cases angleBetweenQuaternions (if a.q.normalize.w < 0 then -a.q.normalize else a.q.normalize) (if b.q.normalize.w < 0 then -b.q.normalize else b.q.normalize) with
  | error e => rfl
  | ok x => rfl

theorem toOption_map_some {l : List (Pose × Pose)} {errors : List (ℝ × ℝ)} (h : l.mapM (fun p => computePoseError p.1 p.2) = .ok errors) :
    (l.map fun x => exactArith.distance x.1.pos x.2.pos) = errors.map Prod.fst ∧
    (l.map fun x => (exactArith.orientationError x.1 x.2).toOption) = errors.map fun e => some e.2 := by
  induction l generalizing errors with
  | nil => cases h; exact ⟨rfl, rfl⟩
  | cons p l ih =>
    rw [List.mapM_cons] at h
    obtain ⟨e, h1, h⟩ := Py.bind_eq_ok.mp h
    obtain ⟨es, h2, h⟩ := Py.bind_eq_ok.mp h
    cases h
    obtain ⟨i1, i2⟩ := ih h2
    rw [exact_poseError] at h1
    cases hx : exactArith.orientationError p.1 p.2 with
    | error er => rw [hx] at h1; cases h1
    | ok x =>
      rw [hx] at h1
      cases h1
      constructor
      · rw [List.map_cons, List.map_cons, i1]
      · rw [List.map_cons, List.map_cons, i2, hx]
        rfl

theorem exact_rmse (l : List ℝ) : exactArith.rmse l = Real.sqrt ((l.map fun e => e ^ 2).sum / l.length) := by
  have key : ∀ (l : List ℝ) (s : ℝ), l.foldl (fun s e => exactArith.fl (s + exactArith.fl (e * e))) s = s + (l.map fun e => e ^ 2).sum := by
    intro l
    induction l with
    | nil => intro s; simp
    | cons a l ih =>
      intro s
      rw [List.foldl_cons, ih, List.map_cons, List.sum_cons]
      change s + a * a + _ = _
      ring
  unfold Arith.rmse
  rw [key, zero_add]
  rfl

/-- **C97**, without rounding: where the model over the real numbers evaluates a calibration, so does this one for exact arithmetic, with the same result. -/
theorem C97_exact_arithmetic (o p : ℝ) (bs ws : List DQuat) (X : DQuat) (as cs : List Pose) (rp ro : ℝ) (flags : List Bool)
    (h1 : getAlignedPoses bs ws X = .ok (as, cs)) (h2 : evaluateAlignment o p as cs = .ok (rp, ro, flags)) :
    exactArith.evaluate o p as cs = .ok (rp, some ro, flags) ∧ nanCandidate exactArith o p bs ws X = .ok ⟨X, rp, some ro⟩ := by
  have key : exactArith.evaluate o p as cs = .ok (rp, some ro, flags) := by
    unfold evaluateAlignment at h2
    obtain ⟨_, g1, h2⟩ := Py.bind_eq_ok.mp h2
    obtain ⟨errors, g2, h2⟩ := Py.bind_eq_ok.mp h2
    obtain ⟨mp, g3, h2⟩ := Py.bind_eq_ok.mp h2
    obtain ⟨mo, g4, h2⟩ := Py.bind_eq_ok.mp h2
    cases h2
    have hl := pyAssert_eq_ok.mp g1
    unfold npDiv at g3 g4
    split_ifs at g3 with hz
    rw [if_neg hz] at g4
    cases g3
    cases g4
    have hn : as ≠ [] := by
      rintro rfl
      exact hz (by simp)
    obtain ⟨r, hr⟩ := evaluate_ok exactArith o p hl hn
    obtain ⟨-, -, e⟩ := evaluate_eq_ok hr
    obtain ⟨m1, m2⟩ := toOption_map_some g2
    have hlen : errors.length = as.length := by
      have := congrArg List.length m1
      simpa [hl] using this.symm
    rw [hr, e]
    have f : ((as.zip cs).map fun x => numLt (exactArith.orientationError x.1 x.2).toOption (some o) && decide (exactArith.distance x.1.pos x.2.pos < p)) =
        errors.map fun e => decide (e.2 < o ∧ e.1 < p) := by
      apply List.ext_getElem?
      intro i
      have q1 := congrArg (fun l => l[i]?) m1
      have q2 := congrArg (fun l => l[i]?) m2
      simp only [List.getElem?_map] at q1 q2 ⊢
      cases hz : (as.zip cs)[i]? with
      | none =>
        rw [hz] at q1
        cases he : errors[i]? with
        | none => rfl
        | some v => rw [he] at q1; cases q1
      | some z =>
        rw [hz] at q1 q2
        cases he : errors[i]? with
        | none => rw [he] at q1; cases q1
        | some v =>
          rw [he] at q1 q2
          simp only [Option.map_some, Option.some.injEq] at q1 q2 ⊢
          rw [q1, q2]
          simp [numLt]
    rw [f, m1, m2, exact_rmse]
    unfold Arith.rmseNan
    rw [if_neg (by simp), exact_rmse]
    have hf : (errors.map fun e => some e.2).filterMap (fun e : Num => e) = errors.map Prod.snd := by
      rw [List.filterMap_map]
      induction errors with
      | nil => rfl
      | cons a l ih => simp
    rw [hf]
    simp only [List.map_map, List.length_map, hlen]
    rfl
  refine ⟨key, ?_⟩
  unfold nanCandidate
  rw [exact_getAlignedPoses, h1, Py.ok_bind]
  dsimp only
  rw [key, Py.ok_bind]
  rfl

end HandEye
