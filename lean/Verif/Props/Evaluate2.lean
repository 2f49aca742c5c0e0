import Verif.Props.Evaluate
import Verif.Props.PoseError

/-! # C71, continued: what the errors of a calibration are that need not be the true one -/

namespace HandEye

theorem toPose_motion {a : DQuat} (h : Spec.IsUnit a) :
    ∃ p, (Prod.fst <$> a.toPose : Py Pose) = .ok p ∧ p.q.norm = 1 ∧ ∀ x, Spec.poseMotion p x = Spec.motion a x := by
  have hr := DQuat.IsUnit.rot h
  rw [DQuat.toPose_unit hr]
  refine ⟨_, rfl, ?_, ?_⟩
  · rw [Quat.norm_eq_one]
    dsimp only
    split <;> simpa using hr
  · intro x
    rw [DQuat.motion_eq, hr]
    have e : ∀ p : Pose, p.q.norm = 1 → Spec.poseMotion p x = (p.q * Quat.ofVec x * p.q.conj).vec + p.pos := by
      intro p h
      rw [poseMotion_eq h, motion_fromPose (Quat.norm_eq_one.mp h)]
    rw [e]
    · dsimp only
      split <;> ext <;> simp <;> ring
    · rw [Quat.norm_eq_one]
      dsimp only
      split <;> simpa using hr

theorem poses_motion {v : List DQuat} (hv : ∀ a ∈ v, Spec.IsUnit a) :
    ∃ ps, v.mapM (fun d => (Prod.fst <$> d.toPose : Py Pose)) = .ok ps ∧ ps.length = v.length ∧ (∀ p ∈ ps, p.q.norm = 1) ∧
      ∀ (k : ℕ) p a, ps[k]? = some p → v[k]? = some a → ∀ x, Spec.poseMotion p x = Spec.motion a x := by
  induction v with
  | nil => exact ⟨[], rfl, rfl, by simp, by simp⟩
  | cons a v ih =>
    obtain ⟨ps, h1, h2, h3, h4⟩ := ih fun x hx => hv x (List.mem_cons_of_mem _ hx)
    obtain ⟨p, p1, p2, p3⟩ := toPose_motion (hv a List.mem_cons_self)
    refine ⟨p :: ps, ?_, by simp [h2], ?_, ?_⟩
    · rw [List.mapM_cons, p1, Py.ok_bind, h1, Py.ok_bind, Py.pure_eq]
    · intro q hq
      rcases List.mem_cons.mp hq with rfl | hq
      · exact p2
      · exact h3 q hq
    · intro k q b hq hb
      cases k with
      | zero =>
        simp only [List.getElem?_cons_zero, Option.some.injEq] at hq hb
        subst hq hb
        exact p3
      | succ k =>
        simp only [List.getElem?_cons_succ] at hq hb
        exact h4 k q b hq hb

/-- The poses that are compared: those of the hand, and those of the eye carried over to the hand by the calibration, each seen from
the first one. -/
theorem getAlignedPoses_motion {bs ws : List DQuat} {X w0 : DQuat} (hb : ∀ a ∈ bs, Spec.IsUnit a) (hw : ∀ a ∈ ws, Spec.IsUnit a)
    (hl : ws.length = bs.length) (h0 : ws[0]? = some w0) (hX : Spec.IsUnit X) :
    ∃ pB pW, getAlignedPoses bs ws X = .ok (pB, pW) ∧ pB.length = bs.length ∧ pW.length = bs.length ∧
      (∀ p ∈ pB, p.q.norm = 1) ∧ (∀ p ∈ pW, p.q.norm = 1) ∧
      (∀ (k : ℕ) p b, pB[k]? = some p → bs[k]? = some b → ∀ x, Spec.poseMotion p x = Spec.motion b x) ∧
      ∀ (k : ℕ) p w, pW[k]? = some p → ws[k]? = some w → ∀ x y, Spec.motion w0 y = Spec.motion w x →
        Spec.poseMotion p (Spec.motion X x) = Spec.motion X y := by
  have hXc := DQuat.isUnit_conj hX
  set e := posW X.conj with he
  have heu : Spec.IsUnit e := by
    rcases posW_eq_or X.conj with h | h <;> rw [he, h]
    · exact hXc
    · exact DQuat.isUnit_neg hXc
  have hem : ∀ x, Spec.motion e x = Spec.motion X.conj x := by
    intro x
    rcases posW_eq_or X.conj with h | h <;> rw [he, h]
    exact motion_neg _ _
  set g : DQuat × DQuat → DQuat := fun p => if ((p.2 * e).rot.w < 0 ∧ p.1.rot.w > 0) ∨ ((p.2 * e).rot.w > 0 ∧ p.1.rot.w < 0)
    then -(p.2 * e) else p.2 * e with hg
  have hgu : ∀ p : DQuat × DQuat, Spec.IsUnit p.2 → Spec.IsUnit (g p) := by
    intro p hp
    have := DQuat.isUnit_mul hp heu
    simp only [hg]
    split
    · exact DQuat.isUnit_neg this
    · exact this
  have hgm : ∀ p : DQuat × DQuat, Spec.IsUnit p.2 → ∀ x, Spec.motion (g p) x = Spec.motion p.2 (Spec.motion X.conj x) := by
    intro p hp x
    simp only [hg]
    split
    · rw [motion_neg, DQuat.motion_mul hp heu, hem]
    · rw [DQuat.motion_mul hp heu, hem]
  have hm : (bs.zip ws).mapM (fun p => alignedHandPose e p.1 p.2) = .ok ((bs.zip ws).map g) := by
    apply Py.mapM_ok
    intro p hp
    unfold alignedHandPose
    rw [DQuat.normalize_unit (DQuat.IsUnit.rot (DQuat.isUnit_mul (hw _ (List.of_mem_zip hp).2) heu)), Py.ok_bind]
    rfl
  obtain ⟨w0lt, hw0⟩ := List.getElem?_eq_some_iff.mp h0
  have hzl : ((bs.zip ws).map g).length = bs.length := by simp [hl]
  have hpos : pyPos ((bs.zip ws).map g).length 0 = some 0 := pyPos_natCast (k := 0) (by rw [hzl]; omega)
  have huz : ∀ a ∈ (bs.zip ws).map g, Spec.IsUnit a := by
    intro a ha
    obtain ⟨p, hp, rfl⟩ := List.mem_map.mp ha
    exact hgu p (hw _ (List.of_mem_zip hp).2)
  have hal := align_unit hpos huz true
  rw [List.rotate_zero] at hal
  set g0 := ((bs.zip ws).map g)[0]'(pyPos_some hpos).1 with hg0
  have hw0u : Spec.IsUnit w0 := hw _ (hw0 ▸ List.getElem_mem w0lt)
  have hg0e : g0 = g (bs[0]'(by omega), w0) := by
    rw [hg0, List.getElem_map, List.getElem_zip, hw0]
  have hg0u : Spec.IsUnit g0 := by rw [hg0e]; exact hgu _ hw0u
  have hg0m : ∀ x, Spec.motion g0 x = Spec.motion w0 (Spec.motion X.conj x) := by
    intro x; rw [hg0e]; exact hgm _ hw0u x
  have hru : ∀ a ∈ ((bs.zip ws).map g).map (rebase g0.conj true), Spec.IsUnit a := by
    intro a ha
    obtain ⟨b, hb', rfl⟩ := List.mem_map.mp ha
    exact rebase_unit (DQuat.isUnit_conj hg0u) (huz b hb') true
  obtain ⟨pW, w1, w2, w3, w4⟩ := poses_motion hru
  obtain ⟨pB, b1, b2, b3, b4⟩ := poses_motion hb
  refine ⟨pB, pW, ?_, b2, by rw [w2, List.length_map, hzl], b3, w3, b4, ?_⟩
  · unfold getAlignedPoses
    rw [pyAssert_pos hl, Py.ok_bind, DQuat.inverse_unit hX, Py.ok_bind, DQuat.normalize_unit (DQuat.IsUnit.rot hXc), Py.ok_bind,
      enforcePositive_unit hXc, Py.ok_bind, ← he, hm, Py.ok_bind, hal, Py.ok_bind, w1, Py.ok_bind, b1]
    rfl
  · intro k p w hp hk x y hxy
    obtain ⟨hk1, hk2⟩ := List.getElem?_eq_some_iff.mp hk
    have hwu : Spec.IsUnit w := hk2 ▸ hw _ (List.getElem_mem hk1)
    have hz : (((bs.zip ws).map g).map (rebase g0.conj true))[k]? = some (rebase g0.conj true (g (bs[k]'(by omega), w))) := by
      have : (bs.zip ws)[k]? = some (bs[k]'(by omega), w) :=
        List.getElem?_zip_eq_some.mpr ⟨List.getElem?_eq_getElem (by omega), hk⟩
      rw [List.getElem?_map, List.getElem?_map, this]
      rfl
    rw [w4 k p _ hp hz, motion_rebase (DQuat.isUnit_conj hg0u) (hgu _ hwu), hgm _ hwu, DQuat.motion_conj_motion hX, ← hxy]
    have : Spec.motion w0 y = Spec.motion g0 (Spec.motion X y) := by rw [hg0m, DQuat.motion_conj_motion hX]
    rw [this, DQuat.motion_conj_motion hg0u]

theorem count_errors {es : List (ℝ × ℝ)} {fl : List Bool} {ot pt : ℝ} (hl : fl.length = es.length)
    (h : ∀ (i : ℕ) (e : ℝ × ℝ), es[i]? = some e → (fl[i]? = some true ↔ e.1 < pt ∧ e.2 < ot)) :
    fl.count true = es.countP fun e => decide (e.1 < pt ∧ e.2 < ot) := by
  induction es generalizing fl with
  | nil =>
    rw [List.length_nil, List.length_eq_zero_iff] at hl
    subst hl
    rfl
  | cons e es ih =>
    obtain ⟨f, fl, rfl⟩ := List.exists_cons_of_length_eq_add_one (n := es.length) (l := fl) (by simpa using hl)
    have h0 := h 0 e rfl
    have := ih (fl := fl) (by simpa using hl) fun i => h (i + 1)
    rw [List.count_cons, List.countP_cons, this]
    congr 1
    simp only [List.getElem?_cons_zero, Option.some.injEq] at h0
    cases f <;> simp_all

/-- The errors of any rigid calibration: with the poses `H` of the hand seen from its first pose, and the poses `E` of the hand that follow from
the poses of the eye and the calibration `X`, the two numbers are the root mean squares of the distances and of the angles (in degrees)
between `H` and `E`, in this order, and the inliers are the poses with both errors below the thresholds. -/
theorem C71_errors (A B : List StampedPose) (X : DQuat) (c ot pt : ℝ) (hX : Spec.IsUnit X)
    (hA : (A.map StampedPose.t).Pairwise (· < ·)) (hA2 : 2 ≤ A.length) (hAu : ∀ p ∈ A, p.pose.q.norm = 1) (hBu : ∀ p ∈ B, p.pose.q.norm = 1)
    (hT : B.map StampedPose.t = (A.map StampedPose.t).map (· + c)) :
    ∃ (rp ro : ℝ) (n : ℕ) (H E : List Pose) (es : List (ℝ × ℝ)), evaluateCalibration ot pt A B X c = .ok (some (rp, ro), n) ∧
      es.length = A.length - 1 ∧ H.length = A.length - 1 ∧ E.length = A.length - 1 ∧
      (∀ (k : ℕ) a0 a b0 b h e, A[0]? = some a0 → A[k]? = some a → B[0]? = some b0 → B[k]? = some b → H[k]? = some h → E[k]? = some e →
        (∀ x, Spec.poseMotion a0.pose (Spec.poseMotion h x) = Spec.poseMotion a.pose x) ∧
        (∀ x y, Spec.poseMotion b0.pose y = Spec.poseMotion b.pose x → Spec.poseMotion e (Spec.motion X x) = Spec.motion X y) ∧
        ∃ er, es[k]? = some er ∧ er.1 = Spec.dist h.pos e.pos ∧
          (er.2 = Spec.rotationAngle h.q e.q ∨ (er.2 = 0 ∧ 1 - 6e-11 ≤ Spec.cosHalf h.q e.q))) ∧
      0 ≤ rp ∧ (A.length - 1 : ℕ) * rp ^ 2 = (es.map fun e => e.1 ^ 2).sum ∧
      0 ≤ ro ∧ (A.length - 1 : ℕ) * ro ^ 2 = (es.map fun e => e.2 ^ 2).sum ∧
      n = es.countP fun e => decide (e.1 < pt ∧ e.2 < ot) := by
  have hlen : B.length = A.length := by simpa using congrArg List.length hT
  have hub : ∀ p : StampedPose, p.pose.q.norm = 1 → Spec.IsUnit (DQuat.fromPose p.pose) := fun p hp =>
    fromPose_unit p.pose (by rw [hp]; norm_num)
  set RA := (shiftTimes c A).dropLast with hRA
  set RB := B.dropLast with hRB
  have lA : RA.length = A.length - 1 := by simp [hRA, shiftTimes]
  have lB : RB.length = A.length - 1 := by simp [hRB, hlen]
  have gA : ∀ (k : ℕ) a, k < A.length - 1 → A[k]? = some a → (dualQuats RA)[k]? = some (DQuat.fromPose a.pose) := by
    intro k a hk ha
    unfold dualQuats
    rw [hRA, shiftTimes, List.getElem?_map, List.getElem?_dropLast, if_pos (by simpa using hk), List.getElem?_map, ha]
    rfl
  have gB : ∀ (k : ℕ) b, k < A.length - 1 → B[k]? = some b → (dualQuats RB)[k]? = some (DQuat.fromPose b.pose) := by
    intro k b hk hb
    unfold dualQuats
    rw [hRB, List.getElem?_map, List.getElem?_dropLast, if_pos (by omega), hb]
    rfl
  obtain ⟨a0, hA0⟩ : ∃ a0, A[0]? = some a0 := ⟨_, List.getElem?_eq_getElem (by omega)⟩
  obtain ⟨b0, hB0⟩ : ∃ b0, B[0]? = some b0 := ⟨_, List.getElem?_eq_getElem (by omega)⟩
  have ua0 : a0.pose.q.norm = 1 := hAu _ (List.mem_of_getElem? hA0)
  have ub0 : b0.pose.q.norm = 1 := hBu _ (List.mem_of_getElem? hB0)
  set d0 := DQuat.fromPose a0.pose with hd0
  set f0 := DQuat.fromPose b0.pose with hf0
  have ud0 : Spec.IsUnit d0 := hub _ ua0
  have uf0 : Spec.IsUnit f0 := hub _ ub0
  have uA : ∀ a ∈ dualQuats RA, Spec.IsUnit a := by
    intro a ha
    obtain ⟨p, hp, rfl⟩ := List.mem_map.mp ha
    obtain ⟨q, hq, rfl⟩ := List.mem_map.mp (List.mem_of_mem_dropLast hp)
    exact hub _ (hAu q hq)
  have uB : ∀ a ∈ dualQuats RB, Spec.IsUnit a := by
    intro a ha
    obtain ⟨p, hp, rfl⟩ := List.mem_map.mp ha
    exact hub _ (hBu p (List.mem_of_mem_dropLast hp))
  have llA : (dualQuats RA).length = A.length - 1 := by simp [dualQuats, lA]
  have llB : (dualQuats RB).length = A.length - 1 := by simp [dualQuats, lB]
  have pA : pyPos (dualQuats RA).length 0 = some 0 := pyPos_natCast (k := 0) (by omega)
  have pB : pyPos (dualQuats RB).length 0 = some 0 := pyPos_natCast (k := 0) (by omega)
  have alA := align_unit pA uA true
  have alB := align_unit pB uB true
  rw [List.rotate_zero] at alA alB
  have ha0 : (dualQuats RA)[0]'(pyPos_some pA).1 = d0 := (List.getElem?_eq_some_iff.mp (gA 0 a0 (by omega) hA0)).2
  have hb0 : (dualQuats RB)[0]'(pyPos_some pB).1 = f0 := (List.getElem?_eq_some_iff.mp (gB 0 b0 (by omega) hB0)).2
  rw [ha0] at alA
  rw [hb0] at alB
  have unit_re : ∀ (v : List DQuat) (d : DQuat), Spec.IsUnit d → (∀ a ∈ v, Spec.IsUnit a) → ∀ a ∈ v.map (rebase d.conj true), Spec.IsUnit a := by
    intro v d hd hv a ha
    obtain ⟨b, hb, rfl⟩ := List.mem_map.mp ha
    exact rebase_unit (DQuat.isUnit_conj hd) (hv b hb) true
  have hw0 : ((dualQuats RB).map (rebase f0.conj true))[0]? = some (rebase f0.conj true f0) := by
    rw [List.getElem?_map, gB 0 b0 (by omega) hB0]
    rfl
  obtain ⟨H, E, g1, g2, g3, g4, g5, g6, g7⟩ := getAlignedPoses_motion (unit_re _ d0 ud0 uA) (unit_re _ f0 uf0 uB)
    (by simp [llA, llB]) hw0 hX
  rw [List.length_map, llA] at g2 g3
  have small : ∀ p : Pose, p.q.norm = 1 → p.q.norm > 1e-8 := by
    intro p hp; rw [hp]; norm_num
  have Hne : H ≠ [] := by rintro rfl; simp at g2; omega
  obtain ⟨rp, ro, fl, es, e1, e2, e3, e4, e5, ⟨r1, r2, _⟩, ⟨o1, o2, _⟩⟩ := C35_evaluation ot pt H E (by omega) Hne
    (fun p hp => small p (g4 p hp)) (fun p hp => small p (g5 p hp))
  have run : evaluateCalibration ot pt A B X c = .ok (some (rp, ro), fl.count true) := by
    unfold evaluateCalibration
    rw [pyAssert_pos (by omega), Py.ok_bind, pyAssert_pos (by omega), Py.ok_bind, aligned_same hA hA2 hAu hBu hT, Py.ok_bind]
    dsimp only
    rw [← hRA, ← hRB, pyAssert_pos (by omega), Py.ok_bind, if_neg (by omega)]
    have : evaluateRows ot pt RA RB X = .ok (rp, ro, fl) := by
      unfold evaluateRows
      rw [alA, Py.ok_bind, alB, Py.ok_bind, g1, Py.ok_bind]
      exact e1
    rw [this, Py.ok_bind, Py.pure_eq]
  refine ⟨rp, ro, _, H, E, es, run, by omega, g2, g3, ?_, r1, by rw [← g2]; exact r2, o1, by rw [← g2]; exact o2,
    count_errors (by omega) e5⟩
  intro k a0' a b0' b h e hA0' hAk hB0' hBk hH hE
  obtain rfl : a0' = a0 := Option.some.inj (hA0'.symm.trans hA0)
  obtain rfl : b0' = b0 := Option.some.inj (hB0'.symm.trans hB0)
  have hk : k < A.length - 1 := by
    have := (List.getElem?_eq_some_iff.mp hH).1
    omega
  have ua : a.pose.q.norm = 1 := hAu _ (List.mem_of_getElem? hAk)
  have ub : b.pose.q.norm = 1 := hBu _ (List.mem_of_getElem? hBk)
  refine ⟨?_, ?_, ?_⟩
  · intro x
    have := g6 k h _ hH (by rw [List.getElem?_map, gA k a hk hAk]; rfl) x
    rw [this, motion_rebase (DQuat.isUnit_conj ud0) (hub _ ua), poseMotion_eq ua0, ← hd0, DQuat.motion_motion_conj ud0, poseMotion_eq ua]
  · intro x y hxy
    refine g7 k e _ hE (by rw [List.getElem?_map, gB k b hk hBk]; rfl) x y ?_
    rw [motion_rebase (DQuat.isUnit_conj uf0) uf0, motion_rebase (DQuat.isUnit_conj uf0) (hub _ ub), ← poseMotion_eq ub, ← hxy,
      poseMotion_eq ub0]
  · obtain ⟨er, er1, er2⟩ := e4 k h e hH hE
    obtain ⟨d, v1, -, -, v2⟩ := C34_value h e (small _ (g4 _ (List.mem_of_getElem? hH))) (small _ (g5 _ (List.mem_of_getElem? hE)))
    rw [er2] at v1
    have := Except.ok.inj v1
    subst this
    exact ⟨_, er1, rfl, v2⟩

/-- Two sensors at the same place that turn by a half turn, and a calibration that is wrong by one metre: the positions differ by zero and two metres,
with the root mean square √2. -/
example : ∃ ro n, evaluateCalibration 1 0.02
    [⟨0, ⟨⟨0, 0, 0⟩, ⟨0, 0, 0, 1⟩⟩⟩, ⟨1, ⟨⟨0, 0, 0⟩, ⟨0, 0, 1, 0⟩⟩⟩, ⟨2, ⟨⟨1, 1, 0⟩, ⟨1, 0, 0, 0⟩⟩⟩]
    [⟨0, ⟨⟨0, 0, 0⟩, ⟨0, 0, 0, 1⟩⟩⟩, ⟨1, ⟨⟨0, 0, 0⟩, ⟨0, 0, 1, 0⟩⟩⟩, ⟨2, ⟨⟨1, 1, 0⟩, ⟨1, 0, 0, 0⟩⟩⟩]
    ⟨⟨0, 0, 0, 1⟩, ⟨1 / 2, 0, 0, 0⟩⟩ 0 = .ok (some (Real.sqrt 2, ro), n) := by
  have hq : (⟨0, 0, 0, 1⟩ : Quat).norm = 1 ∧ (⟨0, 0, 1, 0⟩ : Quat).norm = 1 ∧ (⟨1, 0, 0, 0⟩ : Quat).norm = 1 := by
    refine ⟨?_, ?_, ?_⟩ <;> simp [Quat.norm, Quat.dot]
  have hm : ∀ x : Vec3, Spec.motion ⟨⟨0, 0, 0, 1⟩, ⟨1 / 2, 0, 0, 0⟩⟩ x = ⟨x.x + 1, x.y, x.z⟩ := by
    intro x
    rw [DQuat.motion_eq]
    ext <;> simp [Quat.dot]
  have hp : ∀ (p : Pose), p.q.norm = 1 → ∀ x, Spec.poseMotion p x = (p.q * Quat.ofVec x * p.q.conj).vec + p.pos := by
    intro p h x
    rw [poseMotion_eq h, motion_fromPose (Quat.norm_eq_one.mp h)]
  have p0 : ∀ x : Vec3, Spec.poseMotion ⟨⟨0, 0, 0⟩, ⟨0, 0, 0, 1⟩⟩ x = x := by
    intro x
    rw [hp _ hq.1]
    ext <;> simp
  have p1 : ∀ x : Vec3, Spec.poseMotion ⟨⟨0, 0, 0⟩, ⟨0, 0, 1, 0⟩⟩ x = ⟨-x.x, -x.y, x.z⟩ := by
    intro x
    rw [hp _ hq.2.1]
    ext <;> simp
  have origin : ∀ p : Pose, Spec.poseMotion p ⟨0, 0, 0⟩ = p.pos := by
    intro p
    unfold Spec.poseMotion Spec.imPart
    ext <;> simp
  obtain ⟨rp, ro, n, H, E, es, h1, h2, h3, h4, h5, h6, h7, -⟩ := C71_errors
    [⟨0, ⟨⟨0, 0, 0⟩, ⟨0, 0, 0, 1⟩⟩⟩, ⟨1, ⟨⟨0, 0, 0⟩, ⟨0, 0, 1, 0⟩⟩⟩, ⟨2, ⟨⟨1, 1, 0⟩, ⟨1, 0, 0, 0⟩⟩⟩]
    [⟨0, ⟨⟨0, 0, 0⟩, ⟨0, 0, 0, 1⟩⟩⟩, ⟨1, ⟨⟨0, 0, 0⟩, ⟨0, 0, 1, 0⟩⟩⟩, ⟨2, ⟨⟨1, 1, 0⟩, ⟨1, 0, 0, 0⟩⟩⟩]
    ⟨⟨0, 0, 0, 1⟩, ⟨1 / 2, 0, 0, 0⟩⟩ 0 1 0.02 (by rw [DQuat.isUnit_iff]; norm_num [Quat.dot]) (by norm_num) (by simp) (by simp [hq])
    (by simp [hq]) (by simp)
  refine ⟨ro, n, ?_⟩
  rw [h1]
  obtain ⟨H0, H1, rfl⟩ := List.length_eq_two.mp h3
  obtain ⟨E0, E1, rfl⟩ := List.length_eq_two.mp h4
  obtain ⟨e0, e1, rfl⟩ := List.length_eq_two.mp h2
  obtain ⟨a1, a2, er, a3, a4, -⟩ := h5 0 _ _ _ _ _ _ rfl rfl rfl rfl rfl rfl
  obtain ⟨b1, b2, er', b3, b4, -⟩ := h5 1 _ _ _ _ _ _ rfl rfl rfl rfl rfl rfl
  obtain rfl : e0 = er := Option.some.inj a3
  obtain rfl : e1 = er' := Option.some.inj b3
  have q1 : H0.pos = ⟨0, 0, 0⟩ := by rw [← origin, ← p0 (Spec.poseMotion H0 _), a1, p0]
  have q2 : H1.pos = ⟨0, 0, 0⟩ := by rw [← origin, ← p0 (Spec.poseMotion H1 _), b1, p1]; simp
  have q3 : E0.pos = ⟨0, 0, 0⟩ := by
    have := a2 ⟨-1, 0, 0⟩ ⟨-1, 0, 0⟩ rfl
    simp only [hm, neg_add_cancel] at this
    rw [← origin, this]
  have q4 : E1.pos = ⟨2, 0, 0⟩ := by
    have := b2 ⟨-1, 0, 0⟩ ⟨1, 0, 0⟩ (by simp only [p0, p1]; simp)
    simp only [hm, neg_add_cancel] at this
    rw [← origin, this]
    norm_num
  have z0 : e0.1 = 0 := by rw [a4, q1, q3]; unfold Spec.dist; simp
  have z1 : e1.1 ^ 2 = 4 := by
    rw [b4, q2, q4]
    unfold Spec.dist
    rw [Real.sq_sqrt (by positivity)]
    norm_num
  have : rp ^ 2 = 2 := by
    simp [z0, z1] at h7
    linarith
  rw [← this, Real.sqrt_sq h6]

end HandEye
