import Verif.Model.Evaluate
import Verif.Lemmas.Interp
import Verif.Props.LoopError
import Verif.Props.AlignedContent

/-! # C71: evaluating a calibration on stamped poses -/

namespace HandEye

theorem poseMotion_eq {p : Pose} (h : p.q.norm = 1) (x : Vec3) :
    Spec.poseMotion p x = Spec.motion (DQuat.fromPose p) x := by
  rw [motion_fromPose (Quat.norm_eq_one.mp h)]
  have e : p.q.toH * x.toH * star p.q.toH = (p.q * Quat.ofVec x * p.q.conj).toH := by
    rw [Quat.toH_mul, Quat.toH_mul, Quat.toH_conj]
    rfl
  unfold Spec.poseMotion
  rw [e]
  rfl

/-- Unit dual quaternions with the same motion are the same up to sign. -/
theorem motion_ext {a b : DQuat} (ha : Spec.IsUnit a) (hb : Spec.IsUnit b)
    (h : ∀ x, Spec.motion a x = Spec.motion b x) : a = b ∨ a = -b := by
  have hu := DQuat.isUnit_mul (DQuat.isUnit_conj hb) ha
  have := motion_id hu (by
    intro x
    rw [DQuat.motion_mul (DQuat.isUnit_conj hb) ha, h, DQuat.motion_conj_motion hb])
  have e : a = b * (b.conj * a) := by rw [← mul_assoc, DQuat.mul_conj_unit hb, one_mul]
  rcases this with h | h <;> rw [h] at e
  · left; rw [e, mul_one]
  · right; rw [e, mul_neg, mul_one]

theorem evaluateRows_exact {RA RB : List StampedPose} {g X : DQuat} (hg : Spec.IsUnit g) (hX : Spec.IsUnit X)
    (hAu : ∀ p ∈ RA, p.pose.q.norm = 1) (hBu : ∀ p ∈ RB, p.pose.q.norm = 1) (hne : RA ≠ [])
    (h : List.Forall₂ (fun p q => ∀ x, Spec.poseMotion q.pose x =
      Spec.motion g (Spec.poseMotion p.pose (Spec.motion X x))) RA RB) {ot pt : ℝ} (hot : 0 < ot) (hpt : 0 < pt) :
    evaluateRows ot pt RA RB X = .ok (0, 0, List.replicate RA.length true) := by
  have hub : ∀ p : StampedPose, p.pose.q.norm = 1 → Spec.IsUnit (DQuat.fromPose p.pose) := fun p hp =>
    fromPose_unit p.pose (by rw [hp]; norm_num)
  have hlen := h.length_eq
  obtain ⟨a0, RA', rfl⟩ := List.exists_cons_of_ne_nil hne
  obtain ⟨b0, RB', rfl⟩ := List.exists_cons_of_ne_nil (l := RB) (by rintro rfl; simp at hlen)
  have hrel : ∀ p q, (p, q) ∈ (a0 :: RA').zip (b0 :: RB') →
      DQuat.fromPose q.pose = g * DQuat.fromPose p.pose * X ∨
      DQuat.fromPose q.pose = -(g * DQuat.fromPose p.pose * X) := by
    intro p q hpq
    have hp := hAu p (List.of_mem_zip hpq).1
    have hq := hBu q (List.of_mem_zip hpq).2
    refine motion_ext (hub q hq) (DQuat.isUnit_mul (DQuat.isUnit_mul hg (hub p hp)) hX) fun x => ?_
    rw [← poseMotion_eq hq, (List.forall₂_iff_zip.mp h).2 hpq, poseMotion_eq hp,
      DQuat.motion_mul (DQuat.isUnit_mul hg (hub p hp)) hX, DQuat.motion_mul hg (hub p hp)]
  have uA : ∀ a ∈ dualQuats (a0 :: RA'), Spec.IsUnit a := by
    intro a ha
    obtain ⟨p, hp, rfl⟩ := List.mem_map.mp ha
    exact hub p (hAu p hp)
  have uB : ∀ a ∈ dualQuats (b0 :: RB'), Spec.IsUnit a := by
    intro a ha
    obtain ⟨p, hp, rfl⟩ := List.mem_map.mp ha
    exact hub p (hBu p hp)
  have pA : pyPos (dualQuats (a0 :: RA')).length 0 = some 0 := pyPos_natCast (k := 0) (by simp [dualQuats])
  have pB : pyPos (dualQuats (b0 :: RB')).length 0 = some 0 := pyPos_natCast (k := 0) (by simp [dualQuats])
  have alA := align_unit pA uA true
  have alB := align_unit pB uB true
  rw [List.rotate_zero] at alA alB
  have ha0 : (dualQuats (a0 :: RA'))[0]'(pyPos_some pA).1 = DQuat.fromPose a0.pose := rfl
  have hb0 : (dualQuats (b0 :: RB'))[0]'(pyPos_some pB).1 = DQuat.fromPose b0.pose := rfl
  rw [ha0] at alA
  rw [hb0] at alB
  have hu0 := hub a0 (hAu a0 (by simp))
  set d0 := DQuat.fromPose a0.pose with hd0
  obtain ⟨pB', pW', e1, e2, -, e4⟩ := C36_perfect_up_to_sign
    ((dualQuats (a0 :: RA')).map (rebase d0.conj true))
    ((dualQuats (b0 :: RB')).map (rebase (DQuat.fromPose b0.pose).conj true)) X hX (by
      intro b hb
      obtain ⟨a, ha, rfl⟩ := List.mem_map.mp hb
      have := DQuat.isUnit_mul (DQuat.isUnit_conj hu0) (uA a ha)
      rcases rebase_eq_or d0.conj a true with e | e <;> rw [e]
      · exact this
      · exact DQuat.isUnit_neg this)
    (by
      rw [dualQuats, dualQuats, List.map_map, List.map_map, List.forall₂_map_left_iff, List.forall₂_map_right_iff,
        List.forall₂_iff_zip]
      refine ⟨hlen, fun {p q} hpq => ?_⟩
      have hp := hub p (hAu p (List.of_mem_zip hpq).1)
      have r0 := hrel a0 b0 (by simp)
      have r1 := hrel p q hpq
      have key : (DQuat.fromPose b0.pose).conj * DQuat.fromPose q.pose = X.conj * (d0.conj * DQuat.fromPose p.pose) * X ∨
          (DQuat.fromPose b0.pose).conj * DQuat.fromPose q.pose = -(X.conj * (d0.conj * DQuat.fromPose p.pose) * X) := by
        have hc : (g * d0 * X).conj * (g * DQuat.fromPose p.pose * X) =
            X.conj * (d0.conj * DQuat.fromPose p.pose) * X := by
          rw [DQuat.conj_mul_rev, DQuat.conj_mul_rev]
          calc X.conj * (d0.conj * g.conj) * (g * DQuat.fromPose p.pose * X)
              = X.conj * (d0.conj * (g.conj * g) * DQuat.fromPose p.pose) * X := by simp only [mul_assoc]
            _ = _ := by rw [DQuat.conj_mul_unit hg, mul_one]
        have hn : (-(g * d0 * X)).conj = -(g * d0 * X).conj := DQuat.ext' (by simp) (by simp)
        rcases r0 with r0 | r0 <;> rcases r1 with r1 | r1 <;> rw [r0, r1]
        · exact Or.inl hc
        · right; rw [mul_neg, hc]
        · right; rw [hn, neg_mul, hc]
        · left; rw [hn, neg_mul_neg, hc]
      have hXb : ∀ b : DQuat, X * (X.conj * b * X) = b * X := by
        intro b
        rw [← mul_assoc, ← mul_assoc, DQuat.mul_conj_unit hX, one_mul]
      simp only [Function.comp_apply, handEyeEq_iff]
      rcases rebase_eq_or d0.conj (DQuat.fromPose p.pose) true with e | e <;>
        rcases rebase_eq_or (DQuat.fromPose b0.pose).conj (DQuat.fromPose q.pose) true with e' | e' <;>
        rw [e, e'] <;> rcases key with k | k <;> rw [k] <;>
        simp only [neg_neg, mul_neg, neg_mul, hXb] <;> tauto)
    (by
      rw [dualQuats, List.map_cons, List.map_cons, List.head?_cons, ← hd0, rebase_self hu0]
      rfl)
  unfold evaluateRows
  rw [alA, Py.ok_bind, alB, Py.ok_bind, e1, Py.ok_bind]
  dsimp only
  rw [e4 ot pt hot hpt]
  simp [dualQuats]

open Classical in
/-- Of equal stamps all but the last one are supported. -/
theorem near_self {T : List ℝ} (h : T.Pairwise (· < ·)) {a : ℝ} (ha : T.head? = some a) :
    T.filter (fun t => decide (max a a ≤ t ∧ Spec.Near T t)) = T.dropLast := by
  have hne : T ≠ [] := by rintro rfl; simp at ha
  have hfirst : ∀ t ∈ T, a ≤ t := by
    intro t ht
    obtain ⟨l, rfl⟩ : ∃ l, T = a :: l := by
      cases T with
      | nil => cases ha
      | cons b l => cases ha; exact ⟨l, rfl⟩
    rcases List.mem_cons.mp ht with rfl | ht
    · exact le_rfl
    · exact (List.rel_of_pairwise_cons h ht).le
  have hlast : ¬ Spec.Near T (T.getLast hne) := by
    rw [List.getLast_eq_getElem]
    rintro (⟨k, h1, h2⟩ | ⟨k, l, r, -, h2, h3, -, h4, -⟩)
    · obtain ⟨h5, h6⟩ := List.getElem?_eq_some_iff.mp h1
      have := (sorted_lt_iff h h5 (j := T.length - 1) (by omega)).mpr (by omega)
      rw [h6] at this
      exact lt_irrefl _ this
    · obtain ⟨h5, rfl⟩ := List.getElem?_eq_some_iff.mp h2
      have := (sorted_lt_iff h (i := T.length - 1) (by omega) h5).mp h4
      omega
  conv_lhs => arg 2; rw [← List.dropLast_append_getLast hne]
  rw [List.filter_append, List.filter_eq_self.mpr, List.filter_eq_nil_iff.mpr, List.append_nil]
  · intro t ht
    rw [List.mem_singleton.mp ht]
    simp [hlast]
  · intro t ht
    obtain ⟨k, hk, rfl⟩ := List.mem_iff_getElem.mp ht
    rw [List.length_dropLast] at hk
    rw [List.getElem_dropLast, decide_eq_true_iff, max_self]
    exact ⟨hfirst _ (List.getElem_mem _), Or.inl ⟨k, List.getElem?_eq_getElem _, by omega⟩⟩

/-- For tables with the same stamps the aligned tables are the tables without their last rows. -/
theorem aligned_same {A B : List StampedPose} {c : ℝ} (hA : (A.map StampedPose.t).Pairwise (· < ·))
    (hA2 : 2 ≤ A.length) (hAu : ∀ p ∈ A, p.pose.q.norm = 1) (hBu : ∀ p ∈ B, p.pose.q.norm = 1)
    (hT : B.map StampedPose.t = (A.map StampedPose.t).map (· + c)) :
    computeAlignedPoses A B c = .ok ((shiftTimes c A).dropLast, B.dropLast) := by
  have hlen : B.length = A.length := by simpa using congrArg List.length hT
  have hA' : ((A.map StampedPose.t).map (· + c)).Pairwise (· < ·) := hA.map _ fun a b h => by simpa using h
  have hnA : (A.map StampedPose.t).map (· + c) ≠ [] := by
    intro e
    have := congrArg List.length e
    simp at this
    subst this
    simp at hA2
  have eA0 := List.head?_eq_some_head hnA
  have eA1 := List.getLast?_eq_some_getLast hnA
  obtain ⟨RA, RB, low, high, mlow, mhigh, h1, h2, -, -, -, h6, h7, h8, h9, -⟩ :=
    aligned_outcome hA (hT ▸ hA') hA2 (by omega) hAu hBu eA0 eA1 (by rw [hT]; exact eA0) (by rw [hT]; exact eA1)
  have hRT : RA.map StampedPose.t = ((A.map StampedPose.t).map (· + c)).dropLast := by
    rw [h6]
    rcases h2 with ⟨rfl, rfl⟩ | ⟨rfl, rfl, -⟩
    · rw [hT]; exact near_self hA' eA0
    · rw [hT]; exact near_self hA' eA0
  have r1 : RA = (shiftTimes c A).dropLast := by
    have := interpolate_recorded (poses := shiftTimes c A) (rows := (shiftTimes c A).dropLast)
      (by rw [shiftTimes_t]; exact hA') (fun r hr => List.mem_of_mem_dropLast hr)
      (by intro e; exact hnA (by rw [← shiftTimes_t, e]; rfl))
    rw [List.map_dropLast, shiftTimes_t, ← hRT, h8] at this
    exact Except.ok.inj this
  have r2 : RB = B.dropLast := by
    have := interpolate_recorded (poses := B) (rows := B.dropLast) (hT ▸ hA')
      (fun r hr => List.mem_of_mem_dropLast hr)
      (by rintro rfl; simp at hlen; omega)
    rw [List.map_dropLast, hT, ← hRT, h9] at this
    exact Except.ok.inj this
  rw [h1, r1, r2]

/-- The true calibration and time offset of two sensors on one body have no error, and all poses (but the last, see
C62) are inliers, for all positive thresholds. -/
theorem C71_perfect (A B : List StampedPose) (g X : DQuat) (c ot pt : ℝ) (hg : Spec.IsUnit g) (hX : Spec.IsUnit X)
    (hA : (A.map StampedPose.t).Pairwise (· < ·)) (hA2 : 2 ≤ A.length)
    (hAu : ∀ p ∈ A, p.pose.q.norm = 1) (hBu : ∀ p ∈ B, p.pose.q.norm = 1) (h : Spec.SameBody g X c A B)
    (hot : 0 < ot) (hpt : 0 < pt) :
    evaluateCalibration ot pt A B X c = .ok (some (0, 0), A.length - 1) := by
  have hlen := h.length_eq
  have hT : B.map StampedPose.t = (A.map StampedPose.t).map (· + c) := by
    have : List.Forall₂ (· = ·) (B.map StampedPose.t) ((A.map StampedPose.t).map (· + c)) := by
      rw [List.map_map, List.forall₂_map_left_iff, List.forall₂_map_right_iff]
      exact (h.imp fun p q hpq => hpq.1).flip
    exact List.forall₂_eq_eq_eq ▸ this
  have hl' : (shiftTimes c A).dropLast.length = A.length - 1 := by simp [shiftTimes]
  have hF : List.Forall₂ (fun p q : StampedPose => ∀ x, Spec.poseMotion q.pose x =
      Spec.motion g (Spec.poseMotion p.pose (Spec.motion X x))) (shiftTimes c A).dropLast B.dropLast := by
    have h2 : List.Forall₂ (fun p q : StampedPose => ∀ x, Spec.poseMotion q.pose x =
        Spec.motion g (Spec.poseMotion p.pose (Spec.motion X x))) (shiftTimes c A) B := by
      rw [shiftTimes, List.forall₂_map_left_iff]
      exact h.imp fun p q hpq => hpq.2
    rw [List.dropLast_eq_take, List.dropLast_eq_take, h2.length_eq]
    exact List.forall₂_take _ h2
  have he := evaluateRows_exact hg hX (RA := (shiftTimes c A).dropLast) (RB := B.dropLast)
    (by
      intro p hp
      obtain ⟨p', hp', rfl⟩ := List.mem_map.mp (List.mem_of_mem_dropLast hp)
      exact hAu p' hp')
    (fun p hp => hBu p (List.mem_of_mem_dropLast hp))
    (by intro e; rw [e] at hl'; simp at hl'; omega) hF hot hpt
  unfold evaluateCalibration
  rw [pyAssert_pos (by omega), Py.ok_bind, pyAssert_pos (by omega), Py.ok_bind, aligned_same hA hA2 hAu hBu hT,
    Py.ok_bind]
  dsimp only
  rw [pyAssert_pos (by rw [hl', List.length_dropLast, hlen]), Py.ok_bind, if_neg (by omega), he, Py.ok_bind, Py.pure_eq]
  simp [hl']

/-- Tables that do not overlap in time have no errors to report: both are infinite, with no inliers. -/
theorem C71_no_overlap (A B : List StampedPose) (X : DQuat) (c ot pt a0 a1 b0 b1 : ℝ)
    (hA : (A.map StampedPose.t).Pairwise (· < ·)) (hB : (B.map StampedPose.t).Pairwise (· < ·))
    (hA2 : 2 ≤ A.length) (hB2 : 2 ≤ B.length)
    (hAu : ∀ p ∈ A, p.pose.q.norm = 1) (hBu : ∀ p ∈ B, p.pose.q.norm = 1)
    (hA0 : (A.map StampedPose.t).head? = some a0) (hA1 : (A.map StampedPose.t).getLast? = some a1)
    (hB0 : (B.map StampedPose.t).head? = some b0) (hB1 : (B.map StampedPose.t).getLast? = some b1)
    (h : a1 + c < b0 ∨ b1 < a0 + c) : evaluateCalibration ot pt A B X c = .ok (none, 0) := by
  obtain ⟨RA, RB, low, high, mlow, mhigh, h1, h2, -, -, -, -, -, -, h9⟩ :=
    C47_rows A B c (a0 + c) (a1 + c) b0 b1 hA hB hA2 hB2 hAu hBu (by rw [List.head?_map, hA0]; rfl)
      (by rw [List.getLast?_map, hA1]; rfl) hB0 hB1
  have hRA : RA = [] := by
    rw [List.eq_nil_iff_forall_not_mem]
    intro r hr
    have := h9 r.t (List.mem_map_of_mem hr)
    rcases h with h | h <;> linarith
  subst hRA
  have hRB : RB = [] := by simpa using h2.symm
  subst hRB
  unfold evaluateCalibration
  rw [pyAssert_pos (by omega), Py.ok_bind, pyAssert_pos (by omega), Py.ok_bind, h1, Py.ok_bind]
  rfl

/-- A body that turns and moves, with a sensor on it, turned by a half turn and shifted by two, in another world frame. -/
example : evaluateCalibration 1 0.02
    [⟨0, ⟨⟨0, 0, 0⟩, ⟨0, 0, 0, 1⟩⟩⟩, ⟨1, ⟨⟨1, 0, 0⟩, ⟨0, 0, 1, 0⟩⟩⟩, ⟨2, ⟨⟨1, 1, 0⟩, ⟨1, 0, 0, 0⟩⟩⟩]
    [⟨5, ⟨⟨2, 0, 3⟩, ⟨1, 0, 0, 0⟩⟩⟩, ⟨6, ⟨⟨-1, 0, 3⟩, ⟨0, 1, 0, 0⟩⟩⟩, ⟨7, ⟨⟨3, 1, 3⟩, ⟨0, 0, 0, 1⟩⟩⟩]
    ⟨⟨1, 0, 0, 0⟩, ⟨0, 0, 0, -1⟩⟩ 5 = .ok (some (0, 0), 2) := by
  have hq : (⟨0, 0, 0, 1⟩ : Quat).norm = 1 ∧ (⟨0, 0, 1, 0⟩ : Quat).norm = 1 ∧ (⟨0, 1, 0, 0⟩ : Quat).norm = 1 ∧
      (⟨1, 0, 0, 0⟩ : Quat).norm = 1 := by
    refine ⟨?_, ?_, ?_, ?_⟩ <;> simp [Quat.norm, Quat.dot]
  refine C71_perfect _ _ ⟨⟨0, 0, 0, 1⟩, ⟨0, 0, 3 / 2, 0⟩⟩ _ 5 _ _ ?_ ?_ (by norm_num) (by simp) (by simp [hq])
    (by simp [hq]) ?_ (by norm_num) (by norm_num)
  · rw [DQuat.isUnit_iff]; norm_num [Quat.dot]
  · rw [DQuat.isUnit_iff]; norm_num [Quat.dot]
  · have hm : ∀ (a : DQuat) (b : Vec3), Spec.motion a b = ((1 / a.rot.dot a.rot) •
      (a.rot * Quat.ofVec b * a.rot.conj + (2 : ℝ) • (a.dual * a.rot.conj))).vec := DQuat.motion_eq
    have hp : ∀ (p : Pose), p.q.norm = 1 → ∀ x, Spec.poseMotion p x = (p.q * Quat.ofVec x * p.q.conj).vec + p.pos := by
      intro p h x
      rw [poseMotion_eq h, motion_fromPose (Quat.norm_eq_one.mp h)]
    refine .cons ⟨by norm_num, fun x => ?_⟩ (.cons ⟨by norm_num, fun x => ?_⟩ (.cons ⟨by norm_num, fun x => ?_⟩ .nil))
    all_goals
      rw [hp _ (by simp [hq]), hp _ (by simp [hq]), hm, hm]
      ext <;> simp [Quat.dot] <;> ring

end HandEye
