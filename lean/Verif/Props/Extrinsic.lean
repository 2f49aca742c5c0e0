import Verif.Model.Extrinsic
import Verif.Lemmas.Align
import Verif.Props.Alignment

/-! # C51 and C52: calibration files and products of calibrations -/

namespace HandEye

theorem motion_rot_unit {a : DQuat} (h : a.rot.dot a.rot = 1) (x : Vec3) :
    Spec.motion a x = (a.rot * Quat.ofVec x * a.rot.conj).vec + (((2 : ℝ) • a.dual) * a.rot.conj).vec := by
  rw [DQuat.motion_eq, h, div_one, one_smul, Quat.smul_mul]
  rfl

/-- The motion of a pose. -/
theorem motion_fromPose {p : Pose} (h : p.q.dot p.q = 1) (x : Vec3) :
    Spec.motion (DQuat.fromPose p) x = (p.q * Quat.ofVec x * p.q.conj).vec + p.pos := by
  have hr : (DQuat.fromPose p).rot = p.q := Quat.normalize_unit h
  rw [motion_rot_unit (by rw [hr, h]), hr]
  congr 1
  have := translation_roundtrip p.pos p.q h
  rw [← this]
  unfold DQuat.fromPose
  rw [Quat.normalize_unit h]

theorem sandwich_sign (q r : Quat) (h : q = r ∨ q = -r) (x : Vec3) :
    q * Quat.ofVec x * q.conj = r * Quat.ofVec x * r.conj := by
  rcases h with rfl | rfl
  · rfl
  · have : (-r).conj = -r.conj := by ext <;> simp [Quat.conj]
    rw [this, neg_mul, neg_mul, mul_neg, neg_neg]

/-- What is in the file. -/
theorem writeJson_eq {c : Extrinsic} (h : c.pose_dq.rot ≠ ⟨0, 0, 0, 0⟩) :
    ∃ p : Pose, p.q.dot p.q = 1 ∧ 0 ≤ p.q.w ∧ (∀ x, Spec.motion (DQuat.fromPose p) x = Spec.motion c.pose_dq x) ∧
      c.writeJson false = .ok (⟨c.time_offset, p.q.x, p.q.y, p.q.z, p.q.w, p.pos.x, p.pos.y, p.pos.z⟩,
        ⟨c.time_offset, (1 / c.pose_dq.rot.norm) • c.pose_dq⟩) ∧
      c.writeJson true = .ok (⟨c.time_offset, -p.q.x, -p.q.y, -p.q.z, p.q.w, p.pos.x, p.pos.y, p.pos.z⟩,
        ⟨c.time_offset, (1 / c.pose_dq.rot.norm) • c.pose_dq⟩) := by
  have hd : c.pose_dq.rot.dot c.pose_dq.rot ≠ 0 := fun h0 => h (Quat.dot_self_eq_zero.mp h0)
  have hs : (0 : ℝ) < 1 / c.pose_dq.rot.norm := by have := Quat.norm_pos hd; positivity
  have hu := normalized_unit hd
  have hm := fun x => motion_smul c.pose_dq hs.ne' x
  have ht : c.pose_dq.toPose = ((1 / c.pose_dq.rot.norm) • c.pose_dq).toPose := by
    unfold DQuat.toPose
    rw [DQuat.normalize_ok hd, DQuat.normalize_unit hu]
  unfold Extrinsic.writeJson
  rw [ht, DQuat.toPose_unit hu, Py.ok_bind]
  generalize (1 / c.pose_dq.rot.norm) • c.pose_dq = n at *
  refine ⟨⟨(((2 : ℝ) • n.dual) * n.rot.conj).vec, if n.rot.w < 0 then -n.rot else n.rot⟩, ?_, ?_, ?_, rfl, ?_⟩
  · dsimp only
    split <;> simpa using hu
  · dsimp only
    split
    · rename_i hw; rw [Quat.neg_w]; linarith
    · rename_i hw; exact not_lt.mp hw
  · intro x
    rw [← hm x, motion_rot_unit hu, motion_fromPose]
    · dsimp only
      rw [sandwich_sign _ n.rot (by split <;> simp)]
    · dsimp only
      split <;> simpa using hu
  · simp only [mul_neg_one, if_true]
    rfl

theorem fromJson_eq (d : ℝ) (p : Pose) :
    Extrinsic.fromJson ⟨d, p.q.x, p.q.y, p.q.z, p.q.w, p.pos.x, p.pos.y, p.pos.z⟩ false = ⟨d, DQuat.fromPose p⟩ ∧
    Extrinsic.fromJson ⟨d, p.q.x, p.q.y, p.q.z, p.q.w, p.pos.x, p.pos.y, p.pos.z⟩ true =
      ⟨d, DQuat.fromPose ⟨p.pos, p.q.conj⟩⟩ ∧
    Extrinsic.fromJson ⟨d, -p.q.x, -p.q.y, -p.q.z, p.q.w, p.pos.x, p.pos.y, p.pos.z⟩ false =
      ⟨d, DQuat.fromPose ⟨p.pos, p.q.conj⟩⟩ ∧
    Extrinsic.fromJson ⟨d, -p.q.x, -p.q.y, -p.q.z, p.q.w, p.pos.x, p.pos.y, p.pos.z⟩ true = ⟨d, DQuat.fromPose p⟩ := by
  refine ⟨rfl, ?_, rfl, ?_⟩
  · unfold Extrinsic.fromJson
    simp only [if_true, mul_neg_one]
    rfl
  · unfold Extrinsic.fromJson
    simp only [if_true, mul_neg_one, neg_neg]

theorem conj_unit_dot {q : Quat} (h : q.dot q = 1) : q.conj.dot q.conj = 1 := by
  rw [Quat.dot_conj_conj, h]

/-- **C51**: a calibration that is written and read with the same convention keeps its time offset and its
rigid motion, and is a unit dual quaternion; the file holds a unit quaternion.  The written object keeps its
offset and motion as well. -/
theorem C51_round_trip (c : Extrinsic) (h : c.pose_dq.rot ≠ ⟨0, 0, 0, 0⟩) (switch : Bool) :
    ∃ (f : CalibrationFile) (c' : Extrinsic), c.writeJson switch = .ok (f, c') ∧
      f.delay = c.time_offset ∧ f.i ^ 2 + f.j ^ 2 + f.k ^ 2 + f.w ^ 2 = 1 ∧ 0 ≤ f.w ∧
      c'.time_offset = c.time_offset ∧ (∀ x, Spec.motion c'.pose_dq x = Spec.motion c.pose_dq x) ∧
      (Extrinsic.fromJson f switch).time_offset = c.time_offset ∧
      Spec.IsUnit (Extrinsic.fromJson f switch).pose_dq ∧
      ∀ x, Spec.motion (Extrinsic.fromJson f switch).pose_dq x = Spec.motion c.pose_dq x := by
  obtain ⟨p, hu, hw, hm, h1, h2⟩ := writeJson_eq h
  have hd : c.pose_dq.rot.dot c.pose_dq.rot ≠ 0 := fun h0 => h (Quat.dot_self_eq_zero.mp h0)
  have hs : (0 : ℝ) < 1 / c.pose_dq.rot.norm := by have := Quat.norm_pos hd; positivity
  obtain ⟨e1, _, _, e4⟩ := fromJson_eq c.time_offset p
  have hun : Spec.IsUnit (DQuat.fromPose p) := fromPose_unit p (by rw [Quat.norm_eq_one.mpr hu]; norm_num)
  have hq : p.q.x ^ 2 + p.q.y ^ 2 + p.q.z ^ 2 + p.q.w ^ 2 = 1 := by
    rw [← hu, Quat.dot]; ring
  cases switch with
  | false =>
    refine ⟨_, _, h1, rfl, hq, hw, rfl, fun x => motion_smul _ hs.ne' x, ?_, ?_, ?_⟩
    · rw [e1]
    · rw [e1]; exact hun
    · rw [e1]; exact hm
  | true =>
    refine ⟨_, _, h2, rfl, ?_, hw, rfl, fun x => motion_smul _ hs.ne' x, ?_, ?_, ?_⟩
    · rw [← hq]; ring
    · rw [e4]
    · rw [e4]; exact hun
    · rw [e4]; exact hm

/-- **C51**, different conventions: the offset and the translation are kept and the rotation is inverted. -/
theorem C51_other_convention (c : Extrinsic) (h : c.pose_dq.rot ≠ ⟨0, 0, 0, 0⟩) (switch : Bool) :
    ∃ (f : CalibrationFile) (c' : Extrinsic), c.writeJson switch = .ok (f, c') ∧
      (Extrinsic.fromJson f (!switch)).time_offset = c.time_offset ∧
      Spec.IsUnit (Extrinsic.fromJson f (!switch)).pose_dq ∧
      Spec.motion (Extrinsic.fromJson f (!switch)).pose_dq 0 = Spec.motion c.pose_dq 0 ∧
      ∀ x, Spec.motion (Extrinsic.fromJson f (!switch)).pose_dq (Spec.motion c.pose_dq x - Spec.motion c.pose_dq 0) =
        x + Spec.motion c.pose_dq 0 := by
  obtain ⟨p, hu, hw, hm, h1, h2⟩ := writeJson_eq h
  obtain ⟨_, e2, e3, _⟩ := fromJson_eq c.time_offset p
  have hcu := conj_unit_dot hu
  have hun : Spec.IsUnit (DQuat.fromPose ⟨p.pos, p.q.conj⟩) :=
    fromPose_unit _ (by rw [Quat.norm_eq_one.mpr hcu]; norm_num)
  have h0 : ∀ q : Quat, (q * Quat.ofVec 0 * q.conj).vec = 0 := by
    intro q
    have : Quat.ofVec 0 = 0 := rfl
    rw [this, mul_zero, zero_mul]
    rfl
  have za : ∀ v : Vec3, (0 : Vec3) + v = v := by
    intro v; ext <;> simp
  have m0 : Spec.motion c.pose_dq 0 = p.pos := by
    rw [← hm, motion_fromPose hu, h0, za]
  have key1 : Spec.motion (DQuat.fromPose ⟨p.pos, p.q.conj⟩) 0 = Spec.motion c.pose_dq 0 := by
    rw [m0, motion_fromPose hcu, h0, za]
  have key2 : ∀ x, Spec.motion (DQuat.fromPose ⟨p.pos, p.q.conj⟩) (Spec.motion c.pose_dq x - Spec.motion c.pose_dq 0) =
      x + Spec.motion c.pose_dq 0 := by
    intro x
    rw [m0, ← hm, motion_fromPose hu, motion_fromPose hcu]
    dsimp only
    congr 1
    have e : (p.q * Quat.ofVec x * p.q.conj).vec + p.pos - p.pos = (p.q * Quat.ofVec x * p.q.conj).vec := by
      ext <;> simp
    rw [e, Quat.ofVec_vec (DQuat.sandwich_w p.q x)]
    have e2 : p.q.conj * (p.q * Quat.ofVec x * p.q.conj) * p.q.conj.conj =
        (p.q.conj * p.q) * Quat.ofVec x * (p.q.conj * p.q) := by
      have : p.q.conj.conj = p.q := by ext <;> simp [Quat.conj]
      rw [this]
      simp only [mul_assoc]
    rw [e2, Quat.conj_mul_unit hu, one_mul, mul_one]
    rfl
  cases switch with
  | false =>
    refine ⟨_, _, h1, ?_, ?_, ?_, ?_⟩
    · rw [Bool.not_false, e2]
    · rw [Bool.not_false, e2]; exact hun
    · rw [Bool.not_false, e2]; exact key1
    · rw [Bool.not_false, e2]; exact key2
  | true =>
    refine ⟨_, _, h2, ?_, ?_, ?_, ?_⟩
    · rw [Bool.not_true, e3]
    · rw [Bool.not_true, e3]; exact hun
    · rw [Bool.not_true, e3]; exact key1
    · rw [Bool.not_true, e3]; exact key2

/-- A calibration with a rotation, a translation and a delay, scaled by two. -/
noncomputable def exampleExtrinsic : Extrinsic := ⟨3, ⟨⟨6 / 5, 0, 0, 8 / 5⟩, ⟨0, 1, 0, 0⟩⟩⟩

example : ∃ (f : CalibrationFile) (c' : Extrinsic), exampleExtrinsic.writeJson true = .ok (f, c') ∧
    ∀ x, Spec.motion (Extrinsic.fromJson f true).pose_dq x = Spec.motion exampleExtrinsic.pose_dq x := by
  obtain ⟨f, c', h, _, _, _, _, _, _, _, hm⟩ := C51_round_trip exampleExtrinsic (by
    intro h
    have := congrArg Quat.x h
    norm_num [exampleExtrinsic] at this) true
  exact ⟨f, c', h, hm⟩

/-- The rotation of the example is not its own inverse: with the other convention another motion is read. -/
example : ∃ (f : CalibrationFile) (c' : Extrinsic), exampleExtrinsic.writeJson true = .ok (f, c') ∧
    Spec.motion (Extrinsic.fromJson f false).pose_dq ⟨0, 1, 0⟩ ≠ Spec.motion exampleExtrinsic.pose_dq ⟨0, 1, 0⟩ := by
  obtain ⟨f, c', h, _, hu, h0, hm⟩ := C51_other_convention exampleExtrinsic (by
    intro h
    have := congrArg Quat.x h
    norm_num [exampleExtrinsic] at this) true
  refine ⟨f, c', h, fun heq => ?_⟩
  have e1 := hm ⟨0, 7 / 25, -24 / 25⟩
  have e2 : Spec.motion exampleExtrinsic.pose_dq ⟨0, 7 / 25, -24 / 25⟩ - Spec.motion exampleExtrinsic.pose_dq 0 =
      ⟨0, 1, 0⟩ := by
    rw [DQuat.motion_eq, DQuat.motion_eq]
    ext <;> norm_num [exampleExtrinsic, Quat.dot, Quat.ofVec, Quat.conj]
  rw [e2, Bool.not_true, heq, DQuat.motion_eq, DQuat.motion_eq] at e1
  have := congrArg Vec3.z e1
  norm_num [exampleExtrinsic, Quat.dot, Quat.ofVec, Quat.conj] at this

/-! ## C52 -/

/-- **C52**: products of calibrations are associative, with the identity as unit; offsets are added and
motions composed. -/
theorem C52_product (a b c : Extrinsic) :
    a * b * c = a * (b * c) ∧ a * ⟨0, DQuat.identity⟩ = a ∧ ⟨0, DQuat.identity⟩ * a = a ∧
      (a * b).time_offset = a.time_offset + b.time_offset ∧
      (Spec.IsUnit a.pose_dq → Spec.IsUnit b.pose_dq → Spec.IsUnit (a * b).pose_dq ∧
        ∀ x, Spec.motion (a * b).pose_dq x = Spec.motion a.pose_dq (Spec.motion b.pose_dq x)) := by
  refine ⟨?_, ?_, ?_, rfl, fun ha hb => ⟨DQuat.isUnit_mul ha hb, DQuat.motion_mul ha hb⟩⟩
  · exact Extrinsic.ext (add_assoc _ _ _) (mul_assoc a.pose_dq b.pose_dq c.pose_dq)
  · exact Extrinsic.ext (add_zero _) (mul_one a.pose_dq)
  · exact Extrinsic.ext (zero_add _) (one_mul a.pose_dq)

/-- **C52**, circles: `computeCircle` adds all offsets and composes all motions, the last one first. -/
theorem C52_circle (a : Extrinsic) (l : List Extrinsic) (h : ∀ c ∈ a :: l, Spec.IsUnit c.pose_dq) :
    ∃ c, computeCircle (a :: l) = .ok c ∧ Spec.IsUnit c.pose_dq ∧
      c.time_offset = ((a :: l).map Extrinsic.time_offset).sum ∧
      ∀ x, Spec.motion c.pose_dq x = (a :: l).foldr (fun d y => Spec.motion d.pose_dq y) x := by
  unfold computeCircle
  refine ⟨l.foldl (fun c cc => c * cc) a, rfl, ?_⟩
  induction l generalizing a with
  | nil => exact ⟨h a List.mem_cons_self, by simp, fun x => rfl⟩
  | cons b l ih =>
    have ha := h a List.mem_cons_self
    have hb := h b (List.mem_cons_of_mem _ List.mem_cons_self)
    obtain ⟨h1, h2, h3⟩ := ih (a * b) (by
      intro c hc
      rcases List.mem_cons.mp hc with rfl | hc
      · exact DQuat.isUnit_mul ha hb
      · exact h c (List.mem_cons_of_mem _ (List.mem_cons_of_mem _ hc)))
    refine ⟨h1, ?_, ?_⟩
    · rw [List.foldl_cons, h2, List.map_cons, List.map_cons, List.map_cons, List.sum_cons, List.sum_cons, List.sum_cons]
      change a.time_offset + b.time_offset + _ = _
      ring
    · intro x
      rw [List.foldl_cons, h3, List.foldr_cons, List.foldr_cons, List.foldr_cons]
      exact DQuat.motion_mul ha hb _

/-- Three calibrations around a circle. -/
example : ∃ c, computeCircle [⟨1, ⟨⟨3 / 5, 0, 0, 4 / 5⟩, 0⟩⟩, ⟨2, ⟨⟨0, 1, 0, 0⟩, 0⟩⟩, ⟨-3, ⟨⟨0, 0, 0, 1⟩, ⟨1, 2, 3, 0⟩⟩⟩] = .ok c ∧
    c.time_offset = 0 := by
  obtain ⟨c, h, _, ht, _⟩ := C52_circle ⟨1, ⟨⟨3 / 5, 0, 0, 4 / 5⟩, 0⟩⟩
    [⟨2, ⟨⟨0, 1, 0, 0⟩, 0⟩⟩, ⟨-3, ⟨⟨0, 0, 0, 1⟩, ⟨1, 2, 3, 0⟩⟩⟩] (by
      intro c hc
      simp only [List.mem_cons, List.not_mem_nil, or_false] at hc
      rcases hc with rfl | rfl | rfl <;> rw [DQuat.isUnit_iff] <;> norm_num [Quat.dot])
  refine ⟨c, h, ht.trans ?_⟩
  norm_num

end HandEye
