import Verif.Props.Ransac5

/-! # Lemmas: orientation errors that are zero -/

namespace HandEye

/-- Equal up to the sign. -/
def QSame (a b : Quat) : Prop := a = b ∨ a = -b

theorem QSame.symm {a b : Quat} (h : QSame a b) : QSame b a := by
  rcases h with h | h
  · exact Or.inl h.symm
  · right; rw [h, neg_neg]

theorem QSame.trans {a b c : Quat} (h : QSame a b) (h' : QSame b c) : QSame a c := by
  rcases h with rfl | rfl <;> rcases h' with rfl | rfl
  · exact Or.inl rfl
  · exact Or.inr rfl
  · exact Or.inr rfl
  · left; rw [neg_neg]

theorem QSame.mul {a b c d : Quat} (h : QSame a b) (h' : QSame c d) : QSame (a * c) (b * d) := by
  rcases h with rfl | rfl <;> rcases h' with rfl | rfl
  · exact Or.inl rfl
  · right; rw [mul_neg]
  · right; rw [neg_mul]
  · left; rw [neg_mul, mul_neg, neg_neg]

theorem QSame.conj {a b : Quat} (h : QSame a b) : QSame a.conj b.conj := by
  rcases h with rfl | rfl
  · exact Or.inl rfl
  · right; ext <;> simp

theorem rebase_rot (i a : DQuat) : QSame (rebase i true a).rot (i.rot * a.rot) := by
  rcases rebase_eq_or i a true with h | h <;> rw [h]
  · left; simp
  · right; simp

theorem toPose_rot {a : DQuat} (h : Spec.IsUnit a) :
    ∃ p, (Prod.fst <$> a.toPose : Py Pose) = .ok p ∧ QSame p.q a.rot := by
  rw [DQuat.toPose_unit (DQuat.IsUnit.rot h)]
  refine ⟨_, rfl, ?_⟩
  dsimp only
  split
  · right; rfl
  · left; rfl

theorem poses_rot {v : List DQuat} (hv : ∀ a ∈ v, Spec.IsUnit a) :
    ∃ ps, v.mapM (fun d => (Prod.fst <$> d.toPose : Py Pose)) = .ok ps ∧
      List.Forall₂ (fun (p : Pose) (a : DQuat) => QSame p.q a.rot) ps v := by
  induction v with
  | nil => exact ⟨[], rfl, .nil⟩
  | cons a v ih =>
    obtain ⟨ps, h1, h2⟩ := ih fun x hx => hv x (List.mem_cons_of_mem _ hx)
    obtain ⟨p, p1, p2⟩ := toPose_rot (hv a List.mem_cons_self)
    refine ⟨p :: ps, ?_, .cons p2 h2⟩
    rw [List.mapM_cons, p1, Py.ok_bind, h1, Py.ok_bind, Py.pure_eq]

/-- The orientations that are compared. -/
theorem getAlignedPoses_rot {bs ws : List DQuat} {X : DQuat} (hb : ∀ a ∈ bs, Spec.IsUnit a) (hw : ∀ a ∈ ws, Spec.IsUnit a)
    (hl : ws.length = bs.length) (h0 : ws[0]? = some 1) (hX : Spec.IsUnit X) {pB pW : List Pose}
    (h : getAlignedPoses bs ws X = .ok (pB, pW)) :
    List.Forall₂ (fun (p : Pose) (a : DQuat) => QSame p.q a.rot) pB bs ∧
      List.Forall₂ (fun (p : Pose) (a : DQuat) => QSame p.q (X.rot * a.rot * X.rot.conj)) pW ws := by
  have hXc := DQuat.isUnit_conj hX
  set e := posW X.conj with he
  have heu : Spec.IsUnit e := by
    rcases posW_eq_or X.conj with h | h <;> rw [he, h]
    · exact hXc
    · exact DQuat.isUnit_neg hXc
  have her : QSame e.rot X.rot.conj := by
    rcases posW_eq_or X.conj with h | h <;> rw [he, h]
    · left; simp
    · right; simp
  set g : DQuat × DQuat → DQuat := fun p => if ((p.2 * e).rot.w < 0 ∧ p.1.rot.w > 0) ∨ ((p.2 * e).rot.w > 0 ∧ p.1.rot.w < 0)
    then -(p.2 * e) else p.2 * e with hg
  have hgu : ∀ p : DQuat × DQuat, Spec.IsUnit p.2 → Spec.IsUnit (g p) := by
    intro p hp
    have := DQuat.isUnit_mul hp heu
    simp only [hg]
    split
    · exact DQuat.isUnit_neg this
    · exact this
  have hgr : ∀ p : DQuat × DQuat, QSame (g p).rot (p.2.rot * X.rot.conj) := by
    intro p
    have : QSame (p.2.rot * e.rot) (p.2.rot * X.rot.conj) := QSame.mul (Or.inl rfl) her
    refine QSame.trans ?_ this
    simp only [hg]
    split
    · right; simp
    · left; simp
  have hm : (bs.zip ws).mapM (fun p => alignedHandPose e p.1 p.2) = .ok ((bs.zip ws).map g) := by
    apply Py.mapM_ok
    intro p hp
    unfold alignedHandPose
    rw [DQuat.normalize_unit (DQuat.IsUnit.rot (DQuat.isUnit_mul (hw _ (List.of_mem_zip hp).2) heu)), Py.ok_bind]
    rfl
  obtain ⟨w0lt, hw0⟩ := List.getElem?_eq_some_iff.mp h0
  have hzl : ((bs.zip ws).map g).length = bs.length := by simp [hl]
  have hpos : pyPos ((bs.zip ws).map g).length 0 = some 0 := pyPos_natCast (k := 0) (by rw [hzl]; omega)
  have huz : ∀ a ∈ (bs.zip ws).map g, Spec.IsUnit a := by
    intro a ha
    obtain ⟨p, hp, rfl⟩ := List.mem_map.mp ha
    exact hgu p (hw _ (List.of_mem_zip hp).2)
  have hal := align_unit hpos huz true
  rw [List.rotate_zero] at hal
  set g0 := ((bs.zip ws).map g)[0]'(pyPos_some hpos).1 with hg0
  have hg0e : g0 = g (bs[0]'(by omega), 1) := by
    rw [hg0, List.getElem_map, List.getElem_zip, hw0]
  have hg0u : Spec.IsUnit g0 := by
    rw [hg0e]
    exact hgu _ (by rw [DQuat.isUnit_iff]; norm_num [Quat.dot])
  have hg0r : QSame g0.conj.rot X.rot := by
    have h1 := (hgr (bs[0]'(by omega), 1)).conj
    rw [← hg0e] at h1
    have h2 : (((bs[0]'(by omega), (1 : DQuat)).2.rot * X.rot.conj).conj) = X.rot := by
      ext <;> simp
    rw [h2] at h1
    simpa using h1
  have hru : ∀ a ∈ ((bs.zip ws).map g).map (rebase g0.conj true), Spec.IsUnit a := by
    intro a ha
    obtain ⟨b, hb', rfl⟩ := List.mem_map.mp ha
    exact rebase_unit (DQuat.isUnit_conj hg0u) (huz b hb') true
  obtain ⟨pW', w1, w2⟩ := poses_rot hru
  obtain ⟨pB', b1, b2⟩ := poses_rot hb
  unfold getAlignedPoses at h
  rw [pyAssert_pos hl, Py.ok_bind, DQuat.inverse_unit hX, Py.ok_bind, DQuat.normalize_unit (DQuat.IsUnit.rot hXc), Py.ok_bind,
    enforcePositive_unit hXc, Py.ok_bind, ← he, hm, Py.ok_bind, hal, Py.ok_bind, w1, Py.ok_bind, b1] at h
  obtain ⟨rfl, rfl⟩ := Prod.mk.inj (Except.ok.inj h)
  refine ⟨b2, ?_⟩
  rw [List.map_map, List.forall₂_map_right_iff] at w2
  have hsnd : (bs.zip ws).map Prod.snd = ws := List.map_snd_zip (by omega)
  rw [← hsnd, List.forall₂_map_right_iff]
  refine w2.imp ?_
  intro p q hpq
  refine hpq.trans ((rebase_rot _ _).trans ?_)
  rw [mul_assoc]
  exact QSame.mul hg0r (hgr q)

theorem rotationAngle_same {p q : Quat} (hp : p.dot p = 1) (h : QSame p q) : Spec.rotationAngle p q = 0 := by
  have h1 : Spec.cosHalf p q = 1 := by
    unfold Quat.dot at hp
    have hs : Real.sqrt (p.x ^ 2 + p.y ^ 2 + p.z ^ 2 + p.w ^ 2) = 1 := by
      rw [Real.sqrt_eq_one]; linarith [hp]
    unfold Spec.cosHalf
    rw [hs]
    rcases h.symm with rfl | rfl
    · rw [hs, show q.x * q.x + q.y * q.y + q.z * q.z + q.w * q.w = 1 by linarith]
      norm_num
    · simp only [Quat.neg_x, Quat.neg_y, Quat.neg_z, Quat.neg_w, neg_sq]
      rw [hs, show p.x * -p.x + p.y * -p.y + p.z * -p.z + p.w * -p.w = -1 by linarith]
      norm_num
  unfold Spec.rotationAngle
  rw [h1, Real.arccos_one, mul_zero]

/-- If the rotations of the data fit the calibration exactly, the reported orientation error is zero. -/
theorem orientation_zero {bs ws : List DQuat} {X : DQuat} (hb : ∀ a ∈ bs, Spec.IsUnit a) (hw : ∀ a ∈ ws, Spec.IsUnit a)
    (h0 : ws[0]? = some 1) (hX : Spec.IsUnit X)
    (hrot : List.Forall₂ (fun b w : DQuat => QSame (b.rot * X.rot) (X.rot * w.rot)) bs ws) {ot pt : ℝ} {pB pW : List Pose}
    {rp ro : ℝ} {fl : List Bool} (h : getAlignedPoses bs ws X = .ok (pB, pW)) (he : evaluateAlignment ot pt pB pW = .ok (rp, ro, fl)) :
    ro = 0 := by
  have hl : ws.length = bs.length := hrot.length_eq.symm
  obtain ⟨r1, r2⟩ := getAlignedPoses_rot hb hw hl h0 hX h
  obtain ⟨pB', pW', g1, g2, g3, g4, g5, -⟩ := getAlignedPoses_motion hb hw hl h0 hX
  rw [h] at g1
  obtain ⟨rfl, rfl⟩ := Prod.mk.inj (Except.ok.inj g1)
  have hlen : 0 < ws.length := (List.getElem?_eq_some_iff.mp h0).1
  obtain ⟨rp', ro', fl', es, e1, e2, -, e4, -, -, ⟨-, -, e7, -⟩⟩ := C35_evaluation ot pt pB pW (by omega) (by rintro rfl; simp at g2; omega)
    (fun p hp => by rw [g4 p hp]; norm_num) (fun p hp => by rw [g5 p hp]; norm_num)
  rw [he] at e1
  obtain ⟨rfl, h'⟩ := Prod.mk.inj (Except.ok.inj e1)
  obtain ⟨rfl, rfl⟩ := Prod.mk.inj h'
  rw [e7]
  intro e hmem
  obtain ⟨i, hi⟩ := List.getElem?_of_mem hmem
  have hilt := (List.getElem?_eq_some_iff.mp hi).1
  have iB : i < pB.length := by omega
  have iW : i < pW.length := by omega
  have ib : i < bs.length := by omega
  have iw : i < ws.length := by omega
  obtain ⟨e', f1, f2⟩ := e4 i _ _ (List.getElem?_eq_getElem iB) (List.getElem?_eq_getElem iW)
  rw [hi] at f1
  cases f1
  have u1 := g4 _ (List.getElem_mem iB)
  have u2 := g5 _ (List.getElem_mem iW)
  obtain ⟨d, v1, -, -, v2⟩ := C34_value pB[i] pW[i] (by rw [u1]; norm_num) (by rw [u2]; norm_num)
  rw [f2] at v1
  have hed := Except.ok.inj v1
  rw [hed]
  dsimp only
  rcases v2 with v2 | v2
  · rw [v2]
    apply rotationAngle_same (Quat.norm_eq_one.mp u1)
    have q1 := (List.forall₂_iff_get.mp r1).2 i iB ib
    have q2 := (List.forall₂_iff_get.mp r2).2 i iW iw
    have q3 := (List.forall₂_iff_get.mp hrot).2 i ib iw
    simp only [List.get_eq_getElem] at q1 q2 q3
    refine q1.trans (QSame.trans ?_ q2.symm)
    have q4 := q3.mul (Or.inl rfl : QSame X.rot.conj X.rot.conj)
    have hXX : X.rot * X.rot.conj = 1 := by
      have := congrArg DQuat.rot (DQuat.mul_conj_unit hX)
      simpa using this
    rw [mul_assoc, hXX, mul_one] at q4
    exact q4
  · exact v2.1

end HandEye
