import Verif.Spec.Circle
import Verif.Props.Extrinsic

/-! # C53: the error of a closed loop of calibrations -/

namespace HandEye

/-! ## The pairs that are used -/

theorem drop_pairs {α : Type} (L : List α) (i idx : ℕ) (hi : i < L.length)
    (h : (Spec.pairs L).drop idx = Spec.pairs (L.drop i)) :
    (Spec.pairs L).drop (idx + (L.length - i - 1)) = Spec.pairs (L.drop (i + 1)) := by
  rw [← List.drop_drop, h, List.drop_eq_getElem_cons hi, Spec.pairs]
  have : L.length - i - 1 = ((L.drop (i + 1)).map fun b => (L[i], b)).length := by simp; omega
  rw [this, List.drop_left]

theorem loopEdges_eq {α β : Type} (L : List α) (f : α × α → β) (steps : ℕ) :
    ∀ i idx, i + steps + 2 = L.length → (Spec.pairs L).drop idx = Spec.pairs (L.drop i) →
      loopEdges ((Spec.pairs L).map f) L.length steps i idx = .ok ((Spec.neighbours (L.drop (i + 1))).map f) := by
  induction steps with
  | zero =>
    intro i idx hl _
    rw [loopEdges]
    have : (L.drop (i + 1)).length = 1 := by rw [List.length_drop]; omega
    obtain ⟨a, ha⟩ := List.length_eq_one_iff.mp this
    rw [ha]
    rfl
  | succ steps ih =>
    intro i idx hl hd
    have h1 := drop_pairs L i idx (by omega) hd
    have h2 := ih (i + 1) (idx + (L.length - i - 1)) (by omega) h1
    have e1 := List.drop_eq_getElem_cons (l := L) (i := i + 1) (by omega)
    have e2 := List.drop_eq_getElem_cons (l := L) (i := i + 2) (by omega)
    have hat : pyAt ((Spec.pairs L).map f) (idx + (L.length - i - 1)) = .ok (f (L[i + 1], L[i + 2])) := by
      unfold pyAt
      have : ((Spec.pairs L).map f)[idx + (L.length - i - 1)]? = some (f (L[i + 1], L[i + 2])) := by
        rw [List.getElem?_map, ← List.head?_drop, h1, e1, e2]
        rfl
      rw [this]
    rw [loopEdges]
    rw [hat, Py.ok_bind, h2, Py.ok_bind]
    have : Spec.neighbours (L.drop (i + 1)) = (L[i + 1], L[i + 2]) :: Spec.neighbours (L.drop (i + 1 + 1)) := by
      conv_lhs => rw [e1, e2]
      conv_rhs => rw [e2]
      rfl
    rw [this, List.map_cons]
    rfl

/-- **C53**, edges: for two or more sets of poses, with the results in the order of `itertools.combinations`,
the chain is the identity, the results of neighbouring sets in order, and the inverse of the result of the first
and the last set. -/
theorem C53_edges {α : Type} (a : α) (l : List α) (hl : l ≠ []) (f : α × α → DQuat) :
    loopChain ((Spec.pairs (a :: l)).map f) (a :: l).length =
      (f (a, l.getLast hl)).inverse >>= fun inv =>
        .ok (DQuat.identity :: (Spec.neighbours (a :: l)).map f ++ [inv]) := by
  obtain ⟨b, l, rfl⟩ := List.exists_cons_of_ne_nil hl
  have h0 : pyAt ((Spec.pairs (a :: b :: l)).map f) 0 = .ok (f (a, b)) := rfl
  have h1 := loopEdges_eq (a :: b :: l) f l.length 0 0 (by simp) rfl
  have h2 : pyGet ((Spec.pairs (a :: b :: l)).map f) (((a :: b :: l).length : ℤ) - 2) =
      .ok (f (a, (b :: l).getLast hl)) := by
    have e : (((a :: b :: l).length : ℕ) : ℤ) - 2 = ((l.length : ℕ) : ℤ) := by simp; omega
    have hg : ((Spec.pairs (a :: b :: l)).map f)[l.length]? = some (f (a, (b :: l).getLast hl)) := by
      rw [Spec.pairs, List.map_append, List.getElem?_append_left (by simp), List.map_map, List.getElem?_map,
        List.getLast_eq_getElem]
      simp
    have hlt : l.length < ((Spec.pairs (a :: b :: l)).map f).length := (List.getElem?_eq_some_iff.mp hg).1
    unfold pyGet pyPos
    rw [e, if_pos (Int.natCast_nonneg _), Int.toNat_natCast, if_pos hlt]
    dsimp only
    rw [hg]
  have e3 : (a :: b :: l).length - 2 = l.length := by simp
  unfold loopChain
  rw [h0, Py.ok_bind, e3, h1, Py.ok_bind, h2, Py.ok_bind]
  congr 1
  funext inv
  dsimp only
  rw [pyAssert_pos, Py.ok_bind]
  · rfl
  · simp [Spec.neighbours]

/-! ## Consistent calibrations -/

/-- Only the identity and its negative stand for the motion that moves nothing. -/
theorem motion_id {c : DQuat} (hc : Spec.IsUnit c) (h : ∀ x, Spec.motion c x = x) : c = 1 ∨ c = -1 := by
  have hr := DQuat.IsUnit.rot hc
  have key : ∀ x : Vec3, Quat.ofVec x * c.rot + (2 : ℝ) • c.dual = c.rot * Quat.ofVec x + (2 : ℝ) • c.dual ∧
      Quat.ofVec x * c.rot = c.rot * Quat.ofVec x + (2 : ℝ) • c.dual := by
    intro x
    have h0 := DQuat.motion_unit hc 0
    have hx := DQuat.motion_unit hc x
    rw [h] at h0 hx
    have z : Quat.ofVec 0 = 0 := rfl
    rw [z, mul_zero, zero_mul, zero_add] at h0
    have hcc : c.rot.conj * c.rot = 1 := Quat.conj_mul_unit hr
    have hd : (2 : ℝ) • c.dual = 0 := by
      have := congrArg (· * c.rot) h0
      rw [zero_mul, Quat.smul_mul, mul_assoc, hcc, mul_one] at this
      exact this.symm
    have := congrArg (· * c.rot) hx
    rw [add_mul, mul_assoc (c.rot * _), hcc, mul_one, Quat.smul_mul, mul_assoc c.dual, hcc, mul_one] at this
    refine ⟨?_, this⟩
    rw [this, hd, add_zero]
  have kx := (key ⟨1, 0, 0⟩).1
  have ky := (key ⟨0, 1, 0⟩).1
  have k0 := (key 0).2
  have e : Quat.ofVec 0 = 0 := rfl
  rw [e, zero_mul, mul_zero, zero_add] at k0
  have hdx : c.dual.x = 0 := by have := congrArg Quat.x k0; simp at this; exact this
  have hdy : c.dual.y = 0 := by have := congrArg Quat.y k0; simp at this; exact this
  have hdz : c.dual.z = 0 := by have := congrArg Quat.z k0; simp at this; exact this
  have hdw : c.dual.w = 0 := by have := congrArg Quat.w k0; simp at this; exact this
  have hz : c.rot.z = 0 := by
    have := congrArg Quat.y kx
    simp at this
    linarith
  have hy : c.rot.y = 0 := by
    have := congrArg Quat.z kx
    simp at this
    linarith
  have hx : c.rot.x = 0 := by
    have := congrArg Quat.z ky
    simp at this
    linarith
  have hw : c.rot.w ^ 2 = 1 := by
    rw [Quat.dot, hx, hy, hz] at hr
    linarith
  rcases eq_or_eq_neg_of_sq_eq_sq c.rot.w 1 (by rw [hw]; norm_num) with h | h
  · left
    exact DQuat.ext' (Quat.ext hx hy hz h) (Quat.ext hdx hdy hdz hdw)
  · right
    refine DQuat.ext' (Quat.ext ?_ ?_ ?_ ?_) (Quat.ext ?_ ?_ ?_ ?_)
    · rw [hx]; exact neg_zero.symm
    · rw [hy]; exact neg_zero.symm
    · rw [hz]; exact neg_zero.symm
    · exact h
    · rw [hdx]; exact neg_zero.symm
    · rw [hdy]; exact neg_zero.symm
    · rw [hdz]; exact neg_zero.symm
    · rw [hdw]; exact neg_zero.symm

/-- The pose of a unit dual quaternion. -/
noncomputable def poseOf (a : DQuat) : Pose :=
  ⟨(((2 : ℝ) • a.dual) * a.rot.conj).vec, if a.rot.w < 0 then -a.rot else a.rot⟩

/-- The products along a chain. -/
noncomputable def prods : DQuat → List DQuat → List DQuat
  | _, [] => []
  | d, e :: l => (d * e) :: prods (d * e) l

theorem prods_append (l : List DQuat) (d e : DQuat) : prods d (l ++ [e]) = prods d l ++ [l.foldl (· * ·) d * e] := by
  induction l generalizing d with
  | nil => rfl
  | cons a l ih => rw [List.cons_append, prods, ih]; rfl

theorem chainPoses_eq {d : DQuat} {l : List DQuat} (hd : Spec.IsUnit d) (hl : ∀ e ∈ l, Spec.IsUnit e) :
    chainPoses d l = .ok ((prods d l).map poseOf) := by
  induction l generalizing d with
  | nil => rfl
  | cons e l ih =>
    have hu := DQuat.isUnit_mul hd (hl e List.mem_cons_self)
    have h1 := ih hu fun e he => hl e (List.mem_cons_of_mem _ he)
    rw [chainPoses, DQuat.toPose_unit (DQuat.IsUnit.rot hu), Py.ok_bind]
    dsimp only
    rw [h1, Py.ok_bind]
    rfl

theorem pyGet_append_last {α : Type} (l : List α) (a : α) : pyGet (l ++ [a]) (-1) = .ok a := by
  unfold pyGet pyPos
  rw [if_neg (by norm_num), if_pos (by simp)]
  dsimp only
  have : ((((l ++ [a]).length : ℕ) : ℤ) + -1).toNat = l.length := by simp
  rw [this, List.getElem?_append_right (le_refl _)]
  simp

theorem poseError_of_identity {c : DQuat} (h : c = 1 ∨ c = -1) : computePoseError (poseOf 1) (poseOf c) = .ok (0, 0) := by
  obtain ⟨p, p', h1, h2, h3, h4, h5⟩ := toPose_pm (a := c) DQuat.isUnit_one h
  have hr : c.rot.dot c.rot = 1 := by
    rcases h with rfl | rfl
    · exact DQuat.IsUnit.rot DQuat.isUnit_one
    · exact DQuat.IsUnit.rot (DQuat.isUnit_neg DQuat.isUnit_one)
  rw [DQuat.toPose_unit hr] at h1
  rw [DQuat.toPose_unit (DQuat.IsUnit.rot DQuat.isUnit_one)] at h2
  have e1 : poseOf c = p := Except.ok.inj h1
  have e2 : poseOf 1 = p' := Except.ok.inj h2
  rw [e1, e2]
  refine poseError_same h3.symm ?_ ?_
  · rcases h5 with h5 | h5 <;> rw [h5]
    · exact h4
    · rw [Quat.norm_neg]; exact h4
  · rcases h5 with h5 | h5
    · exact Or.inl h5.symm
    · right; rw [h5, neg_neg]

theorem fold_consistent {α : Type} (T : α → DQuat) (f : α × α → DQuat) (t : Vec3 → Vec3) :
    ∀ (l : List α) (a : α) (d : DQuat), Spec.IsUnit d →
      (∀ p ∈ Spec.neighbours (a :: l), Spec.IsUnit (f p) ∧
        ∀ x, Spec.motion (T p.1) (Spec.motion (f p) x) = Spec.motion (T p.2) x) →
      (∀ x, t (Spec.motion d x) = Spec.motion (T a) x) →
      Spec.IsUnit (((Spec.neighbours (a :: l)).map f).foldl (· * ·) d) ∧
      ∀ x, t (Spec.motion (((Spec.neighbours (a :: l)).map f).foldl (· * ·) d) x) =
        Spec.motion (T ((a :: l).getLast (List.cons_ne_nil a l))) x := by
  intro l
  induction l with
  | nil => intro a d hd _ h; exact ⟨hd, h⟩
  | cons b l ih =>
    intro a d hd hn h
    have e : Spec.neighbours (a :: b :: l) = (a, b) :: Spec.neighbours (b :: l) := rfl
    rw [e] at hn ⊢
    obtain ⟨hu, hm⟩ := hn (a, b) List.mem_cons_self
    rw [List.map_cons, List.foldl_cons, List.getLast_cons (List.cons_ne_nil b l)]
    refine ih b (d * f (a, b)) (DQuat.isUnit_mul hd hu) (fun p hp => hn p (List.mem_cons_of_mem _ hp)) ?_
    intro x
    rw [DQuat.motion_mul hd hu, h, hm]

theorem neighbours_pairs {α : Type} (L : List α) : ∀ p ∈ Spec.neighbours L, p ∈ Spec.pairs L := by
  induction L with
  | nil => intro p hp; cases hp
  | cons a L ih =>
    cases L with
    | nil => intro p hp; cases hp
    | cons b L =>
      intro p hp
      rw [Spec.pairs]
      rcases List.mem_cons.mp (show p ∈ (a, b) :: Spec.neighbours (b :: L) from hp) with rfl | hp
      · exact List.mem_append_left _ (List.mem_map.mpr ⟨b, List.mem_cons_self, rfl⟩)
      · exact List.mem_append_right _ (ih p hp)

/-- **C53**, consistent calibrations: let every sensor have a pose `T`, and let the result of every pair of
sensors be their relative motion.  Then the loop error is zero. -/
theorem C53_consistent {α : Type} (L : List α) (hL : 2 ≤ L.length) (T : α → DQuat) (hT : ∀ a ∈ L, Spec.IsUnit (T a))
    (f : α × α → DQuat) (hf : ∀ p ∈ Spec.pairs L, Spec.IsUnit (f p) ∧
      ∀ x, Spec.motion (T p.1) (Spec.motion (f p) x) = Spec.motion (T p.2) x) :
    computeLoopError ((Spec.pairs L).map f) L.length = .ok (0, 0) := by
  obtain ⟨a, L', rfl⟩ := List.exists_cons_of_ne_nil (show L ≠ [] by rintro rfl; simp at hL)
  obtain ⟨b, l, rfl⟩ := List.exists_cons_of_ne_nil (show L' ≠ [] by rintro rfl; simp at hL)
  have hl : b :: l ≠ [] := List.cons_ne_nil b l
  have hlast : (a, (b :: l).getLast hl) ∈ Spec.pairs (a :: b :: l) := by
    rw [Spec.pairs]
    exact List.mem_append_left _ (List.mem_map.mpr ⟨_, List.getLast_mem hl, rfl⟩)
  obtain ⟨hru, hrm⟩ := hf _ hlast
  have hneigh : ∀ p ∈ Spec.neighbours (a :: b :: l), _ := fun p hp => hf p (neighbours_pairs _ p hp)
  obtain ⟨h1, h2⟩ := fold_consistent T f (Spec.motion (T a)) (b :: l) a 1 DQuat.isUnit_one hneigh
    fun x => by rw [DQuat.motion_one]
  rw [List.getLast_cons hl] at h2
  have hchain := C53_edges a (b :: l) hl f
  rw [DQuat.inverse_unit hru, Py.ok_bind] at hchain
  have hunits : ∀ e ∈ (DQuat.identity :: (Spec.neighbours (a :: b :: l)).map f ++ [(f (a, (b :: l).getLast hl)).conj]),
      Spec.IsUnit e := by
    intro e he
    rcases List.mem_append.mp he with he | he
    · rcases List.mem_cons.mp he with rfl | he
      · exact DQuat.isUnit_one
      · obtain ⟨p, hp, rfl⟩ := List.mem_map.mp he
        exact (hneigh p hp).1
    · rw [List.mem_singleton.mp he]
      exact DQuat.isUnit_conj hru
  have hposes := chainPoses_eq (d := DQuat.identity) DQuat.isUnit_one hunits
  unfold computeLoopError
  rw [hchain, Py.ok_bind, hposes, Py.ok_bind]
  generalize (b :: l).getLast hl = z at *
  generalize (Spec.neighbours (a :: b :: l)).map f = E at *
  have hone : DQuat.identity * DQuat.identity = 1 := mul_one (1 : DQuat)
  have e0 : pyAt ((prods DQuat.identity (DQuat.identity :: E ++ [(f (a, z)).conj])).map poseOf) 0 = .ok (poseOf 1) := by
    rw [List.cons_append, prods, hone]
    rfl
  have e1 : pyGet ((prods DQuat.identity (DQuat.identity :: E ++ [(f (a, z)).conj])).map poseOf) (-1) =
      .ok (poseOf (E.foldl (· * ·) 1 * (f (a, z)).conj)) := by
    rw [prods_append, List.map_append, List.map_cons, List.map_nil, pyGet_append_last, List.foldl_cons, hone]
  rw [e0, Py.ok_bind, e1, Py.ok_bind]
  refine poseError_of_identity (motion_id (DQuat.isUnit_mul h1 (DQuat.isUnit_conj hru)) fun x => ?_)
  have hTa := hT a List.mem_cons_self
  have inj : ∀ x y, Spec.motion (T a) x = Spec.motion (T a) y → x = y := by
    intro x y hxy
    rw [← DQuat.motion_conj_motion hTa x, hxy, DQuat.motion_conj_motion hTa]
  apply inj
  rw [DQuat.motion_mul h1 (DQuat.isUnit_conj hru), h2, ← hrm, DQuat.motion_motion_conj hru]

theorem fold_motion (l : List DQuat) : ∀ d : DQuat, Spec.IsUnit d → (∀ e ∈ l, Spec.IsUnit e) →
    Spec.IsUnit (l.foldl (· * ·) d) ∧
      ∀ x, Spec.motion (l.foldl (· * ·) d) x = Spec.motion d (l.foldr (fun e y => Spec.motion e y) x) := by
  induction l with
  | nil => intro d hd _; exact ⟨hd, fun x => rfl⟩
  | cons e l ih =>
    intro d hd hl
    have he := hl e List.mem_cons_self
    obtain ⟨h1, h2⟩ := ih (d * e) (DQuat.isUnit_mul hd he) fun e he => hl e (List.mem_cons_of_mem _ he)
    refine ⟨h1, fun x => ?_⟩
    rw [List.foldl_cons, h2, DQuat.motion_mul hd he]
    rfl

/-- **C53**, value: for unit results the loop error is the size of the motion `P` that remains when the motion
from the first to the last set is undone after going along all neighbours: how far it moves the origin, and its
angle (up to the tolerance of `angle_between_quaternions`). -/
theorem C53_value {α : Type} (a : α) (l : List α) (hl : l ≠ []) (f : α × α → DQuat)
    (hf : ∀ p ∈ Spec.pairs (a :: l), Spec.IsUnit (f p)) :
    ∃ (P : DQuat) (d : ℝ), Spec.IsUnit P ∧
      (∀ x, Spec.motion P (Spec.motion (f (a, l.getLast hl)) x) =
        ((Spec.neighbours (a :: l)).map f).foldr (fun e y => Spec.motion e y) x) ∧
      computeLoopError ((Spec.pairs (a :: l)).map f) (a :: l).length = .ok (Spec.dist 0 (Spec.motion P 0), d) ∧
      (d = Spec.rotationAngle ⟨0, 0, 0, 1⟩ P.rot ∨ (d = 0 ∧ 1 - 6e-11 ≤ Spec.cosHalf ⟨0, 0, 0, 1⟩ P.rot)) := by
  have hlast : (a, l.getLast hl) ∈ Spec.pairs (a :: l) := by
    rw [Spec.pairs]
    exact List.mem_append_left _ (List.mem_map.mpr ⟨_, List.getLast_mem hl, rfl⟩)
  have hru := hf _ hlast
  have hE : ∀ e ∈ (Spec.neighbours (a :: l)).map f, Spec.IsUnit e := by
    intro e he
    obtain ⟨p, hp, rfl⟩ := List.mem_map.mp he
    exact hf p (neighbours_pairs _ p hp)
  obtain ⟨h1, h2⟩ := fold_motion _ 1 DQuat.isUnit_one hE
  have hchain := C53_edges a l hl f
  rw [DQuat.inverse_unit hru, Py.ok_bind] at hchain
  have hunits : ∀ e ∈ (DQuat.identity :: (Spec.neighbours (a :: l)).map f ++ [(f (a, l.getLast hl)).conj]),
      Spec.IsUnit e := by
    intro e he
    rcases List.mem_append.mp he with he | he
    · rcases List.mem_cons.mp he with rfl | he
      · exact DQuat.isUnit_one
      · exact hE e he
    · rw [List.mem_singleton.mp he]
      exact DQuat.isUnit_conj hru
  have hposes := chainPoses_eq (d := DQuat.identity) DQuat.isUnit_one hunits
  unfold computeLoopError
  rw [hchain, Py.ok_bind, hposes, Py.ok_bind]
  generalize l.getLast hl = z at *
  generalize (Spec.neighbours (a :: l)).map f = E at *
  have hone : DQuat.identity * DQuat.identity = 1 := mul_one (1 : DQuat)
  have e0 : pyAt ((prods DQuat.identity (DQuat.identity :: E ++ [(f (a, z)).conj])).map poseOf) 0 = .ok (poseOf 1) := by
    rw [List.cons_append, prods, hone]
    rfl
  have e1 : pyGet ((prods DQuat.identity (DQuat.identity :: E ++ [(f (a, z)).conj])).map poseOf) (-1) =
      .ok (poseOf (E.foldl (· * ·) 1 * (f (a, z)).conj)) := by
    rw [prods_append, List.map_append, List.map_cons, List.map_nil, pyGet_append_last, List.foldl_cons, hone]
  rw [e0, Py.ok_bind, e1, Py.ok_bind]
  have hP := DQuat.isUnit_mul h1 (DQuat.isUnit_conj hru)
  have hM : ∀ x, Spec.motion (E.foldl (· * ·) 1 * (f (a, z)).conj) (Spec.motion (f (a, z)) x) =
      E.foldr (fun e y => Spec.motion e y) x := by
    intro x
    rw [DQuat.motion_mul h1 (DQuat.isUnit_conj hru), DQuat.motion_conj_motion hru, h2, DQuat.motion_one]
  generalize E.foldl (· * ·) 1 * (f (a, z)).conj = P at *
  have hr := DQuat.IsUnit.rot hP
  have hq : (poseOf P).q = P.rot ∨ (poseOf P).q = -P.rot := by
    unfold poseOf
    dsimp only
    split <;> simp
  have hn : (poseOf P).q.norm > 1e-8 := by
    have : (poseOf P).q.norm = 1 := by
      rcases hq with h | h <;> rw [h]
      · exact Quat.norm_eq_one.mpr hr
      · rw [Quat.norm_neg]; exact Quat.norm_eq_one.mpr hr
    rw [this]; norm_num
  have q1 : (poseOf 1).q = ⟨0, 0, 0, 1⟩ := by
    unfold poseOf
    dsimp only
    rw [if_neg (by norm_num [DQuat.one_eq, DQuat.identity])]
    rfl
  have p1 : (poseOf 1).pos = 0 := by
    unfold poseOf
    ext <;> simp [DQuat.one_eq, DQuat.identity]
  have pP : (poseOf P).pos = Spec.motion P 0 := by
    rw [motion_rot_unit hr]
    have z : Quat.ofVec 0 = 0 := rfl
    rw [z, mul_zero, zero_mul]
    unfold poseOf
    ext <;> simp
  obtain ⟨d, hd, _, _, hv⟩ := C34_value (poseOf 1) (poseOf P) (by rw [q1]; norm_num [Quat.norm, Quat.dot]) hn
  have hc : Spec.cosHalf (poseOf 1).q (poseOf P).q = Spec.cosHalf ⟨0, 0, 0, 1⟩ P.rot := by
    rw [q1]
    rcases hq with h | h <;> rw [h]
    unfold Spec.cosHalf
    simp
  refine ⟨P, d, hP, hM, ?_, ?_⟩
  · rw [hd, p1, pP]
  · unfold Spec.rotationAngle at hv ⊢
    rwa [hc] at hv

/-- For four sets the results number 0, 3, 5 and 2 are used. -/
example : Spec.pairs [0, 1, 2, 3] = [(0, 1), (0, 2), (0, 3), (1, 2), (1, 3), (2, 3)] ∧
    Spec.neighbours [0, 1, 2, 3] = [(0, 1), (1, 2), (2, 3)] := ⟨rfl, rfl⟩

/-- Three sets; the result of the first and the last disagrees with the others by a translation of length 3. -/
example : ∃ d : ℝ, computeLoopError ((Spec.pairs [(0 : Fin 3), 1, 2]).map fun p =>
    if p = (0, 2) then (⟨⟨0, 0, 0, 1⟩, ⟨1 / 2, 1, 1, 0⟩⟩ : DQuat) else 1) 3 = .ok (3, d) := by
  obtain ⟨P, d, hu, hm, h, _⟩ := C53_value (0 : Fin 3) [1, 2] (by simp) (fun p =>
    if p = (0, 2) then (⟨⟨0, 0, 0, 1⟩, ⟨1 / 2, 1, 1, 0⟩⟩ : DQuat) else 1) (by
      intro p _
      split
      · rw [DQuat.isUnit_iff]; norm_num [Quat.dot]
      · exact DQuat.isUnit_one)
  refine ⟨d, ?_⟩
  have h0 := hm ⟨-1, -2, -2⟩
  have e : Spec.motion (⟨⟨0, 0, 0, 1⟩, ⟨1 / 2, 1, 1, 0⟩⟩ : DQuat) ⟨-1, -2, -2⟩ = 0 := by
    rw [DQuat.motion_eq]
    ext <;> norm_num [Quat.dot, Quat.ofVec, Quat.conj]
  simp [Spec.neighbours] at h0
  rw [one_div] at e
  rw [e, DQuat.motion_one, DQuat.motion_one] at h0
  have h' := h
  rw [h0] at h'
  have : Spec.dist 0 ⟨-1, -2, -2⟩ = 3 := by
    unfold Spec.dist
    rw [show ((0 : Vec3).x - (-1)) ^ 2 + ((0 : Vec3).y - (-2)) ^ 2 + ((0 : Vec3).z - (-2)) ^ 2 = (3 : ℝ) ^ 2 by norm_num]
    exact Real.sqrt_sq (by norm_num)
  rw [this] at h'
  exact h'

/-- Three sensors: their poses are the identity, a rotation with a translation, and a half turn. -/
noncomputable def exampleFrame : Fin 3 → DQuat
  | 0 => 1
  | 1 => ⟨⟨3 / 5, 0, 0, 4 / 5⟩, ⟨0, 1, 0, 0⟩⟩
  | 2 => ⟨⟨0, 1, 0, 0⟩, 0⟩

/-- The results are the relative motions, some with the other sign. -/
example : computeLoopError ((Spec.pairs [(0 : Fin 3), 1, 2]).map fun p =>
    if p = (0, 2) then -((exampleFrame p.1).conj * exampleFrame p.2) else (exampleFrame p.1).conj * exampleFrame p.2) 3 =
      .ok (0, 0) := by
  have hT : ∀ a, Spec.IsUnit (exampleFrame a) := by
    intro a
    rw [DQuat.isUnit_iff]
    fin_cases a <;> norm_num [exampleFrame, Quat.dot, ← DQuat.one_eq, DQuat.one_eq, DQuat.identity]
  refine C53_consistent [(0 : Fin 3), 1, 2] (by simp) exampleFrame (fun a _ => hT a) _ fun p _ => ?_
  have hu := DQuat.isUnit_mul (DQuat.isUnit_conj (hT p.1)) (hT p.2)
  have hm : ∀ x, Spec.motion (exampleFrame p.1) (Spec.motion ((exampleFrame p.1).conj * exampleFrame p.2) x) =
      Spec.motion (exampleFrame p.2) x := by
    intro x
    rw [DQuat.motion_mul (DQuat.isUnit_conj (hT p.1)) (hT p.2), DQuat.motion_motion_conj (hT p.1)]
  split
  · exact ⟨DQuat.isUnit_neg hu, fun x => by rw [motion_neg]; exact hm x⟩
  · exact ⟨hu, hm⟩

end HandEye
