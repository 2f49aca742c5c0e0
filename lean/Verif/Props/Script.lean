import Verif.Model.Script
import Verif.Props.Evaluate
import Verif.Props.Ransac3
import Verif.Props.Baseline2

/-! # C72: the calibration script -/

namespace HandEye

/-- Signs of the poses do not matter to the alignment, unless there are half turns. -/
theorem align_signs {ws ws' : List DQuat} (hu : ∀ w ∈ ws, Spec.IsUnit w)
    (h : List.Forall₂ (fun w w' => w' = w ∨ w' = -w) ws ws')
    (hne : ∀ w₀, ws.head? = some w₀ → ∀ w ∈ ws, (w₀.conj * w).rot.w ≠ 0) :
    alignPathsAtIndex ws' = alignPathsAtIndex ws := by
  cases h with
  | nil => rfl
  | @cons w₀ w₀' l l' h0 hl =>
    have hu' : ∀ w ∈ w₀' :: l', Spec.IsUnit w := by
      have h2 := List.Forall₂.cons (R := fun w w' => w' = w ∨ w' = -w) h0 hl
      intro w hw
      obtain ⟨k, hk, rfl⟩ := List.mem_iff_getElem.mp hw
      have hk' : k < (w₀ :: l).length := by rw [h2.length_eq]; exact hk
      have := h2.get hk' hk
      simp only [List.get_eq_getElem] at this
      rcases this with e | e <;> rw [e]
      · exact hu _ (List.getElem_mem _)
      · exact DQuat.isUnit_neg (hu _ (List.getElem_mem _))
    have e1 := align_unit (v := w₀ :: l) (pyPos_natCast (n := (w₀ :: l).length) (k := 0) (by simp)) hu true
    have e2 := align_unit (v := w₀' :: l') (pyPos_natCast (n := (w₀' :: l').length) (k := 0) (by simp)) hu' true
    have e1' : alignPathsAtIndex (w₀ :: l) = _ := e1
    have e2' : alignPathsAtIndex (w₀' :: l') = _ := e2
    rw [e1', e2']
    congr 1
    simp only [List.rotate_zero, List.getElem_cons_zero, List.map_cons]
    have hne' := hne w₀ rfl
    congr 1
    · exact rebase_sign h0 h0 (hne' _ List.mem_cons_self)
    · clear e1 e2 e1' e2' hu' hu hne
      have hne2 : ∀ w ∈ l, (w₀.conj * w).rot.w ≠ 0 := fun w hw => hne' w (List.mem_cons_of_mem _ hw)
      clear hne'
      induction hl with
      | nil => rfl
      | cons h1 _ ih =>
        rw [List.map_cons, List.map_cons, ih fun w hw => hne2 w (List.mem_cons_of_mem _ hw),
          rebase_sign h0 h1 (hne2 _ List.mem_cons_self)]

/-- The scalar part of a conjugated unit dual quaternion. -/
theorem conjugated_w {X a : DQuat} (hX : Spec.IsUnit X) : (X.conj * a * X).rot.w = a.rot.w := by
  have h := DQuat.IsUnit.rot hX
  simp only [DQuat.mul_rot, DQuat.conj_rot, Quat.mul_w, Quat.mul_x, Quat.mul_y, Quat.mul_z, Quat.conj_x, Quat.conj_y,
    Quat.conj_z, Quat.conj_w, Quat.dot] at h ⊢
  linear_combination a.rot.w * h

/-- The aligned poses of two sensors on one body. -/
theorem align_mounted {g X : DQuat} (hg : Spec.IsUnit g) (hX : Spec.IsUnit X) {bs ws : List DQuat}
    (hu : ∀ a ∈ bs, Spec.IsUnit a) (h : List.Forall₂ (fun b w => w = g * b * X ∨ w = -(g * b * X)) bs ws)
    (hne : ∀ b₀, bs.head? = some b₀ → ∀ b ∈ bs, (b₀.conj * b).rot.w ≠ 0) (hbs : bs ≠ [])
    (h2 : Spec.TurnsAboutTwoAxes bs) :
    ∃ B W, alignPathsAtIndex bs = .ok B ∧ alignPathsAtIndex ws = .ok W ∧ B.length = bs.length ∧
      (∀ b ∈ B, Spec.IsUnit b) ∧ Spec.Mounted X.conj X B W ∧ Spec.TurnsAboutTwoAxes B := by
  have hpos : 0 < bs.length := List.length_pos_iff.mpr hbs
  have hm : Spec.Mounted g X bs (bs.map fun b => g * b * X) := mounted_iff.mpr rfl
  obtain ⟨B, W, e1, e2, e3, e4, e5, e6, -⟩ := mounted_align hg hX hu hm hpos
  have hs : alignPathsAtIndex ws = alignPathsAtIndex (bs.map fun b => g * b * X) := by
    apply align_signs
    · intro w hw
      obtain ⟨b, hb, rfl⟩ := List.mem_map.mp hw
      exact DQuat.isUnit_mul (DQuat.isUnit_mul hg (hu b hb)) hX
    · rw [List.forall₂_map_left_iff]
      exact h
    · intro w₀ hw₀ w hw
      rw [List.head?_map] at hw₀
      obtain ⟨b₀, hb₀, rfl⟩ := Option.map_eq_some_iff.mp hw₀
      obtain ⟨b, hb, rfl⟩ := List.mem_map.mp hw
      have e : (g * b₀ * X).conj * (g * b * X) = X.conj * (b₀.conj * b) * X := by
        rw [DQuat.conj_mul_rev, DQuat.conj_mul_rev]
        calc X.conj * (b₀.conj * g.conj) * (g * b * X) = X.conj * b₀.conj * (g.conj * g) * b * X := by noncomm_ring
          _ = _ := by rw [DQuat.conj_mul_unit hg]; noncomm_ring
      rw [e, conjugated_w hX]
      exact hne b₀ hb₀ b hb
  refine ⟨B, W, e1, hs.trans e2, e4, e6, ?_, ?_⟩
  · rw [mounted_iff]
    have : List.Forall₂ (fun b w => w = X.conj * b * X) B W := by
      refine e5.imp ?_
      intro b w hbw
      rw [handEyeEq_iff] at hbw
      rw [mul_assoc, hbw, ← mul_assoc, DQuat.conj_mul_unit hX, one_mul]
    clear e1 e2 e3 e4 e5 e6 hs
    induction this with
    | nil => rfl
    | cons h1 _ ih => rw [List.map_cons, h1, ih]
  · obtain ⟨a, ha, b, hb, c, hc, hx⟩ := h2
    have hb0 := hu _ (List.getElem_mem hpos)
    have hmem : ∀ x ∈ bs, rebase bs[0].conj true x ∈ B := by
      intro x hx
      rw [e3, List.rotate_zero]
      exact List.mem_map_of_mem hx
    have hrel : ∀ x y : DQuat, (rebase bs[0].conj true x).conj * rebase bs[0].conj true y = x.conj * y ∨
        (rebase bs[0].conj true x).conj * rebase bs[0].conj true y = -(x.conj * y) := by
      intro x y
      have hk : (bs[0].conj * x).conj * (bs[0].conj * y) = x.conj * y := by
        rw [DQuat.conj_mul_rev, DQuat.conj_conj]
        calc x.conj * bs[0] * (bs[0].conj * y) = x.conj * (bs[0] * bs[0].conj) * y := by noncomm_ring
          _ = _ := by rw [DQuat.mul_conj_unit hb0, mul_one]
      have hcn : ∀ z : DQuat, (-z).conj = -z.conj := fun z => by ext <;> simp [DQuat.conj, Quat.conj]
      rcases rebase_eq_or bs[0].conj x true with h1 | h1 <;> rcases rebase_eq_or bs[0].conj y true with h2 | h2 <;>
        rw [h1, h2]
      · exact Or.inl hk
      · right; rw [mul_neg, hk]
      · right; rw [hcn, neg_mul, hk]
      · left; rw [hcn, neg_mul, mul_neg, neg_neg, hk]
    refine ⟨_, hmem a ha, _, hmem b hb, _, hmem c hc, fun h0 => hx ?_⟩
    rw [cross_eq_zero] at h0 ⊢
    rcases hrel a b with h1 | h1 <;> rcases hrel a c with h2 | h2 <;> rw [h1, h2] at h0 <;>
      simp only [DQuat.neg_rot, Quat.vec, Quat.neg_x, Quat.neg_y, Quat.neg_z] at h0 ⊢ <;>
      obtain ⟨p, q, r⟩ := h0 <;> exact ⟨by linarith, by linarith, by linarith⟩

/-! ## The input -/

/-- The rotation between two poses. -/
theorem relative_toH {p q : Pose} (hp : p.q.norm = 1) (hq : q.q.norm = 1) :
    ((DQuat.fromPose p).conj * DQuat.fromPose q).rot.toH = star p.q.toH * q.q.toH := by
  have e : ∀ {p : Pose}, p.q.norm = 1 → (DQuat.fromPose p).rot = p.q := fun h =>
    Quat.normalize_unit (Quat.norm_eq_one.mp h)
  rw [DQuat.mul_rot, DQuat.conj_rot, e hp, e hq, Quat.toH_mul, Quat.toH_conj]

theorem fromPose_isUnit {p : Pose} (h : p.q.norm = 1) : Spec.IsUnit (DQuat.fromPose p) :=
  fromPose_unit p (by rw [h]; norm_num)

/-- The poses with motions of unit dual quaternions, up to signs. -/
theorem sameBody_signs {g X : DQuat} (hg : Spec.IsUnit g) (hX : Spec.IsUnit X) {A B : List Pose}
    (hA : ∀ p ∈ A, p.q.norm = 1) (hB : ∀ p ∈ B, p.q.norm = 1) (h : Spec.SameBodyPoses g X A B) :
    List.Forall₂ (fun b w => w = g * b * X ∨ w = -(g * b * X)) (A.map DQuat.fromPose) (B.map DQuat.fromPose) := by
  rw [List.forall₂_map_left_iff, List.forall₂_map_right_iff]
  unfold Spec.SameBodyPoses at h
  induction h with
  | nil => exact .nil
  | @cons p q A B h1 _ ih =>
    refine .cons ?_ (ih (fun p hp => hA p (List.mem_cons_of_mem _ hp)) fun p hp => hB p (List.mem_cons_of_mem _ hp))
    have hp := hA p List.mem_cons_self
    have hq := hB q List.mem_cons_self
    have up := fromPose_isUnit hp
    apply motion_ext (fromPose_isUnit hq) (DQuat.isUnit_mul (DQuat.isUnit_mul hg up) hX)
    intro x
    rw [DQuat.motion_mul (DQuat.isUnit_mul hg up) hX, DQuat.motion_mul hg up, ← poseMotion_eq hq, ← poseMotion_eq hp]
    exact h1 x

/-- Inverse poses, up to signs. -/
theorem inverses_signs {A A' : List Pose} (hA : ∀ p ∈ A, p.q.norm = 1) (hA' : ∀ p ∈ A', p.q.norm = 1)
    (h : Spec.Inverses A A') :
    List.Forall₂ (fun b w => w = b ∨ w = -b) (A.map DQuat.fromPose) (A'.map fun p => (DQuat.fromPose p).conj) := by
  rw [List.forall₂_map_left_iff, List.forall₂_map_right_iff]
  unfold Spec.Inverses at h
  induction h with
  | nil => exact .nil
  | @cons p q A B h1 _ ih =>
    refine .cons ?_ (ih (fun p hp => hA p (List.mem_cons_of_mem _ hp)) fun p hp => hA' p (List.mem_cons_of_mem _ hp))
    have hp := hA p List.mem_cons_self
    have hq := hA' q List.mem_cons_self
    have up := fromPose_isUnit hp
    have uq := fromPose_isUnit hq
    apply motion_ext (DQuat.isUnit_conj uq) up
    intro x
    have := h1 x
    rw [poseMotion_eq hp, poseMotion_eq hq] at this
    conv_lhs => rw [← this]
    rw [DQuat.motion_conj_motion uq]

/-- What the script reads of one sensor: a table, or its inverses. -/
def Given (direct inverted : Option (List StampedPose)) (A : List Pose) : Prop :=
  (∃ T, direct = some T ∧ inverted = none ∧ T.map StampedPose.pose = A) ∨
  ∃ T, direct = none ∧ inverted = some T ∧ (∀ p ∈ T, p.pose.q.norm = 1) ∧ Spec.Inverses A (T.map StampedPose.pose)

theorem given_input {direct inverted : Option (List StampedPose)} {A : List Pose} (hA : ∀ p ∈ A, p.q.norm = 1)
    (h : Given direct inverted A) : direct.isSome ≠ inverted.isSome ∧ ∃ bs, inputPoses direct inverted = .ok bs ∧
      List.Forall₂ (fun b w => w = b ∨ w = -b) (A.map DQuat.fromPose) bs := by
  rcases h with ⟨T, rfl, rfl, rfl⟩ | ⟨T, rfl, rfl, hT, hi⟩
  · refine ⟨by simp, _, rfl, ?_⟩
    rw [List.map_map]
    exact List.forall₂_same.mpr fun _ _ => Or.inl rfl
  · refine ⟨by simp, T.map fun p => (DQuat.fromPose p.pose).conj, ?_, ?_⟩
    · apply Py.mapM_ok
      intro p hp
      exact DQuat.inverse_unit (fromPose_isUnit (hT p hp))
    · have hi' := inverses_signs hA (by simpa using hT) hi
      rw [List.map_map] at hi'
      exact hi'

/-- What the calibration of the script works on. -/
theorem script_data {g X : DQuat} (hg : Spec.IsUnit g) (hX : Spec.IsUnit X) {A B : List Pose}
    (hA : ∀ p ∈ A, p.q.norm = 1) (hB : ∀ p ∈ B, p.q.norm = 1) (h : Spec.SameBodyPoses g X A B)
    (hne : ∀ p₀, A.head? = some p₀ → ∀ p ∈ A, ¬ Spec.HalfTurn p₀ p) (h2 : Spec.TwoTurnAxes A) :
    ∃ bs ws, (∀ b ∈ bs, Spec.IsUnit b) ∧ Spec.Mounted X.conj X bs ws ∧ Spec.TurnsAboutTwoAxes bs ∧
      alignPathsAtIndex (A.map DQuat.fromPose) = .ok bs ∧ ∀ (svd : Svd) (rng : ℕ → List ℕ) (fuel : ℕ) (args : ScriptArgs),
      Given args.aligned_poses_B_H args.aligned_poses_H_B A → Given args.aligned_poses_W_E args.aligned_poses_E_W B →
      (args.calibration_output = true → args.time_offset_input.isSome) →
      calibrationScript svd rng fuel args = (do
        let r ← ransac svd rng getExhaustiveSearchScalarPartInliersConfig.config bs ws fuel
        writeOutputs args r) := by
  have hub : ∀ b ∈ A.map DQuat.fromPose, Spec.IsUnit b := by
    intro b hb
    obtain ⟨p, hp, rfl⟩ := List.mem_map.mp hb
    exact fromPose_isUnit (hA p hp)
  have huw : ∀ b ∈ B.map DQuat.fromPose, Spec.IsUnit b := by
    intro b hb
    obtain ⟨p, hp, rfl⟩ := List.mem_map.mp hb
    exact fromPose_isUnit (hB p hp)
  have hsg := sameBody_signs hg hX hA hB h
  have hneb : ∀ b₀, (A.map DQuat.fromPose).head? = some b₀ → ∀ b ∈ A.map DQuat.fromPose, (b₀.conj * b).rot.w ≠ 0 := by
    intro b₀ hb₀ b hb
    rw [List.head?_map] at hb₀
    obtain ⟨p₀, hp₀, rfl⟩ := Option.map_eq_some_iff.mp hb₀
    obtain ⟨p, hp, rfl⟩ := List.mem_map.mp hb
    have e := relative_toH (hA _ (List.mem_of_mem_head? hp₀)) (hA p hp)
    intro h0
    apply hne p₀ hp₀ p hp
    unfold Spec.HalfTurn
    rw [← e]
    exact h0
  have hnew : ∀ w₀, (B.map DQuat.fromPose).head? = some w₀ → ∀ w ∈ B.map DQuat.fromPose, (w₀.conj * w).rot.w ≠ 0 := by
    have hrel : ∀ {b₀ b w₀ w : DQuat}, (w₀ = g * b₀ * X ∨ w₀ = -(g * b₀ * X)) → (w = g * b * X ∨ w = -(g * b * X)) →
        (b₀.conj * b).rot.w ≠ 0 → (w₀.conj * w).rot.w ≠ 0 := by
      intro b₀ b w₀ w e1 e2 h0
      have e : (g * b₀ * X).conj * (g * b * X) = X.conj * (b₀.conj * b) * X := by
        rw [DQuat.conj_mul_rev, DQuat.conj_mul_rev]
        calc X.conj * (b₀.conj * g.conj) * (g * b * X) = X.conj * b₀.conj * (g.conj * g) * b * X := by noncomm_ring
          _ = _ := by rw [DQuat.conj_mul_unit hg]; noncomm_ring
      have hcn : ∀ z : DQuat, (-z).conj = -z.conj := fun z => by ext <;> simp [DQuat.conj, Quat.conj]
      have h0' : ((g * b₀ * X).conj * (g * b * X)).rot.w ≠ 0 := by rw [e, conjugated_w hX]; exact h0
      rcases e1 with rfl | rfl <;> rcases e2 with rfl | rfl
      · exact h0'
      · rw [mul_neg, DQuat.neg_rot, Quat.neg_w]; exact neg_ne_zero.mpr h0'
      · rw [hcn, neg_mul, DQuat.neg_rot, Quat.neg_w]; exact neg_ne_zero.mpr h0'
      · rw [hcn, neg_mul, mul_neg, neg_neg]; exact h0'
    intro w₀ hw₀ w hw
    generalize A.map DQuat.fromPose = bs at hsg hneb
    generalize B.map DQuat.fromPose = ws at hsg hw₀ hw
    cases hsg with
    | nil => cases hw
    | @cons b₀ w₁ bs ws h1 hl =>
      cases hw₀
      have hz := List.Forall₂.cons (R := fun b w => w = g * b * X ∨ w = -(g * b * X)) h1 hl
      obtain ⟨k, hk, rfl⟩ := List.mem_iff_getElem.mp hw
      have hk' : k < (b₀ :: bs).length := by rw [hz.length_eq]; exact hk
      have := hz.get hk' hk
      simp only [List.get_eq_getElem] at this
      exact hrel h1 this (hneb b₀ rfl _ (List.getElem_mem hk'))
  have h2' : Spec.TurnsAboutTwoAxes (A.map DQuat.fromPose) := by
    obtain ⟨a, ha, b, hb, c, hc, hx⟩ := h2
    refine ⟨_, List.mem_map_of_mem ha, _, List.mem_map_of_mem hb, _, List.mem_map_of_mem hc, ?_⟩
    rw [← relative_toH (hA a ha) (hA b hb), ← relative_toH (hA a ha) (hA c hc)] at hx
    exact hx
  have hAne : A.map DQuat.fromPose ≠ [] := by
    obtain ⟨a, ha, -⟩ := h2'
    exact List.ne_nil_of_mem ha
  obtain ⟨bs, ws, a1, a2, a3, a4, a5, a6⟩ := align_mounted hg hX hub hsg hneb hAne h2'
  refine ⟨bs, ws, a4, a5, a6, a1, ?_⟩
  intro svd rng fuel args g1 g2 ht
  obtain ⟨i1, vb, j1, s1⟩ := given_input hA g1
  obtain ⟨i2, vw, j2, s2⟩ := given_input hB g2
  unfold calibrationScript
  rw [pyAssert_pos i1, Py.ok_bind, pyAssert_pos i2, Py.ok_bind, pyAssert_pos ht, Py.ok_bind, j1, Py.ok_bind, j2,
    Py.ok_bind, pyAssert_pos (by rw [← s1.length_eq, ← s2.length_eq]; simpa using h.length_eq), Py.ok_bind,
    align_signs hub s1 hneb, a1, Py.ok_bind, align_signs huw s2 hnew, a2, Py.ok_bind]

/-! ## The output -/

/-- RANSAC succeeds exactly if it has a result. -/
theorem ransac_success {svd : Svd} {rng : ℕ → List ℕ} {cfg : HandEyeConfig} {bs ws : List DQuat} {fuel : ℕ}
    {r : CalibrationResult} (h : ransac svd rng cfg bs ws fuel = .ok (some r)) : r.success = r.dq_H_E.isSome := by
  unfold ransac at h
  obtain ⟨-, -, h⟩ := Py.bind_eq_ok.mp h
  obtain ⟨-, -, h⟩ := Py.bind_eq_ok.mp h
  obtain ⟨⟨bf, wf⟩, -, h⟩ := Py.bind_eq_ok.mp h
  obtain ⟨st, -, h⟩ := Py.bind_eq_ok.mp h
  cases st with
  | none => cases h
  | some st =>
    obtain ⟨r', h1, h2⟩ := Py.bind_eq_ok.mp h
    cases h2
    unfold ransacResult at h1
    split at h1
    · cases h1; rfl
    · obtain ⟨x, -, h1⟩ := Py.bind_eq_ok.mp h1
      cases h1; rfl

/-- The two files that are written of a result with positive scalar part. -/
theorem outputs_of_result {args : ScriptArgs} {r : CalibrationResult} {dq X : DQuat} (hX : Spec.IsUnit X)
    (hXw : X.rot.w ≠ 0) (hr : r.dq_H_E = some dq) (hs : Spec.SameUpToSign dq X) (hw : 0 ≤ dq.rot.w) :
    ∃ out, writeOutputs args (some r) = .ok (some out) ∧
      (args.extrinsics_output = true → ∃ P, out.extrinsics = some P ∧ P.q.norm = 1 ∧ 0 < P.q.w ∧
        ∀ x, Spec.poseMotion P x = Spec.motion X x) ∧
      (args.extrinsics_output = false → out.extrinsics = none) ∧
      (args.calibration_output = true → ∀ t, args.time_offset_input = some t → ∃ f, out.calibration = some f ∧
        f.delay = t ∧ 0 < f.w ∧ ∀ x, Spec.poseMotion ⟨⟨f.x, f.y, f.z⟩, ⟨f.i, f.j, f.k, f.w⟩⟩ x = Spec.motion X x) ∧
      (args.calibration_output = false → out.calibration = none) := by
  have hdq : dq = X ∨ dq = -X := hs
  have hu : Spec.IsUnit dq := by
    rcases hdq with rfl | rfl
    · exact hX
    · exact DQuat.isUnit_neg hX
  have hm : ∀ x, Spec.motion dq x = Spec.motion X x := by
    intro x
    rcases hdq with rfl | rfl
    · rfl
    · exact motion_neg X x
  have hw' : 0 < dq.rot.w := by
    refine lt_of_le_of_ne hw ?_
    rcases hdq with rfl | rfl
    · exact hXw.symm
    · rw [DQuat.neg_rot, Quat.neg_w]; exact (neg_ne_zero.mpr hXw).symm
  have hn := DQuat.IsUnit.rot hu
  have htp := DQuat.toPose_unit hn
  rw [if_neg (not_lt.mpr hw)] at htp
  set P : Pose := ⟨(((2 : ℝ) • dq.dual) * dq.rot.conj).vec, dq.rot⟩ with hP
  have hPn : P.q.norm = 1 := Quat.norm_eq_one.mpr hn
  have hPm : ∀ x, Spec.poseMotion P x = Spec.motion X x := by
    intro x
    rw [poseMotion_eq hPn, motion_fromPose hn, ← hm, motion_rot_unit hn]
  have hPu := fromPose_isUnit hPn
  have hPr : (DQuat.fromPose P).rot = dq.rot := Quat.normalize_unit hn
  have htp2 := DQuat.toPose_unit (DQuat.IsUnit.rot hPu)
  rw [hPr, if_neg (not_lt.mpr hw)] at htp2
  have hpos : (((2 : ℝ) • (DQuat.fromPose P).dual) * dq.rot.conj).vec = P.pos := by
    have := translation_roundtrip P.pos P.q hn
    rw [← this]
    unfold DQuat.fromPose
    rw [Quat.normalize_unit hn]
  rw [hpos] at htp2
  have hext : writeExtrinsics args.extrinsics_output r.dq_H_E =
      .ok (if args.extrinsics_output = true then some P else none) := by
    unfold writeExtrinsics
    rw [hr]
    split
    · change (dq.toPose >>= _) = _
      rw [htp]; rfl
    · rfl
  have hcal : ∃ o, writeCalibration args.calibration_output args.time_offset_input r.dq_H_E = .ok o ∧
      (args.calibration_output = true → ∀ t, args.time_offset_input = some t →
        o = some ⟨t, P.q.x, P.q.y, P.q.z, P.q.w, P.pos.x, P.pos.y, P.pos.z⟩) ∧
      (args.calibration_output = false → o = none) := by
    rw [hr]
    cases hc : args.calibration_output with
    | false => exact ⟨none, rfl, fun h => by simp at h, fun _ => rfl⟩
    | true =>
      cases ht : args.time_offset_input with
      | none => exact ⟨none, rfl, fun _ t h => by simp at h, fun _ => rfl⟩
      | some t =>
        refine ⟨some ⟨t, P.q.x, P.q.y, P.q.z, P.q.w, P.pos.x, P.pos.y, P.pos.z⟩, ?_, ?_, fun h => by simp at h⟩
        · change (dq.toPose >>= _) = _
          rw [htp, Py.ok_bind]
          dsimp only
          unfold Extrinsic.writeJson
          dsimp only
          rw [htp2, Py.ok_bind]
          rfl
        · intro _ t' h'
          cases h'; rfl
  obtain ⟨o, c1, c2, c3⟩ := hcal
  refine ⟨⟨if args.extrinsics_output = true then some P else none, o⟩, ?_, ?_, ?_, ?_, ?_⟩
  · change (writeExtrinsics _ _ >>= _) = _
    rw [hext, Py.ok_bind, c1, Py.ok_bind]
    rfl
  · intro h
    exact ⟨P, if_pos h, hPn, hw', hPm⟩
  · intro h
    simp [h]
  · intro h t ht
    exact ⟨_, c2 h t ht, rfl, hw', hPm⟩
  · exact c3

/-- C72: whenever the script ends normally with an output, on exact data of two sensors on one body, the files hold the
true transform between them, with a positive scalar part, and the time offset that was read; whether the poses were
given or their inverses. -/
theorem C72_noise_free (svd : Svd) (hsvd : ∀ T s V, svd T = .ok (s, V) → Spec.IsSVD T s V)
    (rng : ℕ → List ℕ) (fuel : ℕ) (g X : DQuat) (hg : Spec.IsUnit g) (hX : Spec.IsUnit X) (hXw : X.rot.w ≠ 0)
    (A B : List Pose) (hA : ∀ p ∈ A, p.q.norm = 1) (hB : ∀ p ∈ B, p.q.norm = 1) (h : Spec.SameBodyPoses g X A B)
    (hne : ∀ p₀, A.head? = some p₀ → ∀ p ∈ A, ¬ Spec.HalfTurn p₀ p) (h2 : Spec.TwoTurnAxes A) (args : ScriptArgs)
    (h_B : Given args.aligned_poses_B_H args.aligned_poses_H_B A)
    (h_W : Given args.aligned_poses_W_E args.aligned_poses_E_W B) (out : ScriptOutput)
    (hout : calibrationScript svd rng fuel args = .ok (some out)) :
    (args.extrinsics_output = true → ∃ P, out.extrinsics = some P ∧ P.q.norm = 1 ∧ 0 < P.q.w ∧
      ∀ x, Spec.poseMotion P x = Spec.motion X x) ∧
    (args.calibration_output = true → ∃ f, out.calibration = some f ∧ some f.delay = args.time_offset_input ∧
      0 < f.w ∧ ∀ x, Spec.poseMotion ⟨⟨f.x, f.y, f.z⟩, ⟨f.i, f.j, f.k, f.w⟩⟩ x = Spec.motion X x) := by
  have ht : args.calibration_output = true → args.time_offset_input.isSome := by
    unfold calibrationScript at hout
    obtain ⟨-, -, hout⟩ := Py.bind_eq_ok.mp hout
    obtain ⟨-, -, hout⟩ := Py.bind_eq_ok.mp hout
    obtain ⟨u, hu, -⟩ := Py.bind_eq_ok.mp hout
    by_contra hcon
    rw [pyAssert_neg hcon] at hu
    cases hu
  obtain ⟨bs, ws, d1, d2, d3, d4, d5⟩ := script_data hg hX hA hB h hne h2
  rw [d5 svd rng fuel args h_B h_W ht] at hout
  obtain ⟨r, hr, hout⟩ := Py.bind_eq_ok.mp hout
  cases r with
  | none => cases hout
  | some r =>
    have hsucc := ransac_success hr
    cases hdq : r.dq_H_E with
    | none =>
      -- nothing can have been written
      have hw : args.extrinsics_output = false := by
        by_contra hcon
        have hcon : args.extrinsics_output = true := by simpa using hcon
        change (writeExtrinsics _ _ >>= _) = _ at hout
        rw [hdq, hcon] at hout
        cases hout
      have hw2 : args.calibration_output = false := by
        by_contra hcon
        have hcon : args.calibration_output = true := by simpa using hcon
        obtain ⟨t, htt⟩ := Option.isSome_iff_exists.mp (ht hcon)
        change (writeExtrinsics _ _ >>= _) = _ at hout
        rw [hdq, hw, hcon, htt] at hout
        cases hout
      rw [hw, hw2]
      exact ⟨fun h => by simp at h, fun h => by simp at h⟩
    | some dq =>
      rw [hdq] at hsucc
      obtain ⟨dq', e1, e2, e3, -⟩ := C61_noise_free svd hsvd rng _ rfl
        (by norm_num [getExhaustiveSearchScalarPartInliersConfig, getBasicConfig]) X.conj X (DQuat.isUnit_conj hX) hX hXw
        bs ws d1 d2 d3 fuel r hr hsucc
      obtain ⟨out', o1, o2, -, o4, -⟩ := outputs_of_result (args := args) hX hXw e1 e2 e3
      rw [o1] at hout
      cases hout
      refine ⟨o2, fun hc => ?_⟩
      obtain ⟨t, htt⟩ := Option.isSome_iff_exists.mp (ht hc)
      obtain ⟨f, f1, f2, f3⟩ := o4 hc t htt
      exact ⟨f, f1, by rw [f2, htt], f3⟩

/-- C72: without a result, an output that was asked for is an `AttributeError` (and nothing is written). -/
theorem C72_no_result (args : ScriptArgs) (r : CalibrationResult) (hr : r.dq_H_E = none) :
    writeOutputs args (some r) = if args.extrinsics_output = true ∨
      args.calibration_output = true ∧ args.time_offset_input.isSome then .error .type else .ok (some ⟨none, none⟩) := by
  change (writeExtrinsics _ _ >>= _) = _
  rw [hr]
  cases args.extrinsics_output <;> cases args.calibration_output <;> cases args.time_offset_input <;> rfl

/-- Nothing is computed unless exactly one table for each of the two sensors is given, and the time offset if it is
needed. -/
theorem C72_arguments (svd : Svd) (rng : ℕ → List ℕ) (fuel : ℕ) (args : ScriptArgs)
    (h : (args.aligned_poses_B_H = none ↔ args.aligned_poses_H_B = none) ∨
      (args.aligned_poses_W_E = none ↔ args.aligned_poses_E_W = none) ∨
      args.calibration_output = true ∧ args.time_offset_input = none) :
    calibrationScript svd rng fuel args = .error .assertion := by
  unfold calibrationScript
  by_cases h1 : args.aligned_poses_B_H.isSome ≠ args.aligned_poses_H_B.isSome
  · rw [pyAssert_pos h1, Py.ok_bind]
    by_cases h2 : args.aligned_poses_W_E.isSome ≠ args.aligned_poses_E_W.isSome
    · rw [pyAssert_pos h2, Py.ok_bind]
      have h3 : ¬ (args.calibration_output = true → args.time_offset_input.isSome) := by
        rcases h with h | h | ⟨ha, hb⟩
        · exfalso
          revert h h1
          cases args.aligned_poses_B_H <;> cases args.aligned_poses_H_B <;> simp
        · exfalso
          revert h h2
          cases args.aligned_poses_W_E <;> cases args.aligned_poses_E_W <;> simp
        · simp [ha, hb]
      rw [pyAssert_neg h3]
      rfl
    · rw [pyAssert_neg h2]
      rfl
  · rw [pyAssert_neg h1]
    rfl

example (svd : Svd) (rng : ℕ → List ℕ) (T : List StampedPose) : calibrationScript svd rng 5
    { aligned_poses_B_H := some T, aligned_poses_H_B := some T, aligned_poses_W_E := some T } = .error .assertion :=
  C72_arguments _ _ _ _ (Or.inl (by simp))

/-! ## Success -/

/-- The exhaustive search draws nothing. -/
theorem ransac_rng (svd : Svd) (rng rng' : ℕ → List ℕ) (cfg : HandEyeConfig) (hc : cfg.enable_exhaustive_search = true)
    (bs ws : List DQuat) (fuel : ℕ) : ransac svd rng cfg bs ws fuel = ransac svd rng' cfg bs ws fuel := by
  have hd : ∀ n k, drawSample cfg rng n k = drawSample cfg rng' n k := by
    intro n k
    unfold drawSample
    rw [if_pos hc, if_pos hc]
  have hstep : ∀ bf wf st, ransacStep svd cfg rng bs ws bf wf st = ransacStep svd cfg rng' bs ws bf wf st := by
    intro bf wf st
    unfold ransacStep
    rw [hd]
  have hloop : ∀ bf wf fuel st, ransacLoop svd cfg rng bs ws bf wf fuel st = ransacLoop svd cfg rng' bs ws bf wf fuel st := by
    intro bf wf fuel
    induction fuel with
    | zero => intro st; rw [ransacLoop, ransacLoop]
    | succ fuel ih =>
      intro st
      rw [ransacLoop, ransacLoop]
      dsimp only
      simp only [hstep, ih]
  unfold ransac
  simp only [hloop]

theorem noAxis_identity : Spec.NoAxis DQuat.identity := by
  have hu : Spec.IsUnit DQuat.identity := by rw [DQuat.isUnit_iff]; norm_num [Quat.dot, DQuat.identity]
  refine ⟨⟨0, 0, 0⟩, 0, 0, ?_, ?_⟩
  · rw [screwAxis_eq hu]
    norm_num [DQuat.identity]
  · norm_num [Vec3.norm, Vec3.dot]

theorem hasAxis_not_noAxis {a : DQuat} {n : Vec3} (h : Spec.HasAxis a n) : ¬ Spec.NoAxis a := by
  rintro ⟨v, ro, tr, h1, h2⟩
  obtain ⟨v', ro', tr', h3, h4, -⟩ := h
  rw [h1] at h3
  cases h3
  exact absurd h2 (not_le.mpr h4)

/-- Enough poses are left of noise-free data if the first one that moves and a later one turn about different axes. -/
theorem prefilter_mounted {X : DQuat} (hX : Spec.IsUnit X) {bs ws : List DQuat} (hu : ∀ b ∈ bs, Spec.IsUnit b)
    (hm : Spec.Mounted X.conj X bs ws) {b₁ b₂ : DQuat} {still rest : List DQuat}
    (hbs : bs = still ++ b₁ :: rest) (hstill : ∀ b ∈ still, b = DQuat.identity) (hb₂ : b₂ ∈ rest) {s₁ s₂ : ℝ} (hs₁ : 1e-12 < s₁) (hs₂ : 1e-12 < s₂)
    (hv₁ : b₁.rot.x ^ 2 + b₁.rot.y ^ 2 + b₁.rot.z ^ 2 = s₁ ^ 2)
    (hv₂ : b₂.rot.x ^ 2 + b₂.rot.y ^ 2 + b₂.rot.z ^ 2 = s₂ ^ 2)
    (hd : b₁.rot.x * b₂.rot.x + b₁.rot.y * b₂.rot.y + b₁.rot.z * b₂.rot.z ≤ 0.95 * (s₁ * s₂)) :
    ∃ r, prefilterUsingScrewAxis bs ws 0.95 = .ok r := by
  have hws := mounted_iff.mp hm
  have hl : bs.length = ws.length := by rw [hws, List.length_map]
  have huw : ∀ w ∈ ws, Spec.IsUnit w := by
    rw [hws]
    intro w hw
    obtain ⟨b, hb, rfl⟩ := List.mem_map.mp hw
    exact DQuat.isUnit_mul (DQuat.isUnit_mul (DQuat.isUnit_conj hX) (hu b hb)) hX
  have hax : ∀ a, Spec.IsUnit a → ∃ r, a.screwAxis = .ok r := fun a ha => by
    obtain ⟨_, _, _, h, _⟩ := C18_parameters a ha
    exact ⟨_, h⟩
  obtain ⟨idx, i1, i2, i3, i4, i5, i6⟩ := C32_selection bs ws 0.95 hl (fun a ha => hax a (hu a ha))
    fun a ha => hax a (huw a ha)
  by_cases h2 : 2 ≤ idx.length
  · obtain ⟨x, y, h, -⟩ := i5 h2
    exact ⟨_, h⟩
  exfalso
  -- where the two poses are
  obtain ⟨k, hk, hkb⟩ := List.mem_iff_getElem.mp hb₂
  obtain ⟨t, ht⟩ : ∃ t, t = still.length := ⟨_, rfl⟩
  have e1 : bs[t]? = some b₁ := by rw [hbs, ht]; simp
  have e2 : bs[t + (k + 1)]? = some b₂ := by
    rw [hbs, ht, List.getElem?_append_right (by omega), Nat.add_sub_cancel_left]
    simp [List.getElem?_eq_getElem hk, hkb]
  have hwk : ∀ {i : ℕ} {b : DQuat}, bs[i]? = some b → ws[i]? = some (X.conj * b * X) := by
    intro i b h
    rw [hws, List.getElem?_map, h]
    rfl
  have hmem : ∀ {i : ℕ} {b : DQuat}, bs[i]? = some b → b ∈ bs := fun h => List.mem_of_getElem? h
  have hXr := DQuat.IsUnit.rot hX
  have hnorm : ∀ b : DQuat, (X.conj * b * X).rot.x ^ 2 + (X.conj * b * X).rot.y ^ 2 + (X.conj * b * X).rot.z ^ 2 =
      b.rot.x ^ 2 + b.rot.y ^ 2 + b.rot.z ^ 2 := by
    intro b
    have h1 : (X.conj * b * X).rot.dot (X.conj * b * X).rot = X.rot.dot X.rot * b.rot.dot b.rot * X.rot.dot X.rot := by
      simp only [DQuat.mul_rot, DQuat.conj_rot, Quat.mul_w, Quat.mul_x, Quat.mul_y, Quat.mul_z, Quat.conj_x, Quat.conj_y,
        Quat.conj_z, Quat.conj_w, Quat.dot]
      ring
    have h2 := conjugated_w (a := b) hX
    rw [hXr, one_mul, mul_one, Quat.dot, Quat.dot, h2] at h1
    linear_combination h1
  have hdot : ∀ a b : DQuat, (X.conj * a * X).rot.x * (X.conj * b * X).rot.x +
      (X.conj * a * X).rot.y * (X.conj * b * X).rot.y + (X.conj * a * X).rot.z * (X.conj * b * X).rot.z =
      a.rot.x * b.rot.x + a.rot.y * b.rot.y + a.rot.z * b.rot.z := by
    intro a b
    have h1 : (X.conj * a * X).rot.dot (X.conj * b * X).rot = X.rot.dot X.rot * a.rot.dot b.rot * X.rot.dot X.rot := by
      simp only [DQuat.mul_rot, DQuat.conj_rot, Quat.mul_w, Quat.mul_x, Quat.mul_y, Quat.mul_z, Quat.conj_x, Quat.conj_y,
        Quat.conj_z, Quat.conj_w, Quat.dot]
      ring
    have h2 := conjugated_w (a := a) hX
    have h3 := conjugated_w (a := b) hX
    rw [hXr, one_mul, mul_one, Quat.dot, Quat.dot, h2, h3] at h1
    linear_combination h1
  have a1 := hasAxis_rotation (hu _ (hmem e1)) hs₁ hv₁
  have a2 := hasAxis_rotation (hu _ (hmem e2)) hs₂ hv₂
  have w1 := hasAxis_rotation (huw _ (List.mem_of_getElem? (hwk e1))) hs₁ (by rw [hnorm]; exact hv₁)
  have w2 := hasAxis_rotation (huw _ (List.mem_of_getElem? (hwk e2))) hs₂ (by rw [hnorm]; exact hv₂)
  have hp₁ : 0 < s₁ := lt_trans (by norm_num) hs₁
  have hp₂ : 0 < s₂ := lt_trans (by norm_num) hs₂
  have hdeg : ∀ {i : ℕ} {b : DQuat} {n m : Vec3}, bs[i]? = some b → Spec.HasAxis b n → Spec.HasAxis (X.conj * b * X) m →
      ¬ Spec.Degenerate bs ws i := by
    rintro i b n m h hn hm' ⟨w, v, d1, d2, d3⟩
    rw [h] at d1
    rw [hwk h] at d2
    cases d1; cases d2
    rcases d3 with d3 | d3
    · exact hasAxis_not_noAxis hn d3
    · exact hasAxis_not_noAxis hm' d3
  have hlt1 : t < bs.length := (List.getElem?_eq_some_iff.mp e1).1
  have hlt2 : t + (k + 1) < bs.length := (List.getElem?_eq_some_iff.mp e2).1
  have h0 : ∀ i < t, i ∉ idx := by
    intro i hit h
    obtain ⟨w, b, n, m, u1, u2, u3, u4⟩ := i2 i h
    rw [hbs, List.getElem?_append_left (by omega)] at u1
    rw [hstill _ (List.mem_of_getElem? u1)] at u3
    exact hasAxis_not_noAxis u3 noAxis_identity
  have hin1 : t ∈ idx := by
    by_contra hcon
    rcases i4 t hlt1 hcon with h | ⟨i, hi, hi1, -⟩
    · exact hdeg e1 a1 w1 h
    · exact h0 i hi1 hi
  have hclose : ¬ Spec.Close 0.95 bs ws t (t + (k + 1)) := by
    rintro ⟨w, b, w', b', n, m, n', m', c1, c2, c3, c4, c5, c6, c7, c8, c9⟩
    rw [e1] at c1; rw [hwk e1] at c2; rw [e2] at c3; rw [hwk e2] at c4
    cases c1; cases c2; cases c3; cases c4
    rw [hasAxis_unique c5 a1, hasAxis_unique c6 w1, hasAxis_unique c7 a2, hasAxis_unique c8 w2] at c9
    dsimp only at c9
    have hq : ∀ x y z x' y' z' : ℝ, x / s₁ * (x' / s₂) + y / s₁ * (y' / s₂) + z / s₁ * (z' / s₂) =
        (x * x' + y * y' + z * z') / (s₁ * s₂) := by
      intro x y z x' y' z'
      field_simp
    rw [hq, hq, hdot, or_self, lt_div_iff₀ (mul_pos hp₁ hp₂)] at c9
    linarith
  have hin2 : t + (k + 1) ∈ idx := by
    by_contra hcon
    rcases i4 (t + (k + 1)) hlt2 hcon with h | ⟨i, hi, -, hc⟩
    · exact hdeg e2 a2 w2 h
    · have : i = t := by
        by_contra hne
        apply h2
        have hsub : [i, t] ⊆ idx := by simp [hi, hin1]
        exact (List.subperm_of_subset (by simp [hne]) hsub).length_le
      exact hclose (this ▸ hc)
  apply h2
  have hsub : [t, t + (k + 1)] ⊆ idx := by simp [hin1, hin2]
  exact (List.subperm_of_subset (by simp) hsub).length_le

theorem startsTurning_axes {A : List Pose} (h : Spec.StartsTurning A) : Spec.TwoTurnAxes A := by
  obtain ⟨p₀, p₁, still, rest, p₂, s₁, s₂, rfl, -, hp₂, hs₁, hs₂, v1, v2, hd⟩ := h
  refine ⟨p₀, by simp, p₁, by simp, p₂, by simp [hp₂], ?_⟩
  change Spec.cross (Spec.turn p₀ p₁) (Spec.turn p₀ p₂) ≠ _
  intro h0
  rw [cross_eq_zero] at h0
  generalize Spec.turn p₀ p₁ = u at *
  generalize Spec.turn p₀ p₂ = v at *
  obtain ⟨c1, c2, c3⟩ := h0
  have hp₁ : 0 < s₁ := lt_trans (by norm_num) hs₁
  have hp₂ : 0 < s₂ := lt_trans (by norm_num) hs₂
  have hpos := mul_pos hp₁ hp₂
  -- Lagrange's identity
  have hL : (u.x * v.x + u.y * v.y + u.z * v.z) ^ 2 = (s₁ * s₂) ^ 2 := by
    have : (u.x * v.x + u.y * v.y + u.z * v.z) ^ 2 = (u.x ^ 2 + u.y ^ 2 + u.z ^ 2) * (v.x ^ 2 + v.y ^ 2 + v.z ^ 2) -
        ((u.y * v.z - u.z * v.y) ^ 2 + (u.z * v.x - u.x * v.z) ^ 2 + (u.x * v.y - u.y * v.x) ^ 2) := by ring
    rw [this, c1, c2, c3, v1, v2]
    ring
  have h1 := sq_abs (u.x * v.x + u.y * v.y + u.z * v.z)
  rw [hL] at h1
  have h2 : |u.x * v.x + u.y * v.y + u.z * v.z| = s₁ * s₂ :=
    (pow_left_inj₀ (abs_nonneg _) hpos.le two_ne_zero).mp h1
  rw [h2] at hd
  linarith

/-- C72: on exact data of at least ten poses the script ends normally (with a suitable one of the correct linear algebra
libraries, see C28). -/
theorem C72_succeeds : ∃ svd : Svd, (∀ T s V, svd T = .ok (s, V) → Spec.IsSVD T s V) ∧
    ∀ (g X : DQuat), Spec.IsUnit g → Spec.IsUnit X → X.rot.w ≠ 0 → ∀ A B : List Pose, (∀ p ∈ A, p.q.norm = 1) →
      (∀ p ∈ B, p.q.norm = 1) → Spec.SameBodyPoses g X A B → 10 ≤ A.length →
      (∀ p₀, A.head? = some p₀ → ∀ p ∈ A, ¬ Spec.HalfTurn p₀ p) → Spec.StartsTurning A →
      ∃ fuel, ∀ (rng : ℕ → List ℕ) (args : ScriptArgs), Given args.aligned_poses_B_H args.aligned_poses_H_B A →
        Given args.aligned_poses_W_E args.aligned_poses_E_W B →
        (args.calibration_output = true → args.time_offset_input.isSome) →
        ∃ out, calibrationScript svd rng fuel args = .ok (some out) := by
  obtain ⟨svd, hv, hgood⟩ := exists_good_svd
  refine ⟨svd, hv, ?_⟩
  intro g X hg hX hXw A B hA hB h hlen hne hst
  have h2 := startsTurning_axes hst
  obtain ⟨bs, ws, d1, d2, d3, d4, d5⟩ := script_data hg hX hA hB h hne h2
  have hub : ∀ b ∈ A.map DQuat.fromPose, Spec.IsUnit b := by
    intro b hb
    obtain ⟨p, hp, rfl⟩ := List.mem_map.mp hb
    exact fromPose_isUnit (hA p hp)
  obtain ⟨p₀, p₁, still, rest, p₂, s₁, s₂, rfl, hstill, hp₂, hs₁, hs₂, v1, v2, hd⟩ := hst
  have hal := align_unit (v := (p₀ :: (still ++ p₁ :: rest)).map DQuat.fromPose)
    (pyPos_natCast (n := ((p₀ :: (still ++ p₁ :: rest)).map DQuat.fromPose).length) (k := 0) (by simp)) hub true
  have hal' : alignPathsAtIndex ((p₀ :: (still ++ p₁ :: rest)).map DQuat.fromPose) = _ := hal
  rw [d4] at hal'
  have hbs := Except.ok.inj hal'
  simp only [List.rotate_zero, List.map_cons, List.map_append, List.getElem_cons_zero] at hbs
  have hn0 := hA p₀ (by simp)
  rw [rebase_self (fromPose_isUnit hn0)] at hbs
  have hrot : ∀ p ∈ p₀ :: (still ++ p₁ :: rest), ∃ e : ℝ, (e = 1 ∨ e = -1) ∧
      (rebase (DQuat.fromPose p₀).conj true (DQuat.fromPose p)).rot.x = e * (Spec.turn p₀ p).x ∧
      (rebase (DQuat.fromPose p₀).conj true (DQuat.fromPose p)).rot.y = e * (Spec.turn p₀ p).y ∧
      (rebase (DQuat.fromPose p₀).conj true (DQuat.fromPose p)).rot.z = e * (Spec.turn p₀ p).z := by
    intro p hp
    have ht : Spec.turn p₀ p = ((DQuat.fromPose p₀).conj * DQuat.fromPose p).rot.vec := by
      unfold Spec.turn
      rw [← relative_toH hn0 (hA p hp)]
      rfl
    rw [ht]
    rcases rebase_eq_or (DQuat.fromPose p₀).conj (DQuat.fromPose p) true with h | h <;> rw [h]
    · exact ⟨1, Or.inl rfl, by simp [Quat.vec], by simp [Quat.vec], by simp [Quat.vec]⟩
    · exact ⟨-1, Or.inr rfl, by simp [Quat.vec], by simp [Quat.vec], by simp [Quat.vec]⟩
  obtain ⟨f₁, hf₁, x1, y1, z1⟩ := hrot p₁ (by simp)
  obtain ⟨f₂, hf₂, x2, y2, z2⟩ := hrot p₂ (by simp [hp₂])
  have hsq : ∀ {e : ℝ}, (e = 1 ∨ e = -1) → e ^ 2 = 1 := by rintro e (rfl | rfl) <;> norm_num
  have hstill' : ∀ b ∈ DQuat.identity :: (still.map DQuat.fromPose).map (rebase (DQuat.fromPose p₀).conj true),
      b = DQuat.identity := by
    intro b hb
    rcases List.mem_cons.mp hb with rfl | hb
    · rfl
    · rw [List.map_map] at hb
      obtain ⟨p, hp, rfl⟩ := List.mem_map.mp hb
      have hnp := hA p (by simp [hp])
      rcases motion_ext (fromPose_isUnit hnp) (fromPose_isUnit hn0) (fun x => by
        rw [← poseMotion_eq hnp, ← poseMotion_eq hn0, hstill p hp]) with e | e
      · simp only [Function.comp_apply, e]
        exact rebase_self (fromPose_isUnit hn0) true
      · simp only [Function.comp_apply, e, rebase, mul_neg, DQuat.conj_mul_unit (fromPose_isUnit hn0)]
        rw [if_pos trivial, if_pos (by simp), neg_neg]
        rfl
  have hpre := prefilter_mounted hX d1 d2 (still := DQuat.identity :: (still.map DQuat.fromPose).map
      (rebase (DQuat.fromPose p₀).conj true)) hbs hstill' (b₂ := rebase (DQuat.fromPose p₀).conj true (DQuat.fromPose p₂))
    (by
      rw [List.map_map]
      exact List.mem_map_of_mem (f := rebase (DQuat.fromPose p₀).conj true ∘ DQuat.fromPose) hp₂)
    hs₁ hs₂ (by rw [x1, y1, z1]; linear_combination v1 * f₁ ^ 2 + s₁ ^ 2 * hsq hf₁)
    (by rw [x2, y2, z2]; linear_combination v2 * f₂ ^ 2 + s₂ ^ 2 * hsq hf₂)
    (by
      rw [x1, y1, z1, x2, y2, z2]
      have habs := abs_le.mp hd
      have hff : f₁ * f₂ = 1 ∨ f₁ * f₂ = -1 := by
        rcases hf₁ with rfl | rfl <;> rcases hf₂ with rfl | rfl <;> norm_num
      rcases hff with hff | hff
      · nlinarith [habs.2]
      · nlinarith [habs.1])
  obtain ⟨⟨bf, wf⟩, hpre⟩ := hpre
  have hbl : bs.length = (p₀ :: (still ++ p₁ :: rest)).length := by rw [hbs]; simp
  have hl : bs.length = ws.length := by rw [mounted_iff.mp d2, List.length_map]
  have huw : ∀ w ∈ ws, Spec.IsUnit w := by
    rw [mounted_iff.mp d2]
    intro w hw
    obtain ⟨b, hb, rfl⟩ := List.mem_map.mp hw
    exact DQuat.isUnit_mul (DQuat.isUnit_mul (DQuat.isUnit_conj hX) (d1 b hb)) hX
  obtain ⟨bf', wf', hpre', l1, l2, -⟩ | hpre' := C32_unit_trajectories bs ws 0.95 hl d1 huw
  swap
  · rw [hpre] at hpre'; cases hpre'
  have hcfg : getExhaustiveSearchScalarPartInliersConfig.config.prefilter_dot_product_threshold = 0.95 := rfl
  have hfil : filteredPoses getExhaustiveSearchScalarPartInliersConfig.config bs ws = .ok (bf', wf') := by
    unfold filteredPoses
    rw [if_pos (by rfl), hcfg, hpre', Py.ok_bind, pyAssert_pos l1.symm, Py.ok_bind]
    rfl
  have hgX := DQuat.isUnit_conj hX
  obtain ⟨r, r1, r2⟩ := C61_succeeds svd hv (fun _ => [0]) getExhaustiveSearchScalarPartInliersConfig.config rfl
    (by norm_num [getExhaustiveSearchScalarPartInliersConfig, getBasicConfig])
    (by norm_num [getExhaustiveSearchScalarPartInliersConfig, getBasicConfig])
    (by norm_num [getExhaustiveSearchScalarPartInliersConfig, getBasicConfig])
    (by norm_num [getExhaustiveSearchScalarPartInliersConfig, getBasicConfig])
    (by norm_num [getExhaustiveSearchScalarPartInliersConfig, getBasicConfig])
    (by norm_num [getExhaustiveSearchScalarPartInliersConfig, getBasicConfig]) X.conj X hgX hX hXw bs ws d1 d2 d3
    (by rw [hbl]; exact hlen)
    (by rw [hbl]; simp [getExhaustiveSearchScalarPartInliersConfig, getBasicConfig])
    (by
      intro k hk B' W' hB' hW'
      obtain ⟨B'', W'', e1, e2, e3, -, e5, -, e7, -⟩ := mounted_align hgX hX d1 d2 hk
      rw [hB'] at e1
      rw [hW'] at e2
      cases e1
      cases e2
      refine hgood B' W' X hX hXw e5 ?_ e7 _ (by norm_num [getExhaustiveSearchScalarPartInliersConfig, getBasicConfig])
      obtain ⟨b₁, hb₁, b₂, hb₂, hne⟩ := twoAxes_any_base d1 d3 (List.getElem_mem hk)
      rw [e3, List.map_rotate]
      exact ⟨b₁, List.mem_rotate.mpr hb₁, b₂, List.mem_rotate.mpr hb₂, hne⟩)
    bf' wf' hfil (by change 1 ≤ _; omega)
    (fun _ => ⟨rfl, by simp, by simp; omega⟩)
  generalize (if getExhaustiveSearchScalarPartInliersConfig.config.enable_exhaustive_search = true then _ else _ : ℕ) =
    fuel at r1
  refine ⟨fuel, fun rng args g1 g2 ht => ?_⟩
  rw [d5 svd rng fuel args g1 g2 ht, ransac_rng svd rng (fun _ => [0]) _ rfl, r1, Py.ok_bind]
  obtain ⟨dq, q1, q2, q3, -⟩ := C61_noise_free svd hv _ _ rfl
    (by norm_num [getExhaustiveSearchScalarPartInliersConfig, getBasicConfig]) X.conj X hgX hX hXw bs ws d1 d2 d3 _ r r1 r2
  obtain ⟨out, o1, -⟩ := outputs_of_result (args := args) hX hXw q1 q2 q3
  exact ⟨out, o1⟩

/-! ## An example: ten poses, with the second table given by inverses -/

noncomputable def scriptA : List Pose :=
  [⟨⟨0, 0, 0⟩, ⟨0, 0, 0, 1⟩⟩, ⟨⟨1, 0, 0⟩, ⟨0.6, 0, 0, 0.8⟩⟩, ⟨⟨0, 0, 0⟩, ⟨0, 0.6, 0, 0.8⟩⟩] ++
    List.replicate 7 ⟨⟨0, 0, 0⟩, ⟨0, 0, 0, 1⟩⟩

noncomputable def scriptB : List Pose :=
  [⟨⟨0, 0, 2⟩, ⟨0, 0, 0.6, 0.8⟩⟩, ⟨⟨1, -1.92, 0.56⟩, ⟨0.48, -0.36, 0.48, 0.64⟩⟩,
    ⟨⟨1.92, 0, 0.56⟩, ⟨0.36, 0.48, 0.48, 0.64⟩⟩] ++ List.replicate 7 ⟨⟨0, 0, 2⟩, ⟨0, 0, 0.6, 0.8⟩⟩

/-- A turn about z and a shift by two along z. -/
noncomputable def scriptX : DQuat := ⟨⟨0, 0, 0.6, 0.8⟩, ⟨0, 0, 0.8, -0.6⟩⟩

theorem poseMotion_coords (p : Pose) (h : p.q.norm = 1) (x : Vec3) :
    Spec.poseMotion p x = (p.q * Quat.ofVec x * p.q.conj).vec + p.pos := by
  rw [poseMotion_eq h, motion_fromPose (Quat.norm_eq_one.mp h)]

theorem script_example : (∀ p ∈ scriptA, p.q.norm = 1) ∧ (∀ p ∈ scriptB, p.q.norm = 1) ∧ Spec.IsUnit scriptX ∧
    Spec.SameBodyPoses 1 scriptX scriptA scriptB ∧
    (∀ p₀, scriptA.head? = some p₀ → ∀ p ∈ scriptA, ¬ Spec.HalfTurn p₀ p) ∧ Spec.StartsTurning scriptA := by
  have n1 : ∀ p ∈ scriptA, p.q.norm = 1 := by
    simp only [scriptA, List.forall_mem_append, List.forall_mem_cons, List.mem_replicate]
    refine ⟨⟨?_, ?_, ?_, by simp⟩, ?_⟩
    · rw [Quat.norm_eq_one]; norm_num [Quat.dot]
    · rw [Quat.norm_eq_one]; norm_num [Quat.dot]
    · rw [Quat.norm_eq_one]; norm_num [Quat.dot]
    · rintro p ⟨-, rfl⟩; rw [Quat.norm_eq_one]; norm_num [Quat.dot]
  have n2 : ∀ p ∈ scriptB, p.q.norm = 1 := by
    simp only [scriptB, List.forall_mem_append, List.forall_mem_cons, List.mem_replicate]
    refine ⟨⟨?_, ?_, ?_, by simp⟩, ?_⟩
    · rw [Quat.norm_eq_one]; norm_num [Quat.dot]
    · rw [Quat.norm_eq_one]; norm_num [Quat.dot]
    · rw [Quat.norm_eq_one]; norm_num [Quat.dot]
    · rintro p ⟨-, rfl⟩; rw [Quat.norm_eq_one]; norm_num [Quat.dot]
  have hX : Spec.IsUnit scriptX := by rw [DQuat.isUnit_iff]; norm_num [Quat.dot, scriptX]
  refine ⟨n1, n2, hX, ?_, ?_, ?_⟩
  · have h1 : ∀ x, Spec.motion 1 x = x := fun x => by
      rw [DQuat.motion_eq]
      ext <;> simp [Quat.dot]
    have hm : ∀ x, Spec.motion scriptX x =
        (scriptX.rot * Quat.ofVec x * scriptX.rot.conj).vec + (((2 : ℝ) • scriptX.dual) * scriptX.rot.conj).vec :=
      motion_rot_unit (DQuat.IsUnit.rot hX)
    have key : ∀ p q : Pose, p.q.norm = 1 → q.q.norm = 1 →
        (∀ x, (q.q * Quat.ofVec x * q.q.conj).vec + q.pos = (p.q * Quat.ofVec ((scriptX.rot * Quat.ofVec x *
          scriptX.rot.conj).vec + (((2 : ℝ) • scriptX.dual) * scriptX.rot.conj).vec) * p.q.conj).vec + p.pos) →
        ∀ x, Spec.poseMotion q x = Spec.motion 1 (Spec.poseMotion p (Spec.motion scriptX x)) := by
      intro p q hp hq h x
      rw [h1, hm, poseMotion_coords _ hp, poseMotion_coords _ hq, h]
    have k0 : ∀ x, Spec.poseMotion ⟨⟨0, 0, 2⟩, ⟨0, 0, 0.6, 0.8⟩⟩ x =
        Spec.motion 1 (Spec.poseMotion ⟨⟨0, 0, 0⟩, ⟨0, 0, 0, 1⟩⟩ (Spec.motion scriptX x)) :=
      key _ _ (n1 _ (by simp [scriptA])) (n2 _ (by simp [scriptB])) fun x => by
        ext <;> simp [scriptX] <;> ring
    refine .cons k0 (.cons ?_ (.cons ?_ ?_))
    · exact key _ _ (n1 _ (by simp [scriptA])) (n2 _ (by simp [scriptB])) fun x => by
        ext <;> simp [scriptX] <;> ring
    · exact key _ _ (n1 _ (by simp [scriptA])) (n2 _ (by simp [scriptB])) fun x => by
        ext <;> simp [scriptX] <;> ring
    · exact .cons k0 (.cons k0 (.cons k0 (.cons k0 (.cons k0 (.cons k0 (.cons k0 .nil))))))
  · intro p₀ hp₀ p hp
    cases hp₀
    simp only [scriptA, List.mem_append, List.mem_cons, List.mem_replicate, List.not_mem_nil, or_false] at hp
    unfold Spec.HalfTurn
    rcases hp with (rfl | rfl | rfl) | ⟨-, rfl⟩ <;> rw [Quaternion.re_mul] <;> simp only [Quaternion.re_star, Quaternion.imI_star,
      Quaternion.imJ_star, Quaternion.imK_star] <;> norm_num [Quat.toH]
  · refine ⟨_, _, [], _, ⟨⟨0, 0, 0⟩, ⟨0, 0.6, 0, 0.8⟩⟩, 0.6, 0.6, rfl, by simp, List.mem_cons_self, by norm_num, by norm_num, ?_, ?_, ?_⟩
    all_goals
      simp only [Spec.turn, Spec.imPart, Quaternion.imI_mul, Quaternion.imJ_mul, Quaternion.imK_mul, Quaternion.re_star,
        Quaternion.imI_star, Quaternion.imJ_star, Quaternion.imK_star]
      norm_num [Quat.toH]

noncomputable def scriptArgs (T T' : List StampedPose) : ScriptArgs where
  aligned_poses_B_H := some T
  aligned_poses_E_W := some T'
  extrinsics_output := true
  time_offset_input := some 3
  calibration_output := true

/-- The script recovers the transform, from the poses of the body and the inverse poses of the sensor. -/
example (T T' : List StampedPose) (hT : T.map StampedPose.pose = scriptA) (hn : ∀ p ∈ T', p.pose.q.norm = 1)
    (hi : Spec.Inverses scriptB (T'.map StampedPose.pose)) :
    ∃ svd fuel out P f, calibrationScript svd (fun _ => []) fuel (scriptArgs T T') = .ok (some out) ∧ out.extrinsics = some P ∧ 0 < P.q.w ∧
      (∀ x, Spec.poseMotion P x = Spec.motion scriptX x) ∧ out.calibration = some f ∧ f.delay = 3 := by
  obtain ⟨svd, hv, hs⟩ := C72_succeeds
  obtain ⟨e1, e2, e3, e4, e5, e6⟩ := script_example
  have h1 : Spec.IsUnit (1 : DQuat) := by rw [DQuat.isUnit_iff]; norm_num [Quat.dot]
  have hw : scriptX.rot.w ≠ 0 := by norm_num [scriptX]
  obtain ⟨fuel, hf⟩ := hs 1 scriptX h1 e3 hw scriptA scriptB e1 e2 e4 (by simp [scriptA]) e5 e6
  have g1 : Given (some T) none scriptA := Or.inl ⟨T, rfl, rfl, hT⟩
  have g2 : Given none (some T') scriptB := Or.inr ⟨T', rfl, rfl, hn, hi⟩
  obtain ⟨out, ho⟩ := hf (fun _ => []) (scriptArgs T T') g1 g2 (fun _ => rfl)
  obtain ⟨o1, o2⟩ := C72_noise_free svd hv _ fuel 1 scriptX h1 e3 hw scriptA scriptB e1 e2 e4 e5 (startsTurning_axes e6)
    _ g1 g2 out ho
  obtain ⟨P, p1, -, p3, p4⟩ := o1 rfl
  obtain ⟨f, f1, f2, -⟩ := o2 rfl
  exact ⟨svd, fuel, out, P, f, ho, p1, p3, p4, f1, Option.some.inj f2⟩

end HandEye
