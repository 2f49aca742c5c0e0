import Verif.Props.HandEye3

/-! # Property C31: the signs of the input dual quaternions -/

namespace HandEye

theorem enforceSameSign_flip {bs ws ws' : List DQuat} (hl : ws'.length = ws.length)
    (h : ∀ (i : ℕ) (w : DQuat), ws[i]? = some w → ws'[i]? = some w ∨
      (ws'[i]? = some (-w) ∧ w.rot.w ≠ 0 ∧ ∃ b : DQuat, bs[i]? = some b ∧ b.rot.w ≠ 0)) :
    enforceSameSign bs ws' = enforceSameSign bs ws := by
  induction bs generalizing ws ws' with
  | nil =>
    rw [enforceSameSign, enforceSameSign]
    congr 1
    apply List.ext_getElem? fun i => ?_
    cases hw : ws[i]? with
    | none =>
      rw [List.getElem?_eq_none_iff] at hw ⊢; omega
    | some w =>
      rcases h i w hw with h' | ⟨_, _, b, hb, _⟩
      · exact h'
      · simp at hb
  | cons b bs ih =>
    cases ws with
    | nil => cases ws' with
      | nil => rfl
      | cons => simp at hl
    | cons w ws => cases ws' with
      | nil => simp at hl
      | cons w' ws' =>
        rw [enforceSameSign, enforceSameSign, ih (ws := ws) (by simpa using hl) (fun i u hu => by
          simpa using h (i + 1) u (by simpa using hu))]
        have h0 := h 0 w rfl
        simp only [List.getElem?_cons_zero, Option.some.injEq] at h0
        rcases h0 with rfl | ⟨rfl, hw, b', rfl, hb⟩
        · rfl
        · congr 1
          funext r
          congr 2
          rcases lt_or_gt_of_ne hw with h1 | h1 <;> rcases lt_or_gt_of_ne hb with h2 | h2
          · rw [if_pos, if_neg, neg_neg]
            · rintro (⟨_, h⟩ | ⟨h, _⟩) <;> linarith
            · right; exact ⟨by rw [DQuat.neg_rot, Quat.neg_w]; linarith, h2⟩
          · rw [if_neg, if_pos]
            · left; exact ⟨h1, h2⟩
            · rw [DQuat.neg_rot, Quat.neg_w]; rintro (⟨h, _⟩ | ⟨_, h⟩) <;> linarith
          · rw [if_neg, if_pos]
            · right; exact ⟨h1, h2⟩
            · rw [DQuat.neg_rot, Quat.neg_w]; rintro (⟨_, h⟩ | ⟨h, _⟩) <;> linarith
          · rw [if_pos, if_neg, neg_neg]
            · rintro (⟨h, _⟩ | ⟨_, h⟩) <;> linarith
            · left; exact ⟨by rw [DQuat.neg_rot, Quat.neg_w]; linarith, h2⟩

/-- C31.  Flipping the signs of eye poses after the first, where both poses of the pair have a
non-zero scalar part, does not change what the solver does: result, failure and the list it leaves
behind are the same.  Partial: for the first pose it does, see `C31_first_pose_refuted`. -/
theorem C31_sign_pattern_partial (svd : Svd) (bs ws ws' : List DQuat) (tol : ℝ)
    (hl : ws'.length = ws.length) (h0 : ws'[0]? = ws[0]?)
    (h : ∀ (i : ℕ) (w : DQuat), ws[i]? = some w → ws'[i]? = some w ∨
      (ws'[i]? = some (-w) ∧ w.rot.w ≠ 0 ∧ ∃ b : DQuat, bs[i]? = some b ∧ b.rot.w ≠ 0)) :
    computeHandEyeCalibration svd bs ws' tol true = computeHandEyeCalibration svd bs ws tol true := by
  have ha : pyAt ws' 0 = pyAt ws 0 := by unfold pyAt; rw [h0]
  unfold computeHandEyeCalibration
  rw [ha, enforceSameSign_flip hl h]
  rfl

example (svd : Svd) (a b c d : DQuat) (hb : b.rot.w = 0.5) (hd : d.rot.w = -0.5) :
    computeHandEyeCalibration svd [a, b] [c, -d] 1e-2 true =
      computeHandEyeCalibration svd [a, b] [c, d] 1e-2 true := by
  refine C31_sign_pattern_partial svd _ _ _ _ rfl rfl ?_
  intro i w hw
  match i with
  | 0 => exact Or.inl hw
  | 1 =>
    simp only [List.getElem?_cons_succ, List.getElem?_cons_zero, Option.some.injEq] at hw
    subst hw
    exact Or.inr ⟨rfl, by rw [hd]; norm_num, b, rfl, by rw [hb]; norm_num⟩
  | i + 2 => simp at hw

/-- C31 is refuted for the first pose: if its sign is flipped, the solver fails an assertion on all
data that starts at the identity, before it looks at the signs. -/
theorem C31_first_pose_refuted (svd : Svd) (bs ws : List DQuat) (tol : ℝ) (enf : Bool)
    (hb : bs.head? = some DQuat.identity) :
    computeHandEyeCalibration svd bs ((-DQuat.identity) :: ws) tol enf = .error .assertion := by
  cases bs with
  | nil => cases hb
  | cons b bs =>
    rw [List.head?_cons, Option.some.injEq] at hb
    subst hb
    unfold computeHandEyeCalibration
    have hid : pyAt (DQuat.identity :: bs) 0 = .ok DQuat.identity := rfl
    have hid' : pyAt ((-DQuat.identity) :: ws) 0 = .ok (-DQuat.identity) := rfl
    rw [hid, hid', Py.ok_bind, pyAssert_pos (allclose_identity_self)]
    change ((pyAssert ((-DQuat.identity).allclose DQuat.identity 1e-8) >>= _) : Py Calibration) = _
    rw [pyAssert_neg]
    · rfl
    · rintro ⟨⟨_, _, _, h⟩, _⟩
      unfold npIsclose at h
      simp only [DQuat.neg_rot, Quat.neg_w, DQuat.identity] at h
      norm_num at h

example (svd : Svd) : (∃ svd' : Svd, ∃ r,
      computeHandEyeCalibration svd' sampleB sampleW 1e-2 true = .ok r) ∧
    computeHandEyeCalibration svd sampleB ((-DQuat.identity) :: sampleW.tail) 1e-2 true
      = .error .assertion := by
  obtain ⟨svd', _, h⟩ := sample_run
  exact ⟨⟨svd', h⟩, C31_first_pose_refuted svd sampleB _ 1e-2 true rfl⟩

end HandEye
