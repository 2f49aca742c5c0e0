import Verif.Lemmas.Align
import Verif.Spec.HandEye
import Verif.Props.DualQuat1
import Verif.Props.DualQuat3
import Mathlib.Tactic.NoncommRing

/-! # Properties C21-C23: aligning trajectories -/

namespace HandEye

theorem pyPos_of_names {n k : ℕ} {i : ℤ} (h : Spec.Names n i k) : pyPos n i = some k := by
  obtain ⟨h1, h2 | h2⟩ := h
  · subst h2; exact pyPos_natCast h1
  · unfold pyPos
    rw [if_neg (by omega), if_pos (by omega)]
    congr 1
    omega

/-- C21.  On a trajectory of unit dual quaternions, at any valid index, aligning succeeds.  The result
has the same length, starts with the identity, and its j-th element stands for the motion of the
cyclically j-th pose after the alignment pose, seen from the alignment pose; scalar parts are
non-negative (with the default flag); relative motions are those of the input. -/
theorem C21_align (v : List DQuat) (hu : ∀ a ∈ v, Spec.IsUnit a) (i : ℤ) (k : ℕ)
    (hi : Spec.Names v.length i k) (enf : Bool) :
    ∃ r, alignPathsAtIndex v i enf = .ok r ∧ ∃ hl : r.length = v.length,
      (∃ h0 : 0 < r.length, r[0] = ⟨⟨0, 0, 0, 1⟩, ⟨0, 0, 0, 0⟩⟩) ∧
      (∀ j (hj : j < r.length), Spec.IsUnit r[j] ∧ (enf = true → 0 ≤ r[j].rot.w) ∧
        ∀ x, Spec.motion (v[k]'hi.1) (Spec.motion r[j] x) =
          Spec.motion (v[(k + j) % v.length]'(Nat.mod_lt _ (by omega))) x) ∧
      (∀ j₁ j₂ (h₁ : j₁ < r.length) (h₂ : j₂ < r.length) (x y : Vec3),
        Spec.motion r[j₁] x = Spec.motion r[j₂] y ↔
          Spec.motion (v[(k + j₁) % v.length]'(Nat.mod_lt _ (by omega))) x =
          Spec.motion (v[(k + j₂) % v.length]'(Nat.mod_lt _ (by omega))) y) := by
  have hp := pyPos_of_names hi
  have hk := hi.1
  have hku := hu _ (List.getElem_mem hk)
  have hc := DQuat.isUnit_conj hku
  refine ⟨_, align_unit hp hu enf, by simp, ⟨by simp; omega, ?_⟩, ?_, ?_⟩
  · simp only [List.getElem_map, List.getElem_rotate, Nat.zero_add, Nat.mod_eq_of_lt hk]
    exact rebase_self hku enf
  · intro j hj
    simp only [List.getElem_map, List.getElem_rotate]
    refine ⟨rebase_unit hc (hu _ (List.getElem_mem _)) enf, ?_, ?_⟩
    · rintro rfl; exact rebase_w_nonneg _ _
    · intro x
      rw [motion_rebase hc (hu _ (List.getElem_mem _)), DQuat.motion_motion_conj hku]
      simp only [add_comm j k]
  · intro j₁ j₂ h₁ h₂ x y
    simp only [List.getElem_map, List.getElem_rotate]
    rw [motion_rebase hc (hu _ (List.getElem_mem _)), motion_rebase hc (hu _ (List.getElem_mem _))]
    simp only [add_comm _ k]
    constructor
    · intro h
      have := congrArg (Spec.motion v[k]) h
      rwa [DQuat.motion_motion_conj hku, DQuat.motion_motion_conj hku] at this
    · intro h; rw [h]

/-- C21, the indices: Python accepts exactly these, any other index raises. -/
theorem C21_bad_index (v : List DQuat) (i : ℤ) (enf : Bool) (h : ¬ ∃ k, Spec.Names v.length i k) :
    alignPathsAtIndex v i enf = .error .index := by
  apply align_index_error
  cases hp : pyPos v.length i with
  | none => rfl
  | some k =>
    obtain ⟨h1, h2⟩ := pyPos_some hp
    exact absurd ⟨k, h1, by omega⟩ h

example : (∀ a ∈ [(⟨⟨0, 0, 0.6, 0.8⟩, ⟨0.8, 0, 0, 0⟩⟩ : DQuat), ⟨⟨0, 1, 0, 0⟩, ⟨3, 0, 0, 1⟩⟩],
    Spec.IsUnit a) ∧ Spec.Names 2 (-1) 1 := by
  refine ⟨?_, by unfold Spec.Names; omega⟩
  intro a ha
  simp only [List.mem_cons, List.not_mem_nil, or_false] at ha
  rcases ha with rfl | rfl <;> rw [DQuat.isUnit_iff] <;> norm_num [Quat.dot]

theorem rot_norm_mul {g a : DQuat} (hg : Spec.IsUnit g) : (g * a).rot.norm = a.rot.norm := by
  rw [DQuat.mul_rot, Quat.norm_mul, DQuat.IsUnit.norm hg, one_mul]

theorem inv'_mul_unit {g a : DQuat} (hg : Spec.IsUnit g) (ha : a.rot.dot a.rot ≠ 0) :
    (g * a).inv' = a.inv' * g.conj := by
  have hi : (g.rot * a.rot).inv' = a.rot.inv' * g.rot.conj := by
    rw [Quat.inv', Quat.dot_mul_mul, DQuat.IsUnit.rot hg, one_mul,
      Quat.conj_mul_rev, Quat.inv', Quat.smul_mul]
  have hc := DQuat.cross_conj' g.rot g.dual
  rw [DQuat.IsUnit.orth hg, mul_zero, zero_smul] at hc
  have hc' : g.rot.conj * g.dual = -(g.dual.conj * g.rot) := eq_neg_of_add_eq_zero_left hc
  have hu := Quat.mul_conj_unit (DQuat.IsUnit.rot hg)
  have hu' := Quat.conj_mul_unit (DQuat.IsUnit.rot hg)
  have hai := Quat.mul_inv' ha
  apply DQuat.ext'
  · exact hi
  · simp only [DQuat.inv', DQuat.mul_dual, DQuat.mul_rot, DQuat.conj_rot, DQuat.conj_dual, hi]
    generalize a.rot.inv' = i at *
    calc -(i * g.rot.conj) * (g.rot * a.dual + g.dual * a.rot) * (i * g.rot.conj)
        = -(i * (g.rot.conj * g.rot) * a.dual * i * g.rot.conj)
          - i * (g.rot.conj * g.dual) * (a.rot * i) * g.rot.conj := by noncomm_ring
      _ = -(i * a.dual * i * g.rot.conj) + i * g.dual.conj * (g.rot * g.rot.conj) := by
          rw [hu', hc', hai]; noncomm_ring
      _ = _ := by rw [hu]; noncomm_ring

theorem inverse_mul_unit {g : DQuat} (hg : Spec.IsUnit g) (a : DQuat) :
    (g * a).inverse = (do let i ← a.inverse; return i * g.conj) := by
  by_cases h : a.rot.norm > 1e-8
  · have h' : (g * a).rot.norm > 1e-8 := by rw [rot_norm_mul hg]; exact h
    rw [DQuat.inverse_ok h, DQuat.inverse_ok h', Py.ok_bind]
    exact congrArg _ (inv'_mul_unit hg (DQuat.dot_ne_zero_of_norm h))
  · have h' : ¬ (g * a).rot.norm > 1e-8 := by rw [rot_norm_mul hg]; exact h
    rw [DQuat.inverse_error h, DQuat.inverse_error h', Py.error_bind]

theorem inverse_neg (a : DQuat) : (-a).inverse = (do let i ← a.inverse; return -i) := by
  by_cases h : a.rot.norm > 1e-8
  · have h' : (-a).rot.norm > 1e-8 := by rw [DQuat.neg_rot, Quat.norm_neg]; exact h
    rw [DQuat.inverse_ok h, DQuat.inverse_ok h', Py.ok_bind]
    have : (-a.rot).inv' = -a.rot.inv' := by
      rw [Quat.inv', Quat.dot_neg_neg, Quat.conj_neg, Quat.inv', smul_neg]
    congr 1
    apply DQuat.ext'
    · exact this
    · simp only [DQuat.neg_rot, DQuat.neg_dual, this]
      noncomm_ring
  · have h' : ¬ (-a).rot.norm > 1e-8 := by rw [DQuat.neg_rot, Quat.norm_neg]; exact h
    rw [DQuat.inverse_error h, DQuat.inverse_error h', Py.error_bind]

theorem rebase_gauge {g : DQuat} (hg : Spec.IsUnit g) (i a : DQuat) (enf : Bool) :
    rebase (i * g.conj) enf (g * a) = rebase i enf a := by
  have : i * g.conj * (g * a) = i * a := by
    rw [mul_assoc, ← mul_assoc g.conj, DQuat.conj_mul_unit hg, one_mul]
  unfold rebase
  rw [this]

/-- C22, the world frame: replacing every pose `a` of a trajectory by `g a` for one rigid motion `g`
does not change what aligning returns or raises.  The trajectory is arbitrary. -/
theorem C22_gauge (v : List DQuat) (g : DQuat) (hg : Spec.IsUnit g) (i : ℤ) (enf : Bool) :
    alignPathsAtIndex (v.map (g * ·)) i enf = alignPathsAtIndex v i enf := by
  cases hp : pyPos v.length i with
  | none => rw [align_index_error hp, align_index_error (by rw [List.length_map]; exact hp)]
  | some k =>
    have hp' : pyPos (v.map (g * ·)).length i = some k := by rw [List.length_map]; exact hp
    rw [align_eq hp, align_eq hp']
    simp only [List.getElem_map]
    rw [inverse_mul_unit hg]
    cases hI : (v[k]'(pyPos_some hp).1).inverse with
    | error e => rfl
    | ok j =>
      simp only [Py.ok_bind, Py.pure_eq, rebase_gauge hg, ← List.map_rotate, List.map_map]
      congr 1
      funext _
      congr 2
      funext a
      exact rebase_gauge hg j a enf

theorem inverse_mul_self {a j : DQuat} (h : a.inverse = .ok j) : j * a = 1 := by
  by_cases hn : a.rot.norm > 1e-8
  · rw [DQuat.inverse_ok hn] at h
    cases h
    have h1 := Quat.inv'_mul (DQuat.dot_ne_zero_of_norm hn)
    apply DQuat.ext'
    · exact h1
    · simp only [DQuat.mul_dual, DQuat.one_dual]
      rw [mul_assoc, h1]
      noncomm_ring
  · rw [DQuat.inverse_error hn] at h; cases h

theorem rebase_inverse_self {a j : DQuat} (h : a.inverse = .ok j) (enf : Bool) :
    rebase j enf a = DQuat.identity := by
  unfold rebase
  rw [inverse_mul_self h]
  have : ¬ ((1 : DQuat).rot.w < 0) := by simp
  simp only [if_neg this, ite_self]
  rfl

/-- When `align_paths_at_index` succeeds, and with what: only a bad index or a degenerate alignment
pose can make it fail. -/
theorem align_eq_ok_iff {v : List DQuat} {i : ℤ} {enf : Bool} {r : List DQuat} :
    alignPathsAtIndex v i enf = .ok r ↔
      ∃ k j, ∃ h : pyPos v.length i = some k, (v[k]'(pyPos_some h).1).inverse = .ok j ∧
        r = (v.rotate k).map (rebase j enf) := by
  obtain hp | ⟨k, hp⟩ : pyPos v.length i = none ∨ ∃ k, pyPos v.length i = some k := by
    cases pyPos v.length i <;> simp
  · rw [align_index_error hp]
    constructor
    · intro h; cases h
    · rintro ⟨k, j, h, _⟩; rw [hp] at h; cases h
  · rw [align_eq hp]
    cases hI : (v[k]'(pyPos_some hp).1).inverse with
    | error e =>
      rw [Py.error_bind]
      constructor
      · intro h; cases h
      · rintro ⟨k', j, h, h', _⟩
        obtain rfl := Option.some.inj (hp.symm.trans h)
        rw [hI] at h'; cases h'
    | ok j =>
      rw [Py.ok_bind, rebase_inverse_self hI, pyAssert_pos allclose_identity_self, Py.ok_bind]
      constructor
      · intro h; cases h; exact ⟨k, j, hp, hI, rfl⟩
      · rintro ⟨k', j', h, h', rfl⟩
        obtain rfl := Option.some.inj (hp.symm.trans h)
        rw [hI] at h'
        cases h'
        rfl

theorem sameUpToSign_iff {a b : DQuat} : Spec.SameUpToSign a b ↔ a = b ∨ a = -b := Iff.rfl

theorem rebase_signs {j j' a a' : DQuat} (hj : Spec.SameUpToSign j' j) (ha : Spec.SameUpToSign a' a)
    (enf : Bool) : Spec.SameUpToSign (rebase j' enf a') (rebase j enf a) ∧
      (enf = true → (rebase j enf a).rot.w ≠ 0 → rebase j' enf a' = rebase j enf a) := by
  have hm : j' * a' = j * a ∨ j' * a' = -(j * a) := by
    rcases hj with rfl | hj <;> rcases ha with rfl | ha
    · exact Or.inl rfl
    · right; rw [show a' = -a from ha]; noncomm_ring
    · right; rw [show j' = -j from hj]; noncomm_ring
    · left; rw [show a' = -a from ha, show j' = -j from hj]; noncomm_ring
  rw [sameUpToSign_iff]
  cases enf with
  | false => exact ⟨hm, fun h => by cases h⟩
  | true =>
    simp only [rebase_true]
    rcases hm with hm | hm
    · rw [hm]; exact ⟨Or.inl rfl, fun _ _ => rfl⟩
    · rw [hm]
      by_cases hw : (j * a).rot.w = 0
      · refine ⟨Or.inr ?_, fun _ h => absurd ?_ h⟩
        · rw [posW_of_nonneg hw.ge, posW_of_nonneg]
          rw [DQuat.neg_rot, Quat.neg_w, hw, neg_zero]
        · rw [posW_of_nonneg hw.ge, hw]
      · rw [posW_neg hw]
        exact ⟨Or.inl rfl, fun _ _ => rfl⟩

/-- C22, signs: changing the sign of any elements of a trajectory changes the sign of elements of the
aligned trajectory at most; with the sign rule switched on (the default) only elements with zero scalar
part can change.  The trajectory is arbitrary. -/
theorem C22_signs (v v' : List DQuat) (hs : List.Forall₂ Spec.SameUpToSign v' v) (i : ℤ) (enf : Bool)
    (r : List DQuat) (hr : alignPathsAtIndex v i enf = .ok r) :
    ∃ r', alignPathsAtIndex v' i enf = .ok r' ∧ List.Forall₂ Spec.SameUpToSign r' r ∧
      (enf = true → List.Forall₂ (fun a b => b.rot.w ≠ 0 → a = b) r' r) := by
  obtain ⟨k, j, hp, hI, rfl⟩ := align_eq_ok_iff.mp hr
  have hl := hs.length_eq
  have hk := (pyPos_some hp).1
  have hp' : pyPos v'.length i = some k := by rw [hl]; exact hp
  have hvk : Spec.SameUpToSign v'[k] v[k] := hs.get (by omega) hk
  obtain ⟨j', hj', hjs⟩ : ∃ j', (v'[k]).inverse = .ok j' ∧ Spec.SameUpToSign j' j := by
    rcases hvk with h | h
    · rw [h]; exact ⟨j, hI, Or.inl rfl⟩
    · rw [show v'[k] = -v[k] from h, inverse_neg, hI]
      exact ⟨-j, rfl, Or.inr rfl⟩
  refine ⟨_, align_eq_ok_iff.mpr ⟨k, j', hp', hj', rfl⟩, ?_⟩
  have hrot : List.Forall₂ Spec.SameUpToSign (v'.rotate k) (v.rotate k) := by
    rw [List.rotate_eq_drop_append_take hk.le, List.rotate_eq_drop_append_take (by omega)]
    exact List.rel_append (List.forall₂_drop _ hs) (List.forall₂_take _ hs)
  constructor
  · rw [List.forall₂_map_left_iff, List.forall₂_map_right_iff]
    exact hrot.imp fun a b h => (rebase_signs hjs h enf).1
  · rintro rfl
    rw [List.forall₂_map_left_iff, List.forall₂_map_right_iff]
    exact hrot.imp fun a b h => (rebase_signs hjs h true).2 rfl

/-- C22: an aligned trajectory stays as it is when aligned again at its start. -/
theorem C22_idempotent (v : List DQuat) (i : ℤ) (r : List DQuat)
    (hr : alignPathsAtIndex v i true = .ok r) : alignPathsAtIndex r 0 true = .ok r := by
  obtain ⟨k, j, hp, hI, rfl⟩ := align_eq_ok_iff.mp hr
  have hk := (pyPos_some hp).1
  have hlen : ((v.rotate k).map (rebase j true)).length = v.length := by simp
  have hp0 : pyPos ((v.rotate k).map (rebase j true)).length 0 = some 0 := by
    rw [hlen]; exact pyPos_natCast (k := 0) (by omega)
  have h0 : ((v.rotate k).map (rebase j true))[0]'(pyPos_some hp0).1 = DQuat.identity := by
    simp only [List.getElem_map, List.getElem_rotate, Nat.zero_add, Nat.mod_eq_of_lt hk]
    exact rebase_inverse_self hI true
  have hone : (1 : DQuat).conj = 1 := DQuat.ext' (by ext <;> simp) (by ext <;> simp)
  rw [align_eq_ok_iff]
  refine ⟨0, 1, hp0, ?_, ?_⟩
  · rw [h0, ← DQuat.one_eq, DQuat.inverse_unit DQuat.isUnit_one, hone]
  · rw [List.rotate_zero, List.map_map]
    apply List.map_congr_left
    intro a _
    rw [Function.comp, rebase_true 1, one_mul]
    exact (posW_of_nonneg (rebase_w_nonneg _ _)).symm

example : Spec.IsUnit ⟨⟨0, 0, 0.6, 0.8⟩, ⟨0.8, 0, 0, 0⟩⟩ ∧
    List.Forall₂ Spec.SameUpToSign [⟨⟨0, 0, 0.6, 0.8⟩, ⟨0.8, 0, 0, 0⟩⟩, ⟨⟨-1, 0, 0, -2⟩, ⟨0, -3, 0, 0⟩⟩]
      [⟨⟨0, 0, 0.6, 0.8⟩, ⟨0.8, 0, 0, 0⟩⟩, ⟨⟨1, 0, 0, 2⟩, ⟨0, 3, 0, 0⟩⟩] := by
  constructor
  · rw [DQuat.isUnit_iff]; norm_num [Quat.dot]
  · refine .cons (Or.inl rfl) (.cons (Or.inr ?_) .nil)
    simp

/-- C22: a pose with zero scalar part does change its sign with the sign of the input, so the
statement "by signs at most" cannot be improved to equality. -/
theorem C22_sign_visible :
    ∃ v v' : List DQuat, (∀ a ∈ v, Spec.IsUnit a) ∧ List.Forall₂ Spec.SameUpToSign v' v ∧
      alignPathsAtIndex v 0 ≠ alignPathsAtIndex v' 0 := by
  have hp : pyPos 2 0 = some 0 := rfl
  have hone : (1 : DQuat).conj = 1 := DQuat.ext' (by ext <;> simp) (by ext <;> simp)
  have u : Spec.IsUnit ⟨⟨1, 0, 0, 0⟩, ⟨0, 0, 0, 0⟩⟩ := by
    rw [DQuat.isUnit_iff]; norm_num [Quat.dot]
  refine ⟨[1, ⟨⟨1, 0, 0, 0⟩, ⟨0, 0, 0, 0⟩⟩], [1, -⟨⟨1, 0, 0, 0⟩, ⟨0, 0, 0, 0⟩⟩], ?_,
    .cons (Or.inl rfl) (.cons (Or.inr rfl) .nil), ?_⟩
  · intro a ha
    simp only [List.mem_cons, List.not_mem_nil, or_false] at ha
    rcases ha with rfl | rfl
    · exact DQuat.isUnit_one
    · exact u
  · rw [align_unit (v := [1, ⟨⟨1, 0, 0, 0⟩, ⟨0, 0, 0, 0⟩⟩]) (k := 0) hp,
      align_unit (v := [1, -⟨⟨1, 0, 0, 0⟩, ⟨0, 0, 0, 0⟩⟩]) (k := 0) hp]
    · intro h
      have h := Except.ok.inj h
      simp only [List.rotate_zero, List.map_cons, List.map_nil, List.getElem_cons_zero, hone,
        rebase_true, one_mul, List.cons.injEq, and_true, true_and] at h
      rw [posW_of_nonneg (by simp), posW_of_nonneg (by simp)] at h
      have := congrArg (fun a : DQuat => a.rot.x) h
      simp at this
      norm_num at this
    · intro a ha
      simp only [List.mem_cons, List.not_mem_nil, or_false] at ha
      rcases ha with rfl | rfl
      · exact DQuat.isUnit_one
      · exact DQuat.isUnit_neg u
    · intro a ha
      simp only [List.mem_cons, List.not_mem_nil, or_false] at ha
      rcases ha with rfl | rfl
      · exact DQuat.isUnit_one
      · exact u

theorem handEyeEq_iff {b X w : DQuat} : Spec.HandEyeEq b X w ↔ b * X = X * w := by
  have h := C12_agrees_with_dual_numbers
  unfold Spec.HandEyeEq
  rw [← (h b X 0).2.1, ← (h X w 0).2.1]
  exact ⟨fun e => (h b X 0).1 e, congrArg _⟩

/-- On unit dual quaternions `compute_dual_quaternions_with_offset` computes `W⁻¹ b X`. -/
theorem offset_unit {v : List DQuat} {X W : DQuat} (hu : ∀ a ∈ v, Spec.IsUnit a)
    (hX : Spec.IsUnit X) (hW : Spec.IsUnit W) :
    computeDualQuaternionsWithOffset v X W = .ok (v.map fun b => W.conj * b * X) := by
  unfold computeDualQuaternionsWithOffset
  rw [DQuat.inverse_unit hW, Py.ok_bind]
  apply Py.mapM_ok
  intro b hb
  have h := DQuat.isUnit_mul (DQuat.isUnit_mul (DQuat.isUnit_conj hW) (hu b hb)) hX
  have hn : (W.conj * b * X).rot.norm > 1e-8 := by rw [DQuat.IsUnit.norm h]; norm_num
  rw [DQuat.normalize_unit (DQuat.IsUnit.rot h), Py.ok_bind, DQuat.norm_ok hn, Py.ok_bind,
    DQuat.IsUnit.norm h, pyAssert_pos (npIsclose_self _ (by norm_num))]
  rfl

theorem conj_sandwich_posW {a X : DQuat} (hX : Spec.IsUnit X) :
    posW a * X = X * posW (X.conj * a * X) := by
  have hw : (X.conj * a * X).rot.w = a.rot.w := by
    have := (conj_scalar_parts (a := a) (DQuat.isUnit_conj hX)).1
    rwa [DQuat.conj_conj] at this
  have he : X * (X.conj * a * X) = a * X := by
    rw [← mul_assoc, ← mul_assoc, DQuat.mul_conj_unit hX, one_mul]
  by_cases h : a.rot.w < 0
  · rw [posW_of_neg h, posW_of_neg (by rw [hw]; exact h), mul_neg, he, neg_mul]
  · rw [posW_of_nonneg (not_lt.mp h), posW_of_nonneg (by rw [hw]; exact not_lt.mp h), he]

/-- C23.  If a trajectory is made from another one with a hand-eye transform X and a world offset,
both can be aligned at any valid index, and afterwards every pair satisfies `b X = X w`: exactly, the
signs that aligning chooses always agree. -/
theorem C23_offset_trajectory (v : List DQuat) (hu : ∀ a ∈ v, Spec.IsUnit a) (X W : DQuat)
    (hX : Spec.IsUnit X) (hW : Spec.IsUnit W) (i : ℤ) (k : ℕ) (hi : Spec.Names v.length i k)
    (enf : Bool) :
    ∃ e bs ws, computeDualQuaternionsWithOffset v X W = .ok e ∧
      alignPathsAtIndex v i enf = .ok bs ∧ alignPathsAtIndex e i enf = .ok ws ∧
      bs.length = v.length ∧ List.Forall₂ (fun b w => Spec.HandEyeEq b X w) bs ws := by
  have hp := pyPos_of_names hi
  have hp' : pyPos (v.map fun b => W.conj * b * X).length i = some k := by
    rw [List.length_map]; exact hp
  have hk := hi.1
  have hWc := DQuat.isUnit_conj hW
  have hu' : ∀ a ∈ v.map fun b => W.conj * b * X, Spec.IsUnit a := by
    intro a ha
    obtain ⟨b, hb, rfl⟩ := List.mem_map.mp ha
    exact DQuat.isUnit_mul (DQuat.isUnit_mul hWc (hu b hb)) hX
  refine ⟨_, _, _, offset_unit hu hX hW, align_unit hp hu enf, align_unit hp' hu' enf, by simp, ?_⟩
  rw [List.forall₂_map_left_iff, List.forall₂_map_right_iff, ← List.map_rotate,
    List.forall₂_map_right_iff, List.forall₂_same]
  intro a ha
  rw [handEyeEq_iff]
  simp only [List.getElem_map]
  have hm : (W.conj * v[k] * X).conj * (W.conj * a * X) = X.conj * (v[k].conj * a) * X := by
    rw [DQuat.conj_mul_rev, DQuat.conj_mul_rev, DQuat.conj_conj]
    calc X.conj * (v[k].conj * W) * (W.conj * a * X)
        = X.conj * v[k].conj * (W * W.conj) * a * X := by noncomm_ring
      _ = _ := by rw [DQuat.mul_conj_unit hW]; noncomm_ring
  cases enf with
  | true =>
    rw [rebase_true, rebase_true, hm]
    exact conj_sandwich_posW hX
  | false =>
    rw [rebase_false, rebase_false, hm, ← mul_assoc, ← mul_assoc, DQuat.mul_conj_unit hX, one_mul]

example : Spec.IsUnit ⟨⟨0, 0, 0.6, 0.8⟩, ⟨0.8, 0, 0, 0⟩⟩ ∧ Spec.IsUnit ⟨⟨0, 1, 0, 0⟩, ⟨3, 0, 0, 1⟩⟩ ∧
    Spec.Names 3 2 2 := by
  refine ⟨?_, ?_, by unfold Spec.Names; omega⟩ <;> rw [DQuat.isUnit_iff] <;> norm_num [Quat.dot]

end HandEye
