import Verif.Lemmas.Motion
import Verif.Model.HandEye
import Mathlib.Data.List.Rotate

/-! # Lemmas about `align_paths_at_index` -/

namespace HandEye

theorem pyPos_natCast {n k : ℕ} (h : k < n) : pyPos n (k : ℤ) = some k := by
  simp [pyPos, h]

theorem pyPos_some {n k : ℕ} {i : ℤ} (h : pyPos n i = some k) :
    k < n ∧ ((0 ≤ i ∧ i = k) ∨ (i < 0 ∧ (n : ℤ) + i = k)) := by
  unfold pyPos at h
  split_ifs at h <;> simp only [Option.some.injEq] at h <;> omega

theorem pyBound_of_pyPos {n k : ℕ} {i : ℤ} (h : pyPos n i = some k) : pyBound n i = k := by
  obtain ⟨h1, h2⟩ := pyPos_some h
  unfold pyBound
  split_ifs <;> omega

theorem pyGet_some {α : Type} {l : List α} {i : ℤ} {k : ℕ} (h : pyPos l.length i = some k) :
    pyGet l i = .ok (l[k]'(pyPos_some h).1) := by
  have hk := (pyPos_some h).1
  simp [pyGet, h, hk]

theorem pyGet_none {α : Type} {l : List α} {i : ℤ} (h : pyPos l.length i = none) :
    pyGet l i = .error .index := by
  simp [pyGet, h]

theorem pyAt_ok {α : Type} {l : List α} {n : ℕ} (h : n < l.length) : pyAt l n = .ok l[n] := by
  simp [pyAt, h]

theorem pyAt_error {α : Type} {l : List α} {n : ℕ} (h : l.length ≤ n) : pyAt l n = .error .index := by
  simp [pyAt, h]

theorem pyAt_eq_ok {α : Type} {l : List α} {n : ℕ} {a : α} : pyAt l n = .ok a ↔ l[n]? = some a := by
  unfold pyAt
  cases l[n]? <;> simp

namespace DQuat

/-- The value that `inverse` computes. -/
noncomputable def inv' (a : DQuat) : DQuat := ⟨a.rot.inv', (-a.rot.inv') * a.dual * a.rot.inv'⟩

theorem inv'_unit {a : DQuat} (h : Spec.IsUnit a) : a.inv' = a.conj := by
  have hn : a.rot.norm > 1e-8 := by rw [IsUnit.norm h]; norm_num
  have h1 := inverse_unit h
  rw [inverse_ok hn] at h1
  exact Except.ok.inj h1

end DQuat

/-- `align_paths_at_index`, with the slices replaced by a rotation of the list. -/
theorem align_eq {v : List DQuat} {i : ℤ} {k : ℕ} (h : pyPos v.length i = some k) (enf : Bool) :
    alignPathsAtIndex v i enf = (do
      let inv ← (v[k]'(pyPos_some h).1).inverse
      pyAssert ((rebase inv enf (v[k]'(pyPos_some h).1)).allclose DQuat.identity 1e-8)
      return (v.rotate k).map (rebase inv enf)) := by
  have hk := (pyPos_some h).1
  unfold alignPathsAtIndex
  rw [pyGet_some h]
  simp only [Py.ok_bind]
  congr 1
  funext inv
  have hb : pyBound (v.map (rebase inv enf)).length i = k := by
    rw [List.length_map]; exact pyBound_of_pyPos h
  have hr : pyFrom (v.map (rebase inv enf)) i ++ pyTo (v.map (rebase inv enf)) i
      = (v.rotate k).map (rebase inv enf) := by
    rw [pyFrom, pyTo, hb, List.rotate_eq_drop_append_take hk.le, List.map_append, List.map_drop,
      List.map_take]
  rw [hr]
  have h0 : 0 < ((v.rotate k).map (rebase inv enf)).length := by simp; omega
  rw [pyAt_ok h0, Py.ok_bind]
  simp only [List.getElem_map, List.getElem_rotate, Nat.zero_add, Nat.mod_eq_of_lt hk]

theorem align_index_error {v : List DQuat} {i : ℤ} (h : pyPos v.length i = none) (enf : Bool) :
    alignPathsAtIndex v i enf = .error .index := by
  simp [alignPathsAtIndex, pyGet_none h]

theorem allclose_identity_self : DQuat.identity.allclose DQuat.identity 1e-8 := by
  refine ⟨⟨?_, ?_, ?_, ?_⟩, ?_, ?_, ?_, ?_⟩ <;> exact npIsclose_self _ (by norm_num)

theorem rebase_self {a : DQuat} (h : Spec.IsUnit a) (enf : Bool) :
    rebase a.conj enf a = DQuat.identity := by
  unfold rebase
  rw [DQuat.conj_mul_unit h]
  have : ¬ ((1 : DQuat).rot.w < 0) := by simp
  simp only [if_neg this, ite_self]
  rfl

/-- On unit dual quaternions `align_paths_at_index` succeeds; its result. -/
theorem align_unit {v : List DQuat} {i : ℤ} {k : ℕ} (h : pyPos v.length i = some k)
    (hu : ∀ a ∈ v, Spec.IsUnit a) (enf : Bool) :
    alignPathsAtIndex v i enf
      = .ok ((v.rotate k).map (rebase (v[k]'(pyPos_some h).1).conj enf)) := by
  have hk := hu _ (List.getElem_mem (pyPos_some h).1)
  rw [align_eq h, DQuat.inverse_unit hk, Py.ok_bind, rebase_self hk,
    pyAssert_pos allclose_identity_self]
  rfl

/-- The sign choice of the code. -/
noncomputable def posW (a : DQuat) : DQuat := if a.rot.w < 0 then -a else a

theorem posW_eq_or (a : DQuat) : posW a = a ∨ posW a = -a := by
  unfold posW
  split
  · exact Or.inr rfl
  · exact Or.inl rfl

theorem posW_nonneg (a : DQuat) : 0 ≤ (posW a).rot.w := by
  unfold posW
  split
  case isTrue h => rw [DQuat.neg_rot, Quat.neg_w]; linarith
  case isFalse h => exact not_lt.mp h

theorem posW_of_nonneg {a : DQuat} (h : 0 ≤ a.rot.w) : posW a = a := if_neg (not_lt.mpr h)

theorem posW_of_neg {a : DQuat} (h : a.rot.w < 0) : posW a = -a := if_pos h

theorem posW_neg {a : DQuat} (h : a.rot.w ≠ 0) : posW (-a) = posW a := by
  rcases lt_or_gt_of_ne h with h | h
  · rw [posW_of_neg h, posW_of_nonneg (by rw [DQuat.neg_rot, Quat.neg_w]; linarith)]
  · rw [posW_of_nonneg h.le, posW_of_neg (by rw [DQuat.neg_rot, Quat.neg_w]; linarith), neg_neg]

theorem rebase_true (i a : DQuat) : rebase i true a = posW (i * a) := rfl

theorem rebase_false (i a : DQuat) : rebase i false a = i * a := rfl

theorem rebase_eq_or (i a : DQuat) (enf : Bool) : rebase i enf a = i * a ∨ rebase i enf a = -(i * a) := by
  cases enf
  · exact Or.inl rfl
  · exact posW_eq_or _

theorem rebase_unit {i a : DQuat} (hi : Spec.IsUnit i) (ha : Spec.IsUnit a) (enf : Bool) :
    Spec.IsUnit (rebase i enf a) := by
  rcases rebase_eq_or i a enf with h | h <;> rw [h]
  · exact DQuat.isUnit_mul hi ha
  · exact DQuat.isUnit_neg (DQuat.isUnit_mul hi ha)

theorem rebase_w_nonneg (i a : DQuat) : 0 ≤ (rebase i true a).rot.w := posW_nonneg _

theorem motion_neg (a : DQuat) (x : Vec3) : Spec.motion (-a) x = Spec.motion a x := by
  rw [Spec.motion, Spec.motion, DQuat.neg_rot, DQuat.neg_dual, Quat.toH_neg, Quat.toH_neg]
  simp

theorem motion_rebase {i a : DQuat} (hi : Spec.IsUnit i) (ha : Spec.IsUnit a) (enf : Bool) (x : Vec3) :
    Spec.motion (rebase i enf a) x = Spec.motion i (Spec.motion a x) := by
  rcases rebase_eq_or i a enf with h | h <;> rw [h]
  · rw [DQuat.motion_mul hi ha]
  · rw [motion_neg, DQuat.motion_mul hi ha]

end HandEye
