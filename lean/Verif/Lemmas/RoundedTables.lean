import Verif.Lemmas.RoundedComplete
import Verif.Lemmas.RoundedOutliers
import Verif.Lemmas.Classic
import Verif.Lemmas.OutlierSigns
import Verif.Model.RoundedTables
import Verif.Props.OutlierScript
import Verif.Spec.RoundedTables

/-! # Lemmas: the preparation of tables of poses in floating-point arithmetic -/

namespace HandEye

open Quaternion

theorem dist_toH (a b : Vec3) : Spec.dist a b = ‖a.toH - b.toH‖ := by
  change _ = ‖(⟨a.x, a.y, a.z, 0⟩ : Quat).toH - (⟨b.x, b.y, b.z, 0⟩ : Quat).toH‖
  rw [← gap_eq]
  unfold Spec.dist Spec.gap
  congr 1
  ring

theorem vec_zero_toH : (⟨0, 0, 0⟩ : Vec3).toH = 0 := by
  ext <;> simp [Vec3.toH]

theorem poseDual_rot (p : Pose) : (Spec.poseDual p).rot = p.q := rfl

theorem poseDual_dual (p : Pose) : (Spec.poseDual p).dual.toH = (1 / 2 : ℝ) • (p.pos.toH * p.q.toH) := rfl

theorem poseDual_unit {p : Pose} (h : Spec.len p.q = 1) : Spec.IsUnit (Spec.poseDual p) := by
  have hn : p.q.norm = 1 := by
    rw [Quat.norm_eq_one]
    unfold Spec.len at h
    rw [Real.sqrt_eq_one] at h
    simp only [Quat.dot]
    linarith
  rw [poseDual_eq hn]
  exact fromPose_isUnit hn

/-- The dual quaternion of a row. -/
theorem fromPose_recorded {A : Arith} {u α e R : ℝ} (h : Spec.Machine u A) (hα : α ≤ 1 / 2) {p p₀ : Pose} (hp : Spec.MeasuredPose α e R p p₀) :
    Spec.RecordedPose (2 * α + 9 * u) (0.505 * e + R / 2 * (2 * α + 9 * u) + 6.1 * u * (R + e)) (R / 2) (A.fromPose p) (Spec.poseDual p₀) := by
  have h0 := h.nonneg
  have hs := h.small
  have o := hp.orientation
  have t := hp.position
  have s := hp.size
  have hu := hp.unit
  rw [gap_eq] at o
  rw [dist_toH] at t s
  rw [vec_zero_toH, sub_zero] at s
  rw [len_eq] at hu
  have hα0 : 0 ≤ α := (norm_nonneg _).trans o
  have he0 : 0 ≤ e := (norm_nonneg _).trans t
  have hR0 : 0 ≤ R := (norm_nonneg _).trans s
  have hN : |‖p.q.toH‖ - 1| ≤ α := by
    rw [← hu]
    exact (abs_norm_sub_norm_le _ _).trans o
  obtain ⟨l1, l2⟩ := abs_le.mp hN
  have hq : 2e-8 ≤ Spec.len p.q := by
    rw [len_eq]
    norm_num
    linarith
  obtain ⟨n1, _, _⟩ := C89_normalize h p.q hq
  obtain ⟨f1, f2⟩ := fromPose_near h hq
  set r := (A.fromPose p).rot with hr
  have e0 : A.normalize p.q = r := rfl
  rw [e0, len_eq] at n1
  have hpos : 0 < ‖p.q.toH‖ := by linarith
  have n2 : ‖‖p.q.toH‖⁻¹ • p.q.toH - p.q.toH‖ ≤ α := by
    have e1 : ‖p.q.toH‖⁻¹ • p.q.toH - p.q.toH = (‖p.q.toH‖⁻¹ - 1) • p.q.toH := by rw [sub_smul, one_smul]
    have e2 : ‖p.q.toH‖⁻¹ - 1 = (1 - ‖p.q.toH‖) * ‖p.q.toH‖⁻¹ := by rw [sub_mul, one_mul, mul_inv_cancel₀ hpos.ne']
    rw [e1, norm_smul, e2, norm_mul, norm_inv, norm_norm, inv_mul_cancel_right₀ hpos.ne', Real.norm_eq_abs, abs_sub_comm]
    exact hN
  have hrot : ‖r.toH - p₀.q.toH‖ ≤ 2 * α + 9 * u := by
    have t1 := norm_sub_le_norm_sub_add_norm_sub r.toH (‖p.q.toH‖⁻¹ • p.q.toH) p₀.q.toH
    have t2 := norm_sub_le_norm_sub_add_norm_sub (‖p.q.toH‖⁻¹ • p.q.toH) p.q.toH p₀.q.toH
    linarith
  have hrn : ‖r.toH‖ ≤ 1.009 := by linarith [(abs_le.mp f1).2]
  refine ⟨poseDual_unit hp.unit, ?_, ?_, ?_⟩
  · rw [gap_eq]
    exact hrot
  · rw [gap_eq, poseDual_dual]
    have hpn : ‖p.pos.toH‖ ≤ R + e := by
      have := norm_le_insert' p.pos.toH p₀.pos.toH
      linarith
    have c1 : 6 * u * (‖p.pos.toH‖ * ‖r.toH‖) ≤ 6 * u * ((R + e) * 1.009) := by gcongr
    have c2 : ‖(1 / 2 : ℝ) • (p.pos.toH * r.toH) - (1 / 2 : ℝ) • (p₀.pos.toH * p₀.q.toH)‖ ≤ 1 / 2 * (e * 1.009 + R * (2 * α + 9 * u)) := by
      have e3 : (1 / 2 : ℝ) • (p.pos.toH * r.toH) - (1 / 2 : ℝ) • (p₀.pos.toH * p₀.q.toH) =
          (1 / 2 : ℝ) • ((p.pos.toH - p₀.pos.toH) * r.toH + p₀.pos.toH * (r.toH - p₀.q.toH)) := by
        rw [← smul_sub]
        congr 1
        noncomm_ring
      rw [e3, norm_smul, Real.norm_of_nonneg (by norm_num)]
      refine mul_le_mul_of_nonneg_left ((norm_add_le _ _).trans ?_) (by norm_num)
      rw [norm_mul, norm_mul]
      gcongr
    have c3 := norm_sub_le_norm_sub_add_norm_sub (A.fromPose p).dual.toH ((1 / 2 : ℝ) • (p.pos.toH * r.toH)) ((1 / 2 : ℝ) • (p₀.pos.toH * p₀.q.toH))
    have c4 : 0 ≤ u * (R + e) := by positivity
    nlinarith
  · rw [len_eq, poseDual_dual, norm_smul, norm_mul, hu, mul_one, Real.norm_of_nonneg (by norm_num)]
    linarith

theorem RecordedPose.mono {δ δ' θ θ' D : ℝ} {a a₀ : DQuat} (h : Spec.RecordedPose δ θ D a a₀) (h1 : δ ≤ δ') (h2 : θ ≤ θ') :
    Spec.RecordedPose δ' θ' D a a₀ := ⟨h.unit, h.rot.trans h1, h.dual.trans h2, h.size⟩

/-- The inverse of a recorded pose. -/
theorem inverse_recorded {A : Arith} {u δ θ D : ℝ} (h : Spec.Machine u A) (hδ : δ ≤ 1 / 100) {a a₀ : DQuat} (ha : Spec.RecordedPose δ θ D a a₀) :
    ∃ i, A.dqInverse a = .ok i ∧ Spec.RecordedPose (8 * u + 1.011 * δ) ((37.1 * u + 2.05 * δ) * (D + θ) + 1.03 * θ) D i a₀.conj := by
  have h1 := ha.rot
  have h2 := ha.dual
  have h4 := ha.size
  rw [gap_eq] at h1 h2
  rw [len_eq] at h4
  obtain ⟨i, hi, i1, i2⟩ := Arith.dqInverse_near h ha.unit hδ h4 h1 h2
  refine ⟨i, hi, DQuat.isUnit_conj ha.unit, ?_, ?_, ?_⟩
  · rw [gap_eq, DQuat.conj_rot, Quat.toH_conj]; exact i1
  · rw [gap_eq, DQuat.conj_dual, Quat.toH_conj]; exact i2
  · rw [len_eq, DQuat.conj_dual, Quat.toH_conj, Quaternion.norm_star]; exact h4

theorem rowError_le {u α : ℝ} (h0 : 0 ≤ u) (hα : 0 ≤ α) : 2 * α + 9 * u ≤ Spec.rowError u α := by
  unfold Spec.rowError
  linarith

theorem rowError_nonneg {u α : ℝ} (h0 : 0 ≤ u) (hα : 0 ≤ α) : 0 ≤ Spec.rowError u α := (by positivity : 0 ≤ 2 * α + 9 * u).trans (rowError_le h0 hα)

theorem rowDualError_ge {u α e R : ℝ} (h0 : 0 ≤ u) (hα : 0 ≤ α) (he : 0 ≤ e) (hR : 0 ≤ R) :
    0.505 * e + R / 2 * (2 * α + 9 * u) + 6.1 * u * (R + e) ≤ Spec.rowDualError u α e R := by
  unfold Spec.rowDualError
  dsimp only
  have : 0 ≤ 0.505 * e + R / 2 * (2 * α + 9 * u) + 6.1 * u * (R + e) := by positivity
  set θ := 0.505 * e + R / 2 * (2 * α + 9 * u) + 6.1 * u * (R + e)
  have : 0 ≤ (37.1 * u + 2.05 * (2 * α + 9 * u)) * (R / 2 + θ) := by positivity
  linarith

theorem rowDualError_nonneg {u α e R : ℝ} (h0 : 0 ≤ u) (hα : 0 ≤ α) (he : 0 ≤ e) (hR : 0 ≤ R) : 0 ≤ Spec.rowDualError u α e R :=
  le_trans (by positivity) (rowDualError_ge h0 hα he hR)

/-- The dual quaternions of a table. -/
theorem table_recorded {A : Arith} {u α e R : ℝ} (h : Spec.Machine u A) (hα0 : 0 ≤ α) (he : 0 ≤ e) (hR : 0 ≤ R) (hα : Spec.rowError u α ≤ 1 / 100)
    (inv : Bool) {P P₀ : List Pose} (hP : List.Forall₂ (Spec.MeasuredPose α e R) P P₀) :
    ∃ v, A.tablePoses inv P = .ok v ∧
      List.Forall₂ (Spec.RecordedPose (Spec.rowError u α) (Spec.rowDualError u α e R) (R / 2)) v (P₀.map (Spec.rowDual inv)) := by
  have h0 := h.nonneg
  have hle := rowError_le h0 hα0
  have hα1 : α ≤ 1 / 2 := by linarith
  unfold Arith.tablePoses
  cases inv with
  | false =>
    refine ⟨_, rfl, ?_⟩
    rw [List.forall₂_map_left_iff, List.forall₂_map_right_iff]
    exact hP.imp fun p p₀ hp => RecordedPose.mono (fromPose_recorded h hα1 hp) hle (rowDualError_ge h0 hα0 he hR)
  | true =>
    rw [if_pos rfl]
    induction hP with
    | nil => exact ⟨[], rfl, .nil⟩
    | cons hp _ ih =>
      obtain ⟨v, hv, hr⟩ := ih
      obtain ⟨i, hi, ri⟩ := inverse_recorded h (hle.trans hα) (fromPose_recorded h hα1 hp)
      refine ⟨i :: v, ?_, .cons ri hr⟩
      rw [List.mapM_cons, hi, Py.ok_bind, hv]
      rfl

theorem cosHalf_rowDual (inv : Bool) (p q : Pose) : Spec.cosHalf (Spec.rowDual inv p).rot (Spec.rowDual inv q).rot = Spec.cosHalf p.q q.q := by
  cases inv with
  | false => rfl
  | true =>
    change Spec.cosHalf p.q.conj q.q.conj = _
    unfold Spec.cosHalf
    simp [Quat.conj]

/-- Alignment does not change the angles between the poses. -/
theorem cosHalf_aligned {a b c m n : DQuat} (ha : Spec.IsUnit a) (hb : Spec.IsUnit b) (hc : Spec.IsUnit c) (hm : m = a.conj * b ∨ m = -(a.conj * b))
    (hn : n = a.conj * c ∨ n = -(a.conj * c)) : Spec.cosHalf m.rot n.rot = Spec.cosHalf b.rot c.rot := by
  have r : ∀ {m k : DQuat}, m = k ∨ m = -k → m.rot = k.rot ∨ m.rot = -k.rot := by
    rintro m k (rfl | rfl)
    · exact .inl rfl
    · exact .inr rfl
  rw [cosHalf_pm (r hm) (r hn), cosHalf_relative (DQuat.isUnit_mul (DQuat.isUnit_conj ha) hb) (DQuat.isUnit_mul (DQuat.isUnit_conj ha) hc),
    cosHalf_relative hb hc, DQuat.conj_mul_rev,
    show a.conj.conj = a by apply DQuat.ext' <;> simp]
  have e : b.conj * a * (a.conj * c) = b.conj * c := by
    rw [mul_assoc, ← mul_assoc a, DQuat.mul_conj_unit ha, one_mul]
  rw [e]

/-- The aligned paths of two recordings that fit are recordings that fit, with the same mounting. -/
theorem aligned_recorded {A : Arith} {u δ θ D : ℝ} (h : Spec.Machine u A) (hδ0 : 0 ≤ δ) (hδ : δ ≤ 1 / 100) (hθ : 0 ≤ θ) (hD0 : 0 ≤ D) {g X : DQuat}
    (hg : Spec.IsUnit g) (hX : Spec.IsUnit X) {L L₀ : List (DQuat × DQuat)} (hmem : ∀ q ∈ L, ∃ q₀ ∈ L₀, Spec.RecordedPair δ θ D q q₀)
    (hf : ∀ p ∈ L₀, Spec.FitsMotion g X p) {i : ℤ} {bs ws : List DQuat}
    (hb : A.alignPaths (L.map Prod.fst) i true = .ok bs) (hw : A.alignPaths (L.map Prod.snd) i true = .ok ws) :
    bs.length = L.length ∧ ws.length = L.length ∧ ∃ L₁ : List (DQuat × DQuat),
      (∀ s ∈ bs.zip ws, ∃ s₁ ∈ L₁, Spec.RecordedPair (Spec.relativeError u δ θ D) (Spec.relativeError u δ θ D) (2 * D) s s₁) ∧
      (∀ s ∈ L₁, Spec.FitsMotion X.conj X s) ∧
      ∀ s ∈ L₁, ∀ t ∈ L₁, ∃ p ∈ L₀, ∃ q ∈ L₀, Spec.cosHalf s.1.rot t.1.rot = Spec.cosHalf p.1.rot q.1.rot := by
  have hη := relativeError_nonneg (D := D) h.nonneg hδ0 hθ hD0
  obtain ⟨k, a, i1, hk, hka, hi1, rfl⟩ := alignPaths_ok hb
  obtain ⟨k', c, i2, hk', hkc, hi2, rfl⟩ := alignPaths_ok hw
  refine ⟨by simp; omega, by simp; omega, ?_⟩
  rw [List.length_map] at hk hk'
  obtain rfl : k = k' := Option.some.inj (hk.symm.trans hk')
  rw [List.getElem?_map] at hka hkc
  obtain ⟨p, hp, rfl⟩ := Option.map_eq_some_iff.mp hka
  rw [hp] at hkc
  obtain rfl : p.2 = c := Option.some.inj hkc
  obtain ⟨p₀, hp₀, rp⟩ := hmem p (List.mem_of_getElem? hp)
  have key : ∀ s ∈ ((L.map Prod.fst).drop k ++ (L.map Prod.fst).take k).map (A.rebase i1 true) |>.zip
      (((L.map Prod.snd).drop k ++ (L.map Prod.snd).take k).map (A.rebase i2 true)), ∃ s₁ : DQuat × DQuat,
      Spec.RecordedPair (Spec.relativeError u δ θ D) (Spec.relativeError u δ θ D) (2 * D) s s₁ ∧ Spec.FitsMotion X.conj X s₁ ∧
      ∃ q₀ ∈ L₀, Spec.IsUnit q₀.1 ∧ (s₁.1 = p₀.1.conj * q₀.1 ∨ s₁.1 = -(p₀.1.conj * q₀.1)) := by
    intro s hs
    obtain ⟨q, hq, rfl⟩ : ∃ q ∈ L, s = (A.rebase i1 true q.1, A.rebase i2 true q.2) := by
      rw [← List.map_drop, ← List.map_take, ← List.map_drop, ← List.map_take, ← List.map_append, ← List.map_append, List.map_map, List.map_map,
        List.zip_map', List.mem_map] at hs
      obtain ⟨q, hq, e⟩ := hs
      refine ⟨q, ?_, e.symm⟩
      rcases List.mem_append.mp hq with h | h
      · exact List.mem_of_mem_drop h
      · exact List.mem_of_mem_take h
    obtain ⟨q₀, hq₀, rq⟩ := hmem q hq
    obtain ⟨b₀, hb₀, nb⟩ := rebase_near h hδ rp.1 rq.1 hi1
    obtain ⟨w₀, hw₀, nw⟩ := rebase_near h hδ rp.2 rq.2 hi2
    have sp1 := rp.1.size
    have sp2 := rp.2.size
    have sq1 := rq.1.size
    have sq2 := rq.2.size
    rw [len_eq] at sp1 sp2 sq1 sq2
    obtain ⟨_, v2⟩ := relative_bounds rp.1.unit rq.1.unit sp1 sq1 hb₀
    obtain ⟨_, v4⟩ := relative_bounds rp.2.unit rq.2.unit sp2 sq2 hw₀
    obtain ⟨nb1, nb2⟩ := nearDQ_parts hη nb
    obtain ⟨nw1, nw2⟩ := nearDQ_parts hη nw
    have un : ∀ {a b m : DQuat}, Spec.IsUnit a → Spec.IsUnit b → (m = a.conj * b ∨ m = -(a.conj * b)) → Spec.IsUnit m := by
      rintro a b m ha hb (rfl | rfl)
      · exact DQuat.isUnit_mul (DQuat.isUnit_conj ha) hb
      · exact DQuat.isUnit_neg (DQuat.isUnit_mul (DQuat.isUnit_conj ha) hb)
    have ub := un rp.1.unit rq.1.unit hb₀
    have uw := un rp.2.unit rq.2.unit hw₀
    refine ⟨(b₀, w₀), ⟨⟨ub, ?_, ?_, ?_⟩, ⟨uw, ?_, ?_, ?_⟩⟩, ?_, q₀, hq₀, rq.1.unit, hb₀⟩
    · rw [gap_eq]; exact nb1
    · rw [gap_eq]; exact nb2
    · rw [len_eq]; exact v2
    · rw [gap_eq]; exact nw1
    · rw [gap_eq]; exact nw2
    · rw [len_eq]; exact v4
    · rw [fitsMotion_iff (DQuat.isUnit_conj hX) hX ub uw]
      dsimp only
      have hr := relative_fits hg hX rp.1.unit rp.2.unit rq.1.unit rq.2.unit (hf _ hp₀) (hf _ hq₀)
      have hex : b₀ * X = X * w₀ ∨ b₀ * X = -(X * w₀) := by
        rcases hb₀ with e1 | e1 <;> rcases hw₀ with e2 | e2 <;> rcases hr with e3 | e3 <;> rw [e1, e2] <;>
          simp only [neg_mul, mul_neg, neg_neg, e3, true_or, or_true]
      have e : X.conj * (X * w₀) = w₀ := by rw [← mul_assoc, DQuat.conj_mul_unit hX, one_mul]
      rcases hex with e1 | e1
      · left; rw [mul_assoc, e1, e]
      · right; rw [mul_assoc, e1, mul_neg, neg_neg, e]
  choose! f hf' using key
  refine ⟨_, fun s hs => ⟨f s, List.mem_map_of_mem hs, (hf' s hs).1⟩, ?_, ?_⟩
  · intro s hs
    obtain ⟨s, hs', rfl⟩ := List.mem_map.mp hs
    exact (hf' s hs').2.1
  · intro s hs t ht
    obtain ⟨s, hs', rfl⟩ := List.mem_map.mp hs
    obtain ⟨t, ht', rfl⟩ := List.mem_map.mp ht
    obtain ⟨_, _, q, hq, uq, eq⟩ := hf' s hs'
    obtain ⟨_, _, r, hr, ur, er⟩ := hf' t ht'
    exact ⟨q, hq, r, hr, cosHalf_aligned rp.1.unit uq ur eq er⟩

end HandEye
