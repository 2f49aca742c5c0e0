import Verif.Props.Script
import Verif.Props.TestPaths2
import Mathlib.Analysis.Real.Pi.Bounds

/-! # The screw axis filter leaves three poses of the paths that the tests generate -/

namespace HandEye

/-- The sine of half of the angle. -/
noncomputable def halfSine (q : Quat) : ℝ := Real.sqrt (q.x ^ 2 + q.y ^ 2 + q.z ^ 2)

def vecDot (p q : Quat) : ℝ := p.x * q.x + p.y * q.y + p.z * q.z

theorem halfSine_sq (q : Quat) : q.x ^ 2 + q.y ^ 2 + q.z ^ 2 = halfSine q ^ 2 := by
  rw [halfSine, Real.sq_sqrt (by positivity)]

theorem halfSine_neg (q : Quat) : halfSine (-q) = halfSine q := by simp [halfSine]

/-- No direction is close to each of two directions that are far apart. -/
theorem not_close_both {p u v : Quat} {thr : ℝ} (ht : 0.9 ≤ thr) (hp : 0 < halfSine p) (hu : 0 < halfSine u)
    (hv : 0 < halfSine v) (hpu : thr * (halfSine p * halfSine u) < vecDot p u)
    (hpv : thr * (halfSine p * halfSine v) < vecDot p v) (huv : vecDot u v ≤ 1 / 2 * (halfSine u * halfSine v)) : False := by
  have e1 := halfSine_sq p
  have e2 := halfSine_sq u
  have e3 := halfSine_sq v
  generalize halfSine p = a at *
  generalize halfSine u = b at *
  generalize halfSine v = c at *
  unfold vecDot at *
  have h1 : 2 * thr * (a * b * c) < p.x * (c * u.x + b * v.x) + p.y * (c * u.y + b * v.y) + p.z * (c * u.z + b * v.z) := by
    nlinarith [mul_lt_mul_of_pos_right hpu hv, mul_lt_mul_of_pos_right hpv hu]
  have h2 : (p.x * (c * u.x + b * v.x) + p.y * (c * u.y + b * v.y) + p.z * (c * u.z + b * v.z)) ^ 2 ≤
      (p.x ^ 2 + p.y ^ 2 + p.z ^ 2) * ((c * u.x + b * v.x) ^ 2 + (c * u.y + b * v.y) ^ 2 + (c * u.z + b * v.z) ^ 2) := by
    nlinarith [sq_nonneg (p.x * (c * u.y + b * v.y) - p.y * (c * u.x + b * v.x)),
      sq_nonneg (p.x * (c * u.z + b * v.z) - p.z * (c * u.x + b * v.x)),
      sq_nonneg (p.y * (c * u.z + b * v.z) - p.z * (c * u.y + b * v.y))]
  have h3 : (c * u.x + b * v.x) ^ 2 + (c * u.y + b * v.y) ^ 2 + (c * u.z + b * v.z) ^ 2 ≤ 3 * (b * c) ^ 2 := by
    have : (c * u.x + b * v.x) ^ 2 + (c * u.y + b * v.y) ^ 2 + (c * u.z + b * v.z) ^ 2 =
        c ^ 2 * (u.x ^ 2 + u.y ^ 2 + u.z ^ 2) + b ^ 2 * (v.x ^ 2 + v.y ^ 2 + v.z ^ 2) +
          2 * (b * c) * (u.x * v.x + u.y * v.y + u.z * v.z) := by ring
    rw [this, e2, e3]
    nlinarith [mul_le_mul_of_nonneg_left huv (mul_pos hu hv).le]
  rw [e1] at h2
  have habc : 0 < a * b * c := by positivity
  have h4 : 1.8 * (a * b * c) < p.x * (c * u.x + b * v.x) + p.y * (c * u.y + b * v.y) + p.z * (c * u.z + b * v.z) := by
    refine lt_of_le_of_lt (mul_le_mul_of_nonneg_right ?_ habc.le) h1
    linarith
  have h5 : (1.8 * (a * b * c)) ^ 2 < (p.x * (c * u.x + b * v.x) + p.y * (c * u.y + b * v.y) + p.z * (c * u.z + b * v.z)) ^ 2 :=
    pow_lt_pow_left₀ h4 (by positivity) two_ne_zero
  have h6 : a ^ 2 * ((c * u.x + b * v.x) ^ 2 + (c * u.y + b * v.y) ^ 2 + (c * u.z + b * v.z) ^ 2) ≤ a ^ 2 * (3 * (b * c) ^ 2) :=
    mul_le_mul_of_nonneg_left h3 (sq_nonneg a)
  have h7 := (h5.trans_le h2).trans_le h6
  have h8 : (1.8 * (a * b * c)) ^ 2 - a ^ 2 * (3 * (b * c) ^ 2) = 0.24 * (a * b * c) ^ 2 := by ring
  linarith [pow_pos habc 2]

theorem vecDot_comm (p q : Quat) : vecDot p q = vecDot q p := by unfold vecDot; ring

theorem conjugated_dot {X : DQuat} (hX : Spec.IsUnit X) (a b : DQuat) :
    vecDot (X.conj * a * X).rot (X.conj * b * X).rot = vecDot a.rot b.rot := by
  have hXr := DQuat.IsUnit.rot hX
  have h1 : (X.conj * a * X).rot.dot (X.conj * b * X).rot = X.rot.dot X.rot * a.rot.dot b.rot * X.rot.dot X.rot := by
    simp only [DQuat.mul_rot, DQuat.conj_rot, Quat.mul_w, Quat.mul_x, Quat.mul_y, Quat.mul_z, Quat.conj_x, Quat.conj_y,
      Quat.conj_z, Quat.conj_w, Quat.dot]
    ring
  have h2 := conjugated_w (a := a) hX
  have h3 := conjugated_w (a := b) hX
  rw [hXr, one_mul, mul_one, Quat.dot, Quat.dot, h2, h3] at h1
  unfold vecDot
  linear_combination h1

theorem conjugated_halfSine {X : DQuat} (hX : Spec.IsUnit X) (a : DQuat) :
    halfSine (X.conj * a * X).rot = halfSine a.rot := by
  have h := conjugated_dot hX a a
  unfold vecDot at h
  unfold halfSine
  congr 1
  linear_combination h

/-- Three poses are left of noise-free data in which the first pose is the identity, all others turn, and three of them
turn about axes that are different enough. -/
theorem prefilter_three {X : DQuat} (hX : Spec.IsUnit X) {bs ws : List DQuat} (hu : ∀ b ∈ bs, Spec.IsUnit b)
    (hm : Spec.Mounted X.conj X bs ws) {thr : ℝ} (ht : 0.9 ≤ thr) (h0 : bs[0]? = some DQuat.identity)
    (hturn : ∀ (i : ℕ) b, 0 < i → bs[i]? = some b → 1e-12 < halfSine b.rot) {j k : ℕ} (hj : 1 < j) (hjk : j < k)
    {b₁ bj bk : DQuat} (e1 : bs[1]? = some b₁) (ej : bs[j]? = some bj) (ek : bs[k]? = some bk)
    (d1 : vecDot b₁.rot bj.rot ≤ thr * (halfSine b₁.rot * halfSine bj.rot))
    (d2 : vecDot b₁.rot bk.rot ≤ thr * (halfSine b₁.rot * halfSine bk.rot))
    (d3 : vecDot bj.rot bk.rot ≤ 1 / 2 * (halfSine bj.rot * halfSine bk.rot)) :
    ∃ bf wf, prefilterUsingScrewAxis bs ws thr = .ok (bf, wf) ∧ 3 ≤ bf.length ∧ bf.length = wf.length := by
  have hws := mounted_iff.mp hm
  have hl : bs.length = ws.length := by rw [hws, List.length_map]
  have huw : ∀ w ∈ ws, Spec.IsUnit w := by
    rw [hws]
    intro w hw
    obtain ⟨b, hb, rfl⟩ := List.mem_map.mp hw
    exact DQuat.isUnit_mul (DQuat.isUnit_mul (DQuat.isUnit_conj hX) (hu b hb)) hX
  have hax : ∀ a, Spec.IsUnit a → ∃ r, a.screwAxis = .ok r := fun a ha => by
    obtain ⟨_, _, _, h, _⟩ := C18_parameters a ha
    exact ⟨_, h⟩
  obtain ⟨idx, i1, i2, i3, i4, i5, i6⟩ := C32_selection bs ws thr hl (fun a ha => hax a (hu a ha))
    fun a ha => hax a (huw a ha)
  have hwk : ∀ {i : ℕ} {b : DQuat}, bs[i]? = some b → ws[i]? = some (X.conj * b * X) := by
    intro i b h
    rw [hws, List.getElem?_map, h]
    rfl
  have hpos : ∀ {i : ℕ} {b : DQuat}, 0 < i → bs[i]? = some b → 0 < halfSine b.rot := fun hi h =>
    lt_trans (by norm_num) (hturn _ _ hi h)
  have hb : ∀ {i : ℕ} {b : DQuat}, 0 < i → bs[i]? = some b →
      Spec.HasAxis b ⟨b.rot.x / halfSine b.rot, b.rot.y / halfSine b.rot, b.rot.z / halfSine b.rot⟩ := fun hi h =>
    hasAxis_rotation (hu _ (List.mem_of_getElem? h)) (hturn _ _ hi h) (halfSine_sq _)
  have hw : ∀ {i : ℕ} {b : DQuat}, 0 < i → bs[i]? = some b →
      Spec.HasAxis (X.conj * b * X) ⟨(X.conj * b * X).rot.x / halfSine b.rot, (X.conj * b * X).rot.y / halfSine b.rot,
        (X.conj * b * X).rot.z / halfSine b.rot⟩ := fun {i b} hi h =>
    hasAxis_rotation (huw _ (List.mem_of_getElem? (hwk h))) (hturn _ _ hi h)
      (by rw [halfSine_sq, conjugated_halfSine hX])
  have hdeg : ∀ {i : ℕ} {b : DQuat}, 0 < i → bs[i]? = some b → ¬ Spec.Degenerate bs ws i := by
    rintro i b hi h ⟨w, v, g1, g2, g3⟩
    rw [h] at g1
    rw [hwk h] at g2
    cases g1; cases g2
    rcases g3 with g3 | g3
    · exact hasAxis_not_noAxis (hb hi h) g3
    · exact hasAxis_not_noAxis (hw hi h) g3
  have hclose : ∀ {p q : ℕ} {a b : DQuat}, 0 < p → 0 < q → bs[p]? = some a → bs[q]? = some b →
      Spec.Close thr bs ws p q → thr * (halfSine a.rot * halfSine b.rot) < vecDot a.rot b.rot := by
    rintro p q a b hp hq ha hb' ⟨w, v, w', v', n, m, n', m', c1, c2, c3, c4, c5, c6, c7, c8, c9⟩
    rw [ha] at c1; rw [hwk ha] at c2; rw [hb'] at c3; rw [hwk hb'] at c4
    cases c1; cases c2; cases c3; cases c4
    rw [hasAxis_unique c5 (hb hp ha), hasAxis_unique c6 (hw hp ha), hasAxis_unique c7 (hb hq hb'),
      hasAxis_unique c8 (hw hq hb')] at c9
    have hP := hpos hp ha
    have hQ := hpos hq hb'
    have hd := conjugated_dot hX a b
    unfold vecDot at hd ⊢
    dsimp only at c9
    have hq : ∀ x y z x' y' z' : ℝ, x / halfSine a.rot * (x' / halfSine b.rot) + y / halfSine a.rot * (y' / halfSine b.rot) +
        z / halfSine a.rot * (z' / halfSine b.rot) = (x * x' + y * y' + z * z') / (halfSine a.rot * halfSine b.rot) := by
      intro x y z x' y' z'
      field_simp
    rw [hq, hq, hd, or_self, lt_div_iff₀ (mul_pos hP hQ)] at c9
    exact c9
  have hne0 : 0 ∉ idx := by
    intro h
    obtain ⟨w, b, n, m, u1, u2, u3, u4⟩ := i2 0 h
    rw [h0] at u1
    cases u1
    exact hasAxis_not_noAxis u3 noAxis_identity
  have hlt : ∀ {i : ℕ} {b : DQuat}, bs[i]? = some b → i < bs.length := fun h => (List.getElem?_eq_some_iff.mp h).1
  have hin1 : 1 ∈ idx := by
    by_contra hcon
    rcases i4 1 (hlt e1) hcon with h | ⟨i, hi, hi1, -⟩
    · exact hdeg one_pos e1 h
    · obtain rfl : i = 0 := by omega
      exact hne0 hi
  -- what covers a pose that is far from the first one
  have hcover : ∀ {q : ℕ} {b : DQuat}, 1 < q → bs[q]? = some b →
      vecDot b₁.rot b.rot ≤ thr * (halfSine b₁.rot * halfSine b.rot) →
      ∃ p ∈ idx, p ≠ 1 ∧ ∃ a, bs[p]? = some a ∧ 0 < p ∧
        (p = q ∨ thr * (halfSine a.rot * halfSine b.rot) < vecDot a.rot b.rot) := by
    intro q b hq hb' hd
    by_cases hin : q ∈ idx
    · exact ⟨q, hin, by omega, b, hb', by omega, Or.inl rfl⟩
    rcases i4 q (hlt hb') hin with h | ⟨i, hi, hi1, hc⟩
    · exact absurd h (hdeg (by omega) hb')
    have hi0 : 0 < i := Nat.pos_of_ne_zero fun h => hne0 (h ▸ hi)
    have ha : bs[i]? = some (bs[i]'(hi1.trans (hlt hb'))) := List.getElem?_eq_getElem _
    have hc' := hclose hi0 (by omega) ha hb' hc
    refine ⟨i, hi, ?_, _, ha, hi0, Or.inr hc'⟩
    rintro rfl
    rw [e1] at ha
    rw [← Option.some.inj ha] at hc'
    linarith
  obtain ⟨p, hp, hp1, a, ha, hp0, hpj⟩ := hcover hj ej d1
  obtain ⟨q, hq, hq1, b, hb', hq0, hqk⟩ := hcover (by omega) ek d2
  have hJ := hpos (by omega) ej
  have hK := hpos (by omega) ek
  have hJK := mul_pos hJ hK
  have hpq : p ≠ q := by
    rintro rfl
    rw [ha] at hb'
    cases hb'
    rcases hpj with rfl | hpj
    · rw [ej] at ha
      cases ha
      rcases hqk with rfl | hqk
      · omega
      · nlinarith
    · rcases hqk with rfl | hqk
      · rw [ek] at ha
        cases ha
        rw [vecDot_comm, mul_comm (halfSine _)] at hpj
        nlinarith
      · exact not_close_both ht (hpos hp0 ha) hJ hK hpj hqk d3
  have h3 : 3 ≤ idx.length := by
    have hsub : [1, p, q] ⊆ idx := by simp [hin1, hp, hq]
    exact (List.subperm_of_subset (by simp [hp1.symm, hq1.symm, hpq]) hsub).length_le
  obtain ⟨bf, wf, f1, f2, f3⟩ := i5 (by omega)
  have l1 := congrArg List.length f2
  have l2 := congrArg List.length f3
  simp only [List.length_map] at l1 l2
  exact ⟨bf, wf, f1, by omega, by omega⟩

end HandEye
