import Verif.Spec.Rounded
import Verif.Lemmas.Batch

/-! # Lemmas about rounding errors -/

open Quaternion

namespace HandEye

namespace Spec.Machine

variable {u : ℝ} {A : Arith}

theorem nonneg (h : Spec.Machine u A) : 0 ≤ u := by
  have := h.rounds 1
  rw [abs_one, mul_one] at this
  exact le_trans (abs_nonneg _) this

theorem abs_le (h : Spec.Machine u A) (x : ℝ) : |A.fl x| ≤ (1 + u) * |x| := by
  have h1 := h.rounds x
  have h2 := abs_sub_abs_le_abs_sub (A.fl x) x
  linarith

end Spec.Machine

namespace Arith

variable {u : ℝ} {A : Arith}

/-- One more term in a sum of rounded terms. -/
theorem sum_step (h : Spec.Machine u A) {k : ℕ} (hk : 1 ≤ k) {s S M c c' : ℝ} (hs : |s - S| ≤ ((1 + u) ^ k - 1) * M) (hS : |S| ≤ M)
    (hc : |c' - c| ≤ u * |c|) : |A.fl (s + c') - (S + c)| ≤ ((1 + u) ^ (k + 1) - 1) * (M + |c|) ∧ |S + c| ≤ M + |c| := by
  have h0 := h.nonneg
  have hp : 1 + u ≤ (1 + u) ^ k := le_self_pow₀ (by linarith) (by omega)
  have hM : 0 ≤ M := le_trans (abs_nonneg _) hS
  have hc0 := abs_nonneg c
  refine ⟨?_, (abs_add_le _ _).trans (by linarith)⟩
  have h1 := h.rounds (s + c')
  have h2 : |s| ≤ (1 + u) ^ k * M := by
    have := abs_sub_abs_le_abs_sub s S
    linarith
  have h3 : |c'| ≤ (1 + u) ^ k * |c| := by
    have := abs_sub_abs_le_abs_sub c' c
    nlinarith
  have h4 : |s + c'| ≤ (1 + u) ^ k * (M + |c|) := (abs_add_le _ _).trans (by linarith)
  have h5 : A.fl (s + c') - (S + c) = (A.fl (s + c') - (s + c')) + (s - S) + (c' - c) := by ring
  have h6 : |c' - c| ≤ ((1 + u) ^ k - 1) * |c| := hc.trans (mul_le_mul_of_nonneg_right (by linarith) hc0)
  have h7 : u * |s + c'| ≤ u * ((1 + u) ^ k * (M + |c|)) := mul_le_mul_of_nonneg_left h4 h0
  calc |A.fl (s + c') - (S + c)| ≤ |A.fl (s + c') - (s + c')| + |s - S| + |c' - c| := by
        rw [h5]; exact abs_add_three _ _ _
    _ ≤ u * ((1 + u) ^ k * (M + |c|)) + ((1 + u) ^ k - 1) * M + ((1 + u) ^ k - 1) * |c| := by linarith
    _ = _ := by ring

theorem sum_four (h : Spec.Machine u A) {a b c d a' b' c' d' : ℝ} (ha : |a' - a| ≤ u * |a|) (hb : |b' - b| ≤ u * |b|)
    (hc : |c' - c| ≤ u * |c|) (hd : |d' - d| ≤ u * |d|) :
    |A.fl (A.fl (A.fl (a' + b') + c') + d') - (a + b + c + d)| ≤ ((1 + u) ^ 4 - 1) * (|a| + |b| + |c| + |d|) := by
  have h1 := sum_step h (k := 1) le_rfl (s := a') (S := a) (M := |a|) (by simpa using ha) le_rfl hb
  have h2 := sum_step h (k := 2) (by norm_num) h1.1 h1.2 hc
  exact (sum_step h (k := 3) (by norm_num) h2.1 h2.2 hd).1

theorem neg_near (h : Spec.Machine u A) (x : ℝ) : |-A.fl x - -x| ≤ u * |-x| := by
  rw [abs_neg, neg_sub_neg, abs_sub_comm]
  exact h.rounds x

theorem growth (h : Spec.Machine u A) : (1 + u) ^ 4 - 1 ≤ 5 * u := by
  have h0 := h.nonneg
  have h1 := h.small
  nlinarith [mul_nonneg h0 h0, mul_nonneg (mul_nonneg h0 h0) h0, mul_nonneg (mul_nonneg h0 h0) (mul_nonneg h0 h0),
    mul_nonneg h0 (sub_nonneg.mpr h1), mul_nonneg (mul_nonneg h0 h0) (sub_nonneg.mpr h1),
    mul_nonneg (mul_nonneg (mul_nonneg h0 h0) h0) (sub_nonneg.mpr h1)]

theorem growth_nonneg (h : Spec.Machine u A) : 0 ≤ (1 + u) ^ 4 - 1 := by
  have := one_le_pow₀ (n := 4) (show 1 ≤ 1 + u by linarith [h.nonneg])
  linarith

end Arith

theorem len_eq (q : Quat) : Spec.len q = ‖q.toH‖ := by
  rw [quat_norm_toH]
  unfold Spec.len Quat.norm Quat.dot
  congr 1
  ring

theorem gap_eq (p q : Quat) : Spec.gap p q = ‖p.toH - q.toH‖ := by
  rw [← Quat.toH_sub, ← len_eq]
  rfl

theorem norm_sq_quat (q : Quat) : ‖q.toH‖ ^ 2 = q.x ^ 2 + q.y ^ 2 + q.z ^ 2 + q.w ^ 2 := by
  rw [← len_eq, Spec.len, Real.sq_sqrt (by positivity)]

theorem cauchy_abs (a b c d x y z w : ℝ) :
    |a * x| + |b * y| + |c * z| + |d * w| ≤ Real.sqrt (a ^ 2 + b ^ 2 + c ^ 2 + d ^ 2) * Real.sqrt (x ^ 2 + y ^ 2 + z ^ 2 + w ^ 2) := by
  rw [← Real.sqrt_mul (by positivity)]
  apply Real.le_sqrt_of_sq_le
  simp only [abs_mul]
  rw [← sq_abs a, ← sq_abs b, ← sq_abs c, ← sq_abs d, ← sq_abs x, ← sq_abs y, ← sq_abs z, ← sq_abs w]
  generalize |a| = a
  generalize |b| = b
  generalize |c| = c
  generalize |d| = d
  generalize |x| = x
  generalize |y| = y
  generalize |z| = z
  generalize |w| = w
  nlinarith [sq_nonneg (a * y - b * x), sq_nonneg (a * z - c * x), sq_nonneg (a * w - d * x), sq_nonneg (b * z - c * y),
    sq_nonneg (b * w - d * y), sq_nonneg (c * w - d * z)]

/-- Four components of the same size. -/
theorem gap_le_of_components {p q : Quat} {c : ℝ} (hc : 0 ≤ c) (hx : |p.x - q.x| ≤ c) (hy : |p.y - q.y| ≤ c) (hz : |p.z - q.z| ≤ c)
    (hw : |p.w - q.w| ≤ c) : ‖p.toH - q.toH‖ ≤ 2 * c := by
  rw [← gap_eq]
  unfold Spec.gap
  apply Real.sqrt_le_iff.mpr ⟨by linarith, ?_⟩
  have := sq_le_sq' (abs_le.mp hx).1 (abs_le.mp hx).2
  have := sq_le_sq' (abs_le.mp hy).1 (abs_le.mp hy).2
  have := sq_le_sq' (abs_le.mp hz).1 (abs_le.mp hz).2
  have := sq_le_sq' (abs_le.mp hw).1 (abs_le.mp hw).2
  nlinarith

/-- Relative errors of the components. -/
theorem gap_le_of_relative {p q : Quat} {c : ℝ} (hc : 0 ≤ c) (hx : |p.x - q.x| ≤ c * |q.x|) (hy : |p.y - q.y| ≤ c * |q.y|)
    (hz : |p.z - q.z| ≤ c * |q.z|) (hw : |p.w - q.w| ≤ c * |q.w|) : ‖p.toH - q.toH‖ ≤ c * ‖q.toH‖ := by
  rw [← gap_eq, ← len_eq]
  unfold Spec.gap Spec.len
  apply Real.sqrt_le_iff.mpr ⟨by positivity, ?_⟩
  rw [mul_pow, Real.sq_sqrt (by positivity)]
  have key : ∀ a b : ℝ, |a - b| ≤ c * |b| → (a - b) ^ 2 ≤ c ^ 2 * b ^ 2 := by
    intro a b h
    have := pow_le_pow_left₀ (abs_nonneg _) h 2
    rwa [sq_abs, mul_pow, sq_abs] at this
  linarith [key _ _ hx, key _ _ hy, key _ _ hz, key _ _ hw]

namespace Arith

variable {u : ℝ} {A : Arith}

/-- The product. -/
theorem mul_components (h : Spec.Machine u A) (p q : Quat) :
    (|(A.mul p q).x - (p * q).x| ≤ 5 * u * (‖p.toH‖ * ‖q.toH‖) ∧ |(A.mul p q).y - (p * q).y| ≤ 5 * u * (‖p.toH‖ * ‖q.toH‖)) ∧
    (|(A.mul p q).z - (p * q).z| ≤ 5 * u * (‖p.toH‖ * ‖q.toH‖) ∧ |(A.mul p q).w - (p * q).w| ≤ 5 * u * (‖p.toH‖ * ‖q.toH‖)) := by
  have hg := growth h
  have hn := growth_nonneg h
  have hP : ‖p.toH‖ = Real.sqrt (p.x ^ 2 + p.y ^ 2 + p.z ^ 2 + p.w ^ 2) := (len_eq p).symm
  have hQ : ‖q.toH‖ = Real.sqrt (q.x ^ 2 + q.y ^ 2 + q.z ^ 2 + q.w ^ 2) := (len_eq q).symm
  have fin : ∀ {e M : ℝ}, |e| ≤ ((1 + u) ^ 4 - 1) * M → M ≤ ‖p.toH‖ * ‖q.toH‖ → |e| ≤ 5 * u * (‖p.toH‖ * ‖q.toH‖) := by
    intro e M he hM
    have h0 := h.nonneg
    have h1 : ((1 + u) ^ 4 - 1) * M ≤ ((1 + u) ^ 4 - 1) * (‖p.toH‖ * ‖q.toH‖) := mul_le_mul_of_nonneg_left hM hn
    have h2 : ((1 + u) ^ 4 - 1) * (‖p.toH‖ * ‖q.toH‖) ≤ 5 * u * (‖p.toH‖ * ‖q.toH‖) := mul_le_mul_of_nonneg_right hg (by positivity)
    linarith
  have r := h.rounds
  have n := neg_near h
  refine ⟨⟨?_, ?_⟩, ?_, ?_⟩
  · refine fin (M := |p.w * q.x| + |p.x * q.w| + |p.y * q.z| + |p.z * q.y|) ?_ ?_
    · have := sum_four h (r (p.w * q.x)) (r (p.x * q.w)) (r (p.y * q.z)) (n (p.z * q.y))
      rw [abs_neg] at this
      simpa only [mul, Quat.mul_x, ← sub_eq_add_neg] using this
    · rw [hP, hQ]
      refine (cauchy_abs p.w p.x p.y p.z q.x q.w q.z q.y).trans (le_of_eq ?_)
      congr 2 <;> ring
  · refine fin (M := |p.w * q.y| + |p.x * q.z| + |p.y * q.w| + |p.z * q.x|) ?_ ?_
    · have := sum_four h (r (p.w * q.y)) (n (p.x * q.z)) (r (p.y * q.w)) (r (p.z * q.x))
      rw [abs_neg (p.x * q.z)] at this
      simpa only [mul, Quat.mul_y, ← sub_eq_add_neg] using this
    · rw [hP, hQ]
      refine (cauchy_abs p.w p.x p.y p.z q.y q.z q.w q.x).trans (le_of_eq ?_)
      congr 2 <;> ring
  · refine fin (M := |p.w * q.z| + |p.x * q.y| + |p.y * q.x| + |p.z * q.w|) ?_ ?_
    · have := sum_four h (r (p.w * q.z)) (r (p.x * q.y)) (n (p.y * q.x)) (r (p.z * q.w))
      rw [abs_neg (p.y * q.x)] at this
      simpa only [mul, Quat.mul_z, ← sub_eq_add_neg] using this
    · rw [hP, hQ]
      refine (cauchy_abs p.w p.x p.y p.z q.z q.y q.x q.w).trans (le_of_eq ?_)
      congr 2 <;> ring
  · refine fin (M := |p.w * q.w| + |p.x * q.x| + |p.y * q.y| + |p.z * q.z|) ?_ ?_
    · have := sum_four h (r (p.w * q.w)) (n (p.x * q.x)) (n (p.y * q.y)) (n (p.z * q.z))
      rw [abs_neg (p.x * q.x), abs_neg (p.y * q.y), abs_neg (p.z * q.z)] at this
      simpa only [mul, Quat.mul_w, ← sub_eq_add_neg] using this
    · rw [hP, hQ]
      refine (cauchy_abs p.w p.x p.y p.z q.w q.x q.y q.z).trans (le_of_eq ?_)
      congr 2 <;> ring

theorem mul_near (h : Spec.Machine u A) (p q : Quat) : ‖(A.mul p q).toH - p.toH * q.toH‖ ≤ 10 * u * (‖p.toH‖ * ‖q.toH‖) := by
  obtain ⟨⟨hx, hy⟩, hz, hw⟩ := mul_components h p q
  have h0 := h.nonneg
  have := gap_le_of_components (by positivity) hx hy hz hw
  rw [Quat.toH_mul] at this
  linarith

theorem add_near (h : Spec.Machine u A) (p q : Quat) : ‖(A.add p q).toH - (p.toH + q.toH)‖ ≤ u * ‖p.toH + q.toH‖ := by
  rw [← Quat.toH_add]
  exact gap_le_of_relative h.nonneg (h.rounds _) (h.rounds _) (h.rounds _) (h.rounds _)

theorem smul_near (h : Spec.Machine u A) (s : ℝ) (q : Quat) : ‖(A.smul s q).toH - s • q.toH‖ ≤ u * ‖s • q.toH‖ := by
  rw [← Quat.toH_smul]
  exact gap_le_of_relative h.nonneg (h.rounds _) (h.rounds _) (h.rounds _) (h.rounds _)

/-- The quotient by a number that is itself only known up to a relative error. -/
theorem quot_near (h : Spec.Machine u A) (q : Quat) {n N c : ℝ} (hN : 0 < N) (hc0 : 0 ≤ c) (hc : c ≤ 1 / 10) (hn : |n - N| ≤ c * N) :
    ‖(A.quot q n).toH - N⁻¹ • q.toH‖ ≤ (u + c) / (1 - c) * ‖N⁻¹ • q.toH‖ ∧ 0 < n := by
  have h0 := h.nonneg
  have hn1 : (1 - c) * N ≤ n := by linarith [(abs_le.mp hn).1]
  have hpos : 0 < n := lt_of_lt_of_le (by nlinarith) hn1
  have hc1 : 0 < 1 - c := by linarith
  refine ⟨?_, hpos⟩
  have key : ∀ y : ℝ, |A.fl (y / n) - N⁻¹ * y| ≤ (u + c) / (1 - c) * |N⁻¹ * y| := by
    intro y
    have h1 := h.rounds (y / n)
    have e1 : y / n = N⁻¹ * y * (N / n) := by field_simp
    have h2 : |N / n| ≤ 1 / (1 - c) := by
      rw [abs_of_pos (by positivity), div_le_div_iff₀ hpos hc1]
      linarith
    have e2 : y / n - N⁻¹ * y = N⁻¹ * y * ((N - n) / N * (N / n)) := by
      have := hpos.ne'
      field_simp
    have h3 : |(N - n) / N| ≤ c := by
      rw [abs_div, abs_of_pos hN, div_le_iff₀ hN, abs_sub_comm]
      exact hn
    have h4 : |y / n| ≤ |N⁻¹ * y| * (1 / (1 - c)) := by
      rw [e1, abs_mul]
      exact mul_le_mul_of_nonneg_left h2 (abs_nonneg _)
    have h5 : |y / n - N⁻¹ * y| ≤ |N⁻¹ * y| * (c * (1 / (1 - c))) := by
      rw [e2, abs_mul (N⁻¹ * y), abs_mul ((N - n) / N)]
      exact mul_le_mul_of_nonneg_left (mul_le_mul h3 h2 (abs_nonneg _) hc0) (abs_nonneg _)
    calc |A.fl (y / n) - N⁻¹ * y| ≤ |A.fl (y / n) - y / n| + |y / n - N⁻¹ * y| := abs_sub_le _ _ _
      _ ≤ u * (|N⁻¹ * y| * (1 / (1 - c))) + |N⁻¹ * y| * (c * (1 / (1 - c))) := by
        have := mul_le_mul_of_nonneg_left h4 h0
        linarith
      _ = _ := by ring
  have := gap_le_of_relative (p := A.quot q n) (q := N⁻¹ • q) (c := (u + c) / (1 - c)) (by positivity) (key _) (key _) (key _) (key _)
  rwa [Quat.toH_smul] at this

theorem dot_self (h : Spec.Machine u A) (q : Quat) : |A.dot q q - ‖q.toH‖ ^ 2| ≤ 5 * u * ‖q.toH‖ ^ 2 := by
  have h1 := h.dots q q
  have hg := growth h
  rw [norm_sq_quat]
  have e : |q.x * q.x| + |q.y * q.y| + |q.z * q.z| + |q.w * q.w| = q.x ^ 2 + q.y ^ 2 + q.z ^ 2 + q.w ^ 2 := by
    simp only [abs_mul_self]; ring
  rw [e] at h1
  have e2 : q.x * q.x + q.y * q.y + q.z * q.z + q.w * q.w = q.x ^ 2 + q.y ^ 2 + q.z ^ 2 + q.w ^ 2 := by ring
  rw [e2] at h1
  refine h1.trans (mul_le_mul_of_nonneg_right hg (by positivity))

theorem norm_near (h : Spec.Machine u A) (q : Quat) : |A.norm q - ‖q.toH‖| ≤ 7 * u * ‖q.toH‖ := by
  have h0 := h.nonneg
  have hs := h.small
  have hd := dot_self h q
  set N := ‖q.toH‖ with hN
  have hN0 : 0 ≤ N := norm_nonneg _
  have h1 : |Real.sqrt (A.dot q q) - N| ≤ 5 * u * N := by
    obtain ⟨h2, h3⟩ := abs_le.mp hd
    rw [abs_le]
    constructor
    · have : (1 - 5 * u) * N ≤ Real.sqrt (A.dot q q) := by
        apply Real.le_sqrt_of_sq_le
        have : (1 - 5 * u) ^ 2 ≤ 1 - 5 * u := by nlinarith
        rw [mul_pow]
        nlinarith [mul_le_mul_of_nonneg_right this (sq_nonneg N)]
      linarith
    · have : Real.sqrt (A.dot q q) ≤ (1 + 5 * u) * N := by
        apply Real.sqrt_le_iff.mpr ⟨by positivity, ?_⟩
        rw [mul_pow]
        have : 1 + 5 * u ≤ (1 + 5 * u) ^ 2 := by nlinarith
        nlinarith [mul_le_mul_of_nonneg_right this (sq_nonneg N)]
      linarith
  have h2 := h.rounds (Real.sqrt (A.dot q q))
  have h3 : |Real.sqrt (A.dot q q)| ≤ (1 + 5 * u) * N := by
    rw [abs_of_nonneg (Real.sqrt_nonneg _)]
    linarith [(abs_le.mp h1).2]
  have h4 : u * |Real.sqrt (A.dot q q)| ≤ u * ((1 + 5 * u) * N) := mul_le_mul_of_nonneg_left h3 h0
  have h5 : |A.norm q - N| ≤ |A.norm q - Real.sqrt (A.dot q q)| + |Real.sqrt (A.dot q q) - N| := abs_sub_le _ _ _
  have h6 : u * ((1 + 5 * u) * N) ≤ 2 * u * N := by
    have : u * N * (1 + 5 * u) ≤ u * N * 2 := mul_le_mul_of_nonneg_left (by linarith) (by positivity)
    linarith
  have h7 : |A.norm q - Real.sqrt (A.dot q q)| ≤ u * |Real.sqrt (A.dot q q)| := h2
  linarith

theorem inverse_near (h : Spec.Machine u A) {q : Quat} (hq : q.toH ≠ 0) :
    ∃ i, A.inverse q = .ok i ∧ ‖i.toH - (q.toH)⁻¹‖ ≤ 7 * u * ‖q.toH‖⁻¹ := by
  have h0 := h.nonneg
  have hs := h.small
  have hN : 0 < ‖q.toH‖ := norm_pos_iff.mpr hq
  obtain ⟨h1, h2⟩ := quot_near h q.conj (N := ‖q.toH‖ ^ 2) (by positivity) (c := 5 * u) (by linarith) (by linarith) (dot_self h q)
  refine ⟨A.quot q.conj (A.dot q q), ?_, ?_⟩
  · unfold inverse divScalar
    rw [if_neg h2.ne']
  have e : (‖q.toH‖ ^ 2)⁻¹ • q.conj.toH = (q.toH)⁻¹ := by
    rw [Quat.toH_conj, Quaternion.inv_def, Quaternion.normSq_eq_norm_mul_self, sq]
  rw [e, norm_inv] at h1
  refine h1.trans (mul_le_mul_of_nonneg_right ?_ (by positivity))
  rw [div_le_iff₀ (by linarith)]
  nlinarith

theorem quot_norm_near (h : Spec.Machine u A) {q : Quat} (hq : q.toH ≠ 0) (d : Quat) :
    ‖(A.quot d (A.norm q)).toH - ‖q.toH‖⁻¹ • d.toH‖ ≤ 9 * u * ‖‖q.toH‖⁻¹ • d.toH‖ ∧ 0 < A.norm q := by
  have h0 := h.nonneg
  have hs := h.small
  have hN : 0 < ‖q.toH‖ := norm_pos_iff.mpr hq
  obtain ⟨h1, h2⟩ := quot_near h d hN (c := 7 * u) (by linarith) (by linarith) (norm_near h q)
  refine ⟨h1.trans (mul_le_mul_of_nonneg_right ?_ (norm_nonneg _)), h2⟩
  rw [div_le_iff₀ (by linarith)]
  nlinarith

/-- What `normalize` leaves has length one up to rounding. -/
theorem normalize_near (h : Spec.Machine u A) {q : Quat} (hq : 2e-8 ≤ ‖q.toH‖) :
    ‖(A.normalize q).toH - ‖q.toH‖⁻¹ • q.toH‖ ≤ 9 * u := by
  have h0 := h.nonneg
  have hs := h.small
  have hN : 0 < ‖q.toH‖ := lt_of_lt_of_le (by norm_num) hq
  have h1 := quot_norm_near h (norm_pos_iff.mp hN) q
  have h2 : A.norm q > 1e-8 := by
    have := (abs_le.mp (norm_near h q)).1
    have : (1 - 7 * u) * ‖q.toH‖ ≤ A.norm q := by linarith
    have h3 : (1 - 7 * u) * ‖q.toH‖ ≥ 9 / 10 * ‖q.toH‖ := mul_le_mul_of_nonneg_right (by linarith) hN.le
    norm_num at hq ⊢
    linarith
  unfold normalize
  rw [if_pos h2]
  have e : ‖‖q.toH‖⁻¹ • q.toH‖ = 1 := by rw [norm_smul, norm_inv, norm_norm, inv_mul_cancel₀ hN.ne']
  have := h1.1
  rwa [e, mul_one] at this

end Arith

end HandEye
