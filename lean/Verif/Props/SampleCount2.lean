import Verif.Props.Resample
import Verif.Props.SampleCount

/-! # Property C111: the number of samples in floating-point arithmetic -/

namespace HandEye

/-- **C111**, sums: the addition from the left to the right in `float64` has one rounding for every element. -/
theorem C111_sum : Spec.Sums (2⁻¹ ^ 53) sumDouble := by
  have key : ∀ (l : List ℝ) (s t T : ℝ) (k : ℕ), |t| ≤ T → |s - t| ≤ ((1 + (2⁻¹ : ℝ) ^ 53) ^ k - 1) * T →
      |l.foldl (fun s x => roundDouble (s + x)) s - (t + l.sum)| ≤ ((1 + (2⁻¹ : ℝ) ^ 53) ^ (k + l.length) - 1) * (T + (l.map abs).sum) := by
    intro l
    induction l with
    | nil =>
      intro s t T k _ h
      simpa using h
    | cons x l ih =>
      intro s t T k ht h
      have hx := abs_nonneg x
      have hT : 0 ≤ T := (abs_nonneg _).trans ht
      have htx : |t + x| ≤ T + |x| := (abs_add_le _ _).trans (by linarith)
      have step : |roundDouble (s + x) - (t + x)| ≤ ((1 + (2⁻¹ : ℝ) ^ 53) ^ (k + 1) - 1) * (T + |x|) := by
        have r := roundDouble_near (s + x)
        set u : ℝ := (2⁻¹ : ℝ) ^ 53 with hu
        have hu0 : 0 < u := by positivity
        have hp : 1 ≤ (1 + u) ^ k := one_le_pow₀ (by linarith)
        have hpx : 0 ≤ ((1 + u) ^ k - 1) * |x| := mul_nonneg (by linarith) hx
        have e2 : |s + x - (t + x)| ≤ ((1 + u) ^ k - 1) * (T + |x|) := by
          have : s + x - (t + x) = s - t := by ring
          rw [this]
          linarith
        have e1 : |s + x| ≤ (1 + u) ^ k * (T + |x|) := by
          have := abs_sub_abs_le_abs_sub (s + x) (t + x)
          linarith
        have e3 := abs_sub_le (roundDouble (s + x)) (s + x) (t + x)
        have e4 : u * |s + x| ≤ u * ((1 + u) ^ k * (T + |x|)) := mul_le_mul_of_nonneg_left e1 hu0.le
        rw [pow_succ]
        linarith
      have := ih (roundDouble (s + x)) (t + x) (T + |x|) (k + 1) htx step
      rw [List.foldl_cons, List.sum_cons, List.length_cons, List.map_cons, List.sum_cons]
      have e1 : t + x + l.sum = t + (x + l.sum) := by ring
      have e2 : k + 1 + l.length = k + (l.length + 1) := by omega
      have e3 : T + |x| + (l.map abs).sum = T + (|x| + (l.map abs).sum) := by ring
      rw [e1, e2, e3] at this
      exact this
  intro l
  have := key l 0 0 0 0 (by simp) (by simp)
  simpa [sumDouble] using this

example : |sumDouble [0.1, -0.2, 0.3] - 0.2| ≤ ((1 + (2⁻¹ : ℝ) ^ 53) ^ 3 - 1) * 0.6 := by
  have := C111_sum [0.1, -0.2, 0.3]
  have e : ([0.1, -0.2, 0.3] : List ℝ).sum = 0.2 := by norm_num
  have e' : (([0.1, -0.2, 0.3] : List ℝ).map abs).sum = 0.6 := by
    simp only [List.map_cons, List.map_nil, List.sum_cons, List.sum_nil, abs_neg]
    rw [abs_of_pos (by norm_num), abs_of_pos (by norm_num), abs_of_pos (by norm_num)]
    norm_num
  rw [e, e'] at this
  exact this

/-- Numbers that are not negative are their absolute values. -/
theorem map_abs_nonneg {l : List ℝ} (h : ∀ x ∈ l, 0 ≤ x) : l.map abs = l := by
  conv_rhs => rw [← List.map_id l]
  exact List.map_congr_left fun x hx => abs_of_nonneg (h x hx)

theorem pow_rounding {u : ℝ} (h0 : 0 ≤ u) (m : ℕ) (hm : m * u ≤ 1 / 36) : (1 + u) ^ m - 1 ≤ 1.03 * (m * u) := by
  have key : ∀ k : ℕ, k ≤ m → (1 + u) ^ k * (1 - k * u) ≤ 1 := by
    intro k
    induction k with
    | zero => simp
    | succ k ih =>
      intro hk
      have := ih (by omega)
      have hp : 0 ≤ (1 + u) ^ k := by positivity
      rw [pow_succ]
      push_cast
      have hq : 0 ≤ (1 + u) ^ k * ((k + 1) * u ^ 2) := by positivity
      nlinarith
  have h1 := key m le_rfl
  have hp : 1 ≤ (1 + u) ^ m := one_le_pow₀ (by linarith)
  have hmu : 0 ≤ (m : ℝ) * u := by positivity
  generalize (m : ℝ) * u = x at *
  have : (1 + u) ^ m ≤ 37 / 36 * 1 + 1 := by
    nlinarith
  have h2 : (1 + u) ^ m * (1 - 1 / 36) ≤ 1 := by nlinarith
  have h3 : (1 + u) ^ m ≤ 36 / 35 := by linarith
  norm_num
  nlinarith

theorem npDiff_total : ∀ (times : List ℝ) {a b : ℝ}, times.head? = some a → times.getLast? = some b → (npDiff times).sum = b - a := by
  intro times
  induction times with
  | nil => intro a b h; simp at h
  | cons t l ih =>
    intro a b ha hb
    cases l with
    | nil =>
      simp only [List.head?_cons, Option.some.injEq, List.getLast?_singleton] at ha hb
      simp [npDiff, ← ha, ← hb]
    | cons s l =>
      rw [List.getLast?_cons_cons] at hb
      have := ih (a := s) rfl hb
      simp only [List.head?_cons, Option.some.injEq] at ha
      unfold npDiff at this ⊢
      simp only [List.tail_cons, List.zipWith_cons_cons, List.sum_cons] at this ⊢
      rw [this, ← ha]
      ring

theorem npDiff_count (times : List ℝ) : (npDiff times).length = times.length - 1 := by
  unfold npDiff
  rw [List.length_zipWith, List.length_tail]
  omega

theorem npDiff_positive {times : List ℝ} (hs : times.Pairwise (· < ·)) : ∀ x ∈ npDiff times, 0 < x := by
  induction times with
  | nil => simp [npDiff]
  | cons t l ih =>
    cases l with
    | nil => simp [npDiff]
    | cons s l =>
      have := ih hs.of_cons
      unfold npDiff at this ⊢
      simp only [List.tail_cons, List.zipWith_cons_cons, List.mem_cons, forall_eq_or_imp] at this ⊢
      refine ⟨?_, this⟩
      have := List.rel_of_pairwise_cons hs (List.mem_cons_self ..)
      linarith

theorem rounded_list_sum {u : ℝ} {A : Arith} (h : Spec.Machine u A) : ∀ l : List ℝ, (∀ x ∈ l, 0 ≤ x) → |(l.map A.fl).sum - l.sum| ≤ u * l.sum := by
  intro l
  induction l with
  | nil => simp
  | cons x l ih =>
    intro hl
    have h1 := ih fun y hy => hl y (List.mem_cons_of_mem _ hy)
    have h2 := h.rounds x
    rw [abs_of_nonneg (hl x (List.mem_cons_self ..))] at h2
    rw [List.map_cons, List.sum_cons, List.sum_cons]
    have : A.fl x + (l.map A.fl).sum - (x + l.sum) = (A.fl x - x) + ((l.map A.fl).sum - l.sum) := by ring
    rw [this]
    refine (abs_add_le _ _).trans ?_
    linarith

/-- The mean step differs from the exact one by a relative error of `(1.1 m + 2.2) u` for `m` steps. -/
theorem meanStep_near {u : ℝ} {A : Arith} (h : Spec.Machine u A) {sum : List ℝ → ℝ} (hsum : Spec.Sums u sum) {times : List ℝ} {a b : ℝ} {m : ℕ}
    (hs : times.Pairwise (· < ·)) (hlen : times.length = m + 1) (hm : 1 ≤ m) (ha : times.head? = some a) (hb : times.getLast? = some b)
    (hu : ((m : ℝ) + 8) ^ 2 * u ≤ 1 / 4) :
    ∃ dt, A.meanStep sum times = .ok dt ∧ |m * dt - (b - a)| ≤ (1.1 * m + 2.2) * u * (b - a) := by
  have h0 := h.nonneg
  have hm1 : (1 : ℝ) ≤ m := by exact_mod_cast hm
  have hmu8 : ((m : ℝ) + 8) * u ≤ 1 / 36 := by nlinarith
  have hmu : (m : ℝ) * u ≤ 1 / 36 := by linarith
  have hu1 : u ≤ 1 / 324 := by nlinarith
  have hpos := npDiff_positive hs
  have htot := npDiff_total times ha hb
  have hL : 0 ≤ b - a := by
    rw [← htot]
    exact List.sum_nonneg fun x hx => (hpos x hx).le
  have e1 := rounded_list_sum h (npDiff times) fun x hx => (hpos x hx).le
  rw [htot] at e1
  have hnn : ∀ x ∈ (npDiff times).map A.fl, 0 ≤ x := by
    intro x hx
    obtain ⟨y, hy, rfl⟩ := List.mem_map.mp hx
    have r := h.rounds y
    rw [abs_of_pos (hpos y hy)] at r
    have := (abs_le.mp r).1
    have := hpos y hy
    nlinarith [h.small]
  have e2 := hsum ((npDiff times).map A.fl)
  rw [map_abs_nonneg hnn, List.length_map, npDiff_count, hlen, Nat.add_sub_cancel] at e2
  set T := ((npDiff times).map A.fl).sum with hT
  set s := sum ((npDiff times).map A.fl) with hsdef
  have hTb : T ≤ (1 + u) * (b - a) := by
    have := (abs_le.mp e1).2
    linarith
  have hT0 : 0 ≤ T := List.sum_nonneg hnn
  have e3 : |s - T| ≤ 1.04 * (m * u) * (b - a) := by
    refine e2.trans ?_
    have k1 := pow_rounding h0 m hmu
    have k2 : ((1 + u) ^ m - 1) * T ≤ 1.03 * (m * u) * T := mul_le_mul_of_nonneg_right k1 hT0
    have k3 : 1.03 * (m * u) * T ≤ 1.03 * (m * u) * ((1 + u) * (b - a)) := mul_le_mul_of_nonneg_left hTb (by positivity)
    refine k2.trans (k3.trans ?_)
    rw [← mul_assoc]
    apply mul_le_mul_of_nonneg_right _ hL
    have : 0 ≤ (m : ℝ) * u := by positivity
    norm_num
    nlinarith
  have e4 : |s| ≤ 1.05 * (b - a) := by
    have k1 := abs_sub_abs_le_abs_sub s T
    rw [abs_of_nonneg hT0] at k1
    have k2 : 1.04 * (m * u) * (b - a) ≤ 1.04 * (1 / 36) * (b - a) := mul_le_mul_of_nonneg_right (by linarith) hL
    have k3 : (1 + u) * (b - a) ≤ (1 + 1 / 324) * (b - a) := mul_le_mul_of_nonneg_right (by linarith) hL
    norm_num at k2 k3 e3 ⊢
    linarith
  have hm0 : (0 : ℝ) < m := by linarith
  refine ⟨A.fl (s / m), ?_, ?_⟩
  · unfold Arith.meanStep
    rw [if_neg (by omega), hlen, Nat.add_sub_cancel]
  · have r := h.rounds (s / m)
    have e5 : |m * A.fl (s / m) - s| ≤ u * |s| := by
      have k : m * A.fl (s / m) - s = m * (A.fl (s / m) - s / m) := by
        field_simp
      rw [k, abs_mul, abs_of_pos hm0]
      have : (m : ℝ) * |A.fl (s / m) - s / m| ≤ m * (u * |s / m|) := mul_le_mul_of_nonneg_left r hm0.le
      rw [abs_div, abs_of_pos hm0] at this
      have k2 : (m : ℝ) * (u * (|s| / m)) = u * |s| := by
        field_simp
      linarith
    have e6 : u * |s| ≤ u * (1.05 * (b - a)) := mul_le_mul_of_nonneg_left e4 h0
    have k : m * A.fl (s / m) - (b - a) = (m * A.fl (s / m) - s) + (s - T) + (T - (b - a)) := by ring
    rw [k]
    refine (abs_add_le _ _).trans ((add_le_add (abs_add_le _ _) le_rfl).trans ?_)
    have k3 : 0 ≤ (m * u) * (b - a) := by positivity
    have k4 : 0 ≤ u * (b - a) := by positivity
    norm_num at e3 e6 ⊢
    linarith

theorem quotient_near {u η L D dt : ℝ} {m : ℝ} (hm : 1 ≤ m) (hL : 0 < L) (h0 : 0 ≤ u) (hη : |m * dt - L| ≤ η * L) (hD : |D - L| ≤ u * L)
    (hη1 : η ≤ 0.035) : 0 < dt ∧ |D / dt - m| ≤ 1.04 * m * (u + η) := by
  obtain ⟨a1, a2⟩ := abs_le.mp hη
  obtain ⟨b1, b2⟩ := abs_le.mp hD
  have hη0 : 0 ≤ η := by
    have := (abs_nonneg _).trans hη
    by_contra hc
    push Not at hc
    nlinarith
  have hmd : 0.965 * L ≤ m * dt := by
    have : η * L ≤ 0.035 * L := mul_le_mul_of_nonneg_right hη1 hL.le
    norm_num at this ⊢
    linarith
  have hdt : 0 < dt := by
    have : 0 < m * dt := by
      norm_num at hmd
      linarith
    exact pos_of_mul_pos_right this (by linarith)
  refine ⟨hdt, ?_⟩
  have k : D / dt - m = (D - m * dt) / dt := by
    field_simp
  rw [k, abs_div, abs_of_pos hdt, div_le_iff₀ hdt]
  have k1 : |D - m * dt| ≤ (u + η) * L := by
    rw [abs_le]
    constructor <;> linarith
  refine k1.trans ?_
  have k2 : (u + η) * (0.965 * L) ≤ (u + η) * (m * dt) := mul_le_mul_of_nonneg_left hmd (by linarith)
  have k3 : 0 ≤ (u + η) * L := by positivity
  norm_num at k2 ⊢
  linarith

/-- **C111**, the number of samples (partial: it may be one less than the number of poses, see `C111_refuted`): for `m + 1` increasing time stamps and the mean of their
differences as `dt`, with any order of additions, `resample_quaternions` makes `m` or `m + 1` samples, if `(m + 8)² u ≤ 1 / 4` (for `float64`: up to 47 million poses). -/
theorem C111_count_partial {u : ℝ} {A : Arith} (h : Spec.Machine u A) (sum : List ℝ → ℝ) (hsum : Spec.Sums u sum) (times : List ℝ) (m : ℕ)
    (hs : times.Pairwise (· < ·)) (hlen : times.length = m + 1) (hm : 1 ≤ m) (hu : ((m : ℝ) + 8) ^ 2 * u ≤ 1 / 4) :
    ∃ dt n, A.meanStep sum times = .ok dt ∧ 0 < dt ∧ A.sampleCount times dt = .ok n ∧ (n = m ∨ n = m + 1) := by
  have h0 := h.nonneg
  have hm1 : (1 : ℝ) ≤ m := by exact_mod_cast hm
  obtain ⟨a, ha⟩ : ∃ a, times.head? = some a := by
    cases times with
    | nil => simp at hlen
    | cons t l => exact ⟨t, rfl⟩
  obtain ⟨b, hb⟩ : ∃ b, times.getLast? = some b := by
    cases hc : times.getLast? with
    | none =>
      rw [List.getLast?_eq_none_iff] at hc
      simp [hc] at hlen
    | some b => exact ⟨b, rfl⟩
  have hL : 0 < b - a := by
    rw [← npDiff_total times ha hb]
    refine List.sum_pos _ (npDiff_positive hs) ?_
    intro hc
    have := npDiff_count times
    rw [hc, hlen] at this
    simp at this
    omega
  obtain ⟨dt, e1, e2⟩ := meanStep_near h hsum hs hlen hm ha hb hu
  have hmu8 : ((m : ℝ) + 8) * u ≤ 1 / 36 := by nlinarith
  have hmu0 : 0 ≤ (m : ℝ) * u := by positivity
  have r1 := h.rounds (b - a)
  rw [abs_of_pos hL] at r1
  obtain ⟨hdt, e3⟩ := quotient_near hm1 hL h0 e2 r1 (by norm_num; linarith)
  refine ⟨dt, pyInt (A.fl (A.fl (A.fl (b - a) / dt) + 1)), e1, hdt, ?_, ?_⟩
  · unfold Arith.sampleCount
    rw [pyGet_last hb, Py.ok_bind, pyGet_first ha, Py.ok_bind, if_neg hdt.ne']
  · set R := A.fl (b - a) / dt with hR
    have e4 : |R - m| ≤ 1.15 * (m * (m + 3) * u) := by
      refine e3.trans ?_
      have k : 0 ≤ (m : ℝ) * (m * u) := by positivity
      norm_num
      linarith
    have k0 : (m : ℝ) * (m + 3) * u ≤ m * (1 / 36) := by
      have : (m : ℝ) * ((m + 3) * u) ≤ m * (1 / 36) := mul_le_mul_of_nonneg_left (by linarith) (by linarith)
      linarith
    have e5 : |R| ≤ 1.04 * m := by
      have := abs_sub_abs_le_abs_sub R m
      rw [abs_of_pos (a := (m : ℝ)) (by linarith)] at this
      norm_num at e4 ⊢
      linarith
    have r2 := h.rounds R
    have e6 : u * |R| ≤ u * (1.04 * m) := mul_le_mul_of_nonneg_left e5 h0
    have e7 : |A.fl R - m| ≤ 1.15 * (m * (m + 4) * u) := by
      have := abs_sub_le (A.fl R) R m
      norm_num at e4 e6 ⊢
      linarith
    have k1 : (m : ℝ) * (m + 4) * u ≤ m * (1 / 36) := by
      have : (m : ℝ) * ((m + 4) * u) ≤ m * (1 / 36) := mul_le_mul_of_nonneg_left (by linarith) (by linarith)
      linarith
    have e8 : |A.fl R + 1| ≤ 1.04 * m + 1 := by
      obtain ⟨c1, c2⟩ := abs_le.mp e7
      rw [abs_le]
      norm_num at c1 c2 ⊢
      constructor <;> linarith
    have r3 := h.rounds (A.fl R + 1)
    have e9 : u * |A.fl R + 1| ≤ u * (1.04 * m + 1) := mul_le_mul_of_nonneg_left e8 h0
    have e10 : |A.fl (A.fl R + 1) - (m + 1)| ≤ 1.15 * ((m + 8) ^ 2 * u) := by
      have k : A.fl (A.fl R + 1) - (m + 1) = (A.fl (A.fl R + 1) - (A.fl R + 1)) + (A.fl R - m) := by ring
      rw [k]
      refine (abs_add_le _ _).trans ?_
      norm_num at e7 e9 ⊢
      nlinarith
    have e11 : |A.fl (A.fl R + 1) - (m + 1)| < 1 := by
      refine e10.trans_lt ?_
      norm_num
      linarith
    obtain ⟨c1, c2⟩ := abs_lt.mp e11
    unfold pyInt
    rw [if_pos (by linarith)]
    have f1 : (m : ℤ) ≤ ⌊A.fl (A.fl R + 1)⌋ := by
      rw [Int.le_floor]
      push_cast
      linarith
    have f2 : ⌊A.fl (A.fl R + 1)⌋ < (m : ℤ) + 2 := by
      rw [Int.floor_lt]
      push_cast
      linarith
    omega

example : ∃ dt n, (doubleArith Real.arccos).meanStep sumDouble [0, 0.1, 0.2] = .ok dt ∧ 0 < dt ∧
    (doubleArith Real.arccos).sampleCount [0, 0.1, 0.2] dt = .ok n ∧ (n = 2 ∨ n = 2 + 1) := by
  have := C111_count_partial (machine_double Real.arccos) sumDouble C111_sum [0, 0.1, 0.2] 2 (by norm_num) rfl (by norm_num) (by norm_num)
  exact_mod_cast this

/-- **C111**, exact arithmetic: without rounding there is one sample for every pose. -/
theorem C111_exact {A : Arith} (hA : ∀ x, A.fl x = x) (times : List ℝ) (m : ℕ) (hs : times.Pairwise (· < ·)) (hlen : times.length = m + 1) (hm : 1 ≤ m) :
    ∃ dt, A.meanStep List.sum times = .ok dt ∧ A.sampleCount times dt = .ok (m + 1) := by
  obtain ⟨a, ha⟩ : ∃ a, times.head? = some a := by
    cases times with
    | nil => simp at hlen
    | cons t l => exact ⟨t, rfl⟩
  obtain ⟨b, hb⟩ : ∃ b, times.getLast? = some b := by
    cases hc : times.getLast? with
    | none =>
      rw [List.getLast?_eq_none_iff] at hc
      simp [hc] at hlen
    | some b => exact ⟨b, rfl⟩
  have hL : 0 < b - a := by
    rw [← npDiff_total times ha hb]
    refine List.sum_pos _ (npDiff_positive hs) ?_
    intro hc
    have := npDiff_count times
    rw [hc, hlen] at this
    simp at this
    omega
  have hm0 : (0 : ℝ) < m := by exact_mod_cast hm
  refine ⟨(b - a) / m, ?_, ?_⟩
  · unfold Arith.meanStep
    rw [if_neg (by omega), hlen, Nat.add_sub_cancel]
    have : (npDiff times).map A.fl = npDiff times := by
      rw [funext hA]
      exact List.map_id' _
    rw [this, hA, npDiff_total times ha hb]
  · unfold Arith.sampleCount
    rw [pyGet_last hb, Py.ok_bind, pyGet_first ha, Py.ok_bind, if_neg (by positivity)]
    rw [hA, hA, hA]
    have : (b - a) / ((b - a) / m) + 1 = ((m + 1 : ℤ) : ℝ) := by
      push_cast
      field_simp
    rw [this]
    unfold pyInt
    rw [if_pos (by push_cast; positivity), Int.floor_intCast]

/-- **C111**, refuted: eight poses within nine seconds give seven samples instead of eight in `float64`: `9 / (9 / 7)` is less than seven. -/
theorem C111_refuted (acos : ℝ → ℝ) :
    ∃ dt, (doubleArith acos).meanStep sumDouble [0, 1, 2, 3, 4, 5, 7, 9] = .ok dt ∧
      (doubleArith acos).sampleCount [0, 1, 2, 3, 4, 5, 7, 9] dt = .ok 7 := by
  have i1 : roundDouble 1 = 1 := rd_pos 52 (2 ^ 52) (by norm_num) (by norm_num) (by norm_num) (by norm_num) (by norm_num)
  have i2 : roundDouble 2 = 2 := rd_pos 51 (2 ^ 52) (by norm_num) (by norm_num) (by norm_num) (by norm_num) (by norm_num)
  have i3 : roundDouble 3 = 3 := rd_pos 51 (3 * 2 ^ 51) (by norm_num) (by norm_num) (by norm_num) (by norm_num) (by norm_num)
  have i4 : roundDouble 4 = 4 := rd_pos 50 (2 ^ 52) (by norm_num) (by norm_num) (by norm_num) (by norm_num) (by norm_num)
  have i5 : roundDouble 5 = 5 := rd_pos 50 (5 * 2 ^ 50) (by norm_num) (by norm_num) (by norm_num) (by norm_num) (by norm_num)
  have i7 : roundDouble 7 = 7 := rd_pos 50 (7 * 2 ^ 50) (by norm_num) (by norm_num) (by norm_num) (by norm_num) (by norm_num)
  have i9 : roundDouble 9 = 9 := rd_pos 49 (9 * 2 ^ 49) (by norm_num) (by norm_num) (by norm_num) (by norm_num) (by norm_num)
  have hd : npDiff [0, 1, 2, 3, 4, 5, 7, 9] = [1, 1, 1, 1, 1, 2, 2] := by
    unfold npDiff
    norm_num
  have hsum : sumDouble [1, 1, 1, 1, 1, 2, 2] = 9 := by
    unfold sumDouble
    simp only [List.foldl_cons, List.foldl_nil]
    norm_num [i1, i2, i3, i4, i5, i7, i9]
  have q1 : roundDouble (9 / 7) = 5790342378047781 / 2 ^ 52 :=
    rd_pos 52 5790342378047781 (by norm_num) (by norm_num) (by norm_num) (by norm_num) (by norm_num)
  have q2 : roundDouble (9 / (5790342378047781 / 2 ^ 52)) = 7881299347898367 / 2 ^ 50 :=
    rd_pos 50 7881299347898367 (by norm_num) (by norm_num) (by norm_num) (by norm_num) (by norm_num)
  have q3 : roundDouble (7881299347898367 / 2 ^ 50 + 1) = 9007199254740991 / 2 ^ 50 :=
    rd_pos 50 9007199254740991 (by norm_num) (by norm_num) (by norm_num) (by norm_num) (by norm_num)
  refine ⟨5790342378047781 / 2 ^ 52, ?_, ?_⟩
  · unfold Arith.meanStep
    rw [if_neg (by simp), hd]
    simp only [doubleArith, List.map_cons, List.map_nil, i1, i2, hsum]
    have : ((([0, 1, 2, 3, 4, 5, 7, 9] : List ℝ).length - 1 : ℕ) : ℝ) = 7 := by simp
    rw [this, q1]
  · unfold Arith.sampleCount
    rw [pyGet_last (last := 9) rfl, Py.ok_bind, pyGet_first (first := 0) rfl, Py.ok_bind, if_neg (by norm_num)]
    simp only [doubleArith, sub_zero]
    rw [i9, q2, q3]
    unfold pyInt
    rw [if_pos (by norm_num)]
    congr 1
    rw [Int.floor_eq_iff]
    norm_num

example : ∃ dt, (⟨id, fun p q => p.x * q.x + p.y * q.y + p.z * q.z + p.w * q.w, Real.arccos⟩ : Arith).meanStep List.sum [0, 1, 2, 3, 4, 5, 7, 9] = .ok dt ∧
    (⟨id, fun p q => p.x * q.x + p.y * q.y + p.z * q.z + p.w * q.w, Real.arccos⟩ : Arith).sampleCount [0, 1, 2, 3, 4, 5, 7, 9] dt = .ok (7 + 1) :=
  C111_exact (fun _ => rfl) _ 7 (by norm_num) rfl (by norm_num)

end HandEye
