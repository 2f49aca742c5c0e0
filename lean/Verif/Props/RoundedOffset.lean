import Verif.Props.SampleCount2
import Verif.Props.SignalNoise

/-! # Property C112: the time offset in floating-point arithmetic -/

namespace HandEye

open Spec

/-- A computed correlation of `A` and `B` for all lags, with errors of at most `κ`. -/
def Spec.Correlates (κ : ℝ) (A B : List ℝ) (out : List ℝ) : Prop :=
  out.length = B.length + A.length - 1 ∧ ∀ (k : ℕ) (hk : k < out.length), |out[k] - correlationAt A B ((k : ℤ) - A.length + 1)| ≤ κ

/-- The last lines of `calculate_time_offset_from_signals`. -/
theorem offset_near {u : ℝ} {A : Arith} (h : Spec.Machine u A) {n : ℕ} (hn : 1 ≤ n) (hu : ((n : ℝ) + 8) ^ 2 * u ≤ 1 / 4) {dt L k ta tb : ℝ} (hL : 0 ≤ L)
    (hdt : |n * dt - L| ≤ (1.1 * n + 2.2) * u * L) :
    |A.fl (A.fl (A.fl (dt * k) + tb) - ta) - (L / n * k + tb - ta)| ≤ ((1.1 * n + 6) * (L / n * |k|) + 3 * (|ta| + |tb|)) * u := by
  have h0 := h.nonneg
  have hs := h.small
  have hn1 : (1 : ℝ) ≤ n := by exact_mod_cast hn
  have hn0 : (0 : ℝ) < n := by linarith
  have hnu : ((n : ℝ) + 8) * u ≤ 1 / 36 := by nlinarith
  set E := L / n * |k| with hE
  have hE0 : 0 ≤ E := by positivity
  have g1 : |dt * k - L / n * k| ≤ (1.1 * n + 2.2) * u * E := by
    have e : dt * k - L / n * k = (n * dt - L) / n * k := by
      field_simp
    rw [e, abs_mul, abs_div, abs_of_pos hn0, hE]
    have : |n * dt - L| / n ≤ (1.1 * n + 2.2) * u * L / n := div_le_div_of_nonneg_right hdt hn0.le
    calc |n * dt - L| / n * |k| ≤ (1.1 * n + 2.2) * u * L / n * |k| := mul_le_mul_of_nonneg_right this (abs_nonneg _)
      _ = _ := by ring
  have hc : (1.1 * n + 2.2) * u ≤ 0.04 := by
    norm_num
    linarith
  have habs : |L / n * k| = E := by
    rw [abs_mul, abs_of_nonneg (by positivity : (0 : ℝ) ≤ L / n)]
  have g2 : |dt * k| ≤ 1.04 * E := by
    have k1 := abs_sub_abs_le_abs_sub (dt * k) (L / n * k)
    rw [habs] at k1
    have k2 : (1.1 * n + 2.2) * u * E ≤ 0.04 * E := mul_le_mul_of_nonneg_right hc hE0
    linarith
  have r1 := h.rounds (dt * k)
  set P := A.fl (dt * k)
  have k3 : u * |dt * k| ≤ u * (1.04 * E) := mul_le_mul_of_nonneg_left g2 h0
  have huE : u * E ≤ 1 / 1000 * E := mul_le_mul_of_nonneg_right hs hE0
  have huE0 : 0 ≤ u * E := mul_nonneg h0 hE0
  have g3 : |P| ≤ 1.05 * E := by
    have k1 := abs_sub_abs_le_abs_sub P (dt * k)
    generalize |dt * k| = Z at *
    norm_num at k3 g2 ⊢
    linarith
  have r2 := h.rounds (P + tb)
  set Q := A.fl (P + tb)
  have hPt : |P + tb| ≤ 1.05 * E + |tb| := (abs_add_le _ _).trans (by linarith)
  have k4 : u * |P + tb| ≤ u * (1.05 * E + |tb|) := mul_le_mul_of_nonneg_left hPt h0
  have hut : u * |tb| ≤ 1 / 1000 * |tb| := mul_le_mul_of_nonneg_right hs (abs_nonneg _)
  have hut0 : 0 ≤ u * |tb| := mul_nonneg h0 (abs_nonneg _)
  have hQ : |Q| ≤ 1.06 * E + 1.01 * |tb| := by
    have k1 := abs_sub_abs_le_abs_sub Q (P + tb)
    have := abs_nonneg tb
    norm_num at k4 hPt ⊢
    linarith
  have r3 := h.rounds (Q - ta)
  have hQa : |Q - ta| ≤ 1.06 * E + 1.01 * |tb| + |ta| := (abs_sub _ _).trans (by linarith)
  have k5 : u * |Q - ta| ≤ u * (1.06 * E + 1.01 * |tb| + |ta|) := mul_le_mul_of_nonneg_left hQa h0
  have hua0 : 0 ≤ u * |ta| := mul_nonneg h0 (abs_nonneg _)
  have e : A.fl (Q - ta) - (L / n * k + tb - ta) = (A.fl (Q - ta) - (Q - ta)) + (Q - (P + tb)) + (P - dt * k) + (dt * k - L / n * k) := by ring
  rw [e]
  refine (abs_add_le _ _).trans ((add_le_add ((abs_add_le _ _).trans (add_le_add ((abs_add_le _ _).trans (add_le_add (r3.trans k5) (r2.trans k4)))
    (r1.trans k3))) g1).trans ?_)
  norm_num
  linarith

/-- **C112**: signals as in `C102_noise` (a clean signal and noise, the second one delayed by `m` samples), with a correlation computed up to errors of `κ` and all times
computed with roundings.  If a shift of the clean signal by more than `j` samples changes it by more than the noise and the errors allow, the offset is the
exact one of a delay `k` that is at most `j` samples off, up to the rounding of the times. -/
theorem C112_noise {u : ℝ} {R : Arith} (h : Spec.Machine u R) (correlate : List ℝ → List ℝ → List ℝ) (sum : List ℝ → ℝ) (hsum : Spec.Sums u sum) (κ : ℝ)
    (times_A A times_B B : List ℝ) (hκ : Spec.Correlates κ A B (correlate B A)) (f : ℤ → ℝ) (m : ℤ) (j n : ℕ) (c a b x ta tb last : ℝ) (hf : f.support.Finite)
    (hc : 0 ≤ c) (ha : 0 ≤ a) (hb : 0 ≤ b) (hx : 0 ≤ x) (ef : energy f ≤ x ^ 2) (eA : energy (fun i => sample A i - f i) ≤ a ^ 2)
    (eB : energy (fun i => sample B i - c * f (i - m)) ≤ b ^ 2) (hm : 0 < m + A.length) (hm' : m < B.length) (hA : A ≠ []) (hB : B ≠ [])
    (hmargin : ∀ s : ℤ, (j : ℤ) < |s| → 4 * (b * x + c * x * a + a * b + κ) < c * energy (fun i => f i - f (i - s)))
    (hs : times_A.Pairwise (· < ·)) (hlen : times_A.length = n + 1) (hn : 1 ≤ n) (hu : ((n : ℝ) + 8) ^ 2 * u ≤ 1 / 4)
    (hta : times_A.head? = some ta) (hlast : times_A.getLast? = some last) (htb : times_B.head? = some tb) :
    ∃ (o : ℝ) (k : ℤ), R.timeOffset correlate sum times_A A times_B B = .ok o ∧ |k - m| ≤ j ∧
      |o - ((last - ta) / n * k + tb - ta)| ≤ ((1.1 * n + 6) * ((last - ta) / n * |(k : ℝ)|) + 3 * (|ta| + |tb|)) * u := by
  have hlA : 0 < A.length := List.length_pos_of_ne_nil hA
  have hlB : 0 < B.length := List.length_pos_of_ne_nil hB
  obtain ⟨hclen, hκ⟩ := hκ
  obtain ⟨k, hk, hk1, hk2, -⟩ := npArgmax_spec (l := correlate B A) (by intro e; rw [e] at hclen; simp at hclen; omega)
  have hcorr : ∀ lag : ℤ, |correlationAt A B lag - c * (energy f - energy (fun i => f i - f (i - (lag - m))) / 2)| ≤
      b * x + c * x * a + a * b := fun lag => corr_noise hf (sample_support A) (sample_support B) hc ha hb hx m lag ef eA eB
  set k₀ : ℕ := (m + A.length - 1).toNat with hk₀
  have hk₀' : (k₀ : ℤ) - A.length + 1 = m := by omega
  have hk₀len : k₀ < (correlate B A).length := by rw [hclen]; omega
  have hge := hk2 _ (List.getElem_mem hk₀len)
  have q1 := abs_le.mp (hκ k₀ hk₀len)
  have q2 := abs_le.mp (hκ k hk)
  rw [hk₀'] at q1
  have hclose : |((k : ℤ) - A.length + 1) - m| ≤ j := by
    by_contra hcon
    have h1 := hmargin _ (not_le.mp hcon)
    have h2 := abs_le.mp (hcorr m)
    have h3 := abs_le.mp (hcorr ((k : ℤ) - A.length + 1))
    have h0 : energy (fun i => f i - f (i - (m - m))) = 0 := by simp [energy]
    rw [h0] at h2
    generalize energy (fun i => f i - f (i - ((k : ℤ) - A.length + 1 - m))) = X at *
    generalize correlationAt A B ((k : ℤ) - A.length + 1) = Y at *
    linarith [h2.1, h2.2, h3.1, h3.2, q1.1, q1.2, q2.1, q2.2]
  obtain ⟨dt, d1, d2⟩ := meanStep_near h hsum hs hlen hn hta hlast hu
  have hL : 0 ≤ last - ta := by
    rw [← npDiff_total times_A hta hlast]
    exact List.sum_nonneg fun x hx => (npDiff_positive hs x hx).le
  refine ⟨_, (k : ℤ) - A.length + 1, ?_, hclose, offset_near h hn hu hL d2⟩
  have e1 : pyAt times_B 0 = .ok tb := by rw [pyAt_eq_ok, ← List.head?_eq_getElem?, htb]
  have e2 : pyAt times_A 0 = .ok ta := by rw [pyAt_eq_ok, ← List.head?_eq_getElem?, hta]
  unfold Arith.timeOffset
  rw [pyRequire, if_pos (by omega), Py.ok_bind, d1, Py.ok_bind, hk1, Py.ok_bind, e1, Py.ok_bind, e2, Py.ok_bind, Py.pure_eq]

/-- **C112**, the direct correlation: for signals within `α` and `β`, its errors are at most `((1 + u)^(n + 1) - 1) n α β` for the `n` samples of `B`. -/
theorem C112_direct {u : ℝ} {R : Arith} (h : Spec.Machine u R) (sum : List ℝ → ℝ) (hsum : Spec.Sums u sum) (A B : List ℝ) (α β : ℝ)
    (hA : ∀ x ∈ A, |x| ≤ α) (hB : ∀ x ∈ B, |x| ≤ β) (hα : 0 ≤ α) (hβ : 0 ≤ β) :
    Spec.Correlates (((1 + u) ^ (B.length + 1) - 1) * (B.length * (β * α))) A B (R.correlate sum B A) := by
  have h0 := h.nonneg
  have hz : ∀ (l : List ℝ) (γ : ℝ), 0 ≤ γ → (∀ x ∈ l, |x| ≤ γ) → ∀ i, |l.getD i 0| ≤ γ := by
    intro l γ hγ hl i
    rw [List.getD_eq_getElem?_getD]
    cases hi : l[i]? with
    | none => simpa using hγ
    | some y => exact hl y (List.mem_of_getElem? hi)
  have hzA : ∀ i : ℤ, |zeroExt A i| ≤ α := by
    intro i
    unfold zeroExt
    split
    · exact hz A α hα hA _
    · rw [abs_zero]
      exact hα
  refine ⟨by simp [Arith.correlate], ?_⟩
  intro k hk
  have hkl : k < (correlateFull B A).length := by
    rw [correlateFull_length]
    simpa [Arith.correlate] using hk
  rw [← correlateFull_get A B k hkl]
  simp only [Arith.correlate, correlateFull, List.getElem_map, List.getElem_range]
  set g : ℕ → ℝ := fun l => B.getD l 0 * zeroExt A ((l : ℤ) - k + A.length - 1) with hg
  have hgb : ∀ l, |g l| ≤ β * α := by
    intro l
    rw [hg]
    dsimp only
    rw [abs_mul]
    exact mul_le_mul (hz B β hβ hB l) (hzA _) (abs_nonneg _) hβ
  have s1 := hsum ((List.range B.length).map fun l => R.fl (g l))
  rw [List.length_map, List.length_range, List.map_map] at s1
  have hsum1 : ∀ (φ : ℕ → ℝ) (c : ℝ) (N : ℕ), (∀ l, φ l ≤ c) → ((List.range N).map φ).sum ≤ N * c := by
    intro φ c N hφ
    rw [sum_range_map]
    calc ∑ i ∈ Finset.range N, φ i ≤ ∑ _i ∈ Finset.range N, c := Finset.sum_le_sum fun i _ => hφ i
      _ = N * c := by simp
  have hfl : ∀ l, |R.fl (g l)| ≤ (1 + u) * (β * α) := fun l => (h.abs_le (g l)).trans (mul_le_mul_of_nonneg_left (hgb l) (by linarith))
  have s2 := hsum1 (fun l => |R.fl (g l)|) _ B.length hfl
  have s3 : |((List.range B.length).map fun l => R.fl (g l)).sum - ((List.range B.length).map g).sum| ≤ B.length * (u * (β * α)) := by
    rw [sum_range_map, sum_range_map, ← Finset.sum_sub_distrib]
    refine (Finset.abs_sum_le_sum_abs _ _).trans ?_
    rw [← sum_range_map]
    refine hsum1 _ _ _ fun l => (h.rounds (g l)).trans (mul_le_mul_of_nonneg_left (hgb l) h0)
  have hp : 1 ≤ (1 + u) ^ B.length := one_le_pow₀ (by linarith)
  have s4 : ((1 + u) ^ B.length - 1) * ((List.range B.length).map (abs ∘ fun l => R.fl (g l))).sum ≤
      ((1 + u) ^ B.length - 1) * (B.length * ((1 + u) * (β * α))) := mul_le_mul_of_nonneg_left s2 (by linarith)
  have s5 := abs_sub_le (sum ((List.range B.length).map fun l => R.fl (g l))) ((List.range B.length).map fun l => R.fl (g l)).sum
    ((List.range B.length).map g).sum
  refine s5.trans ((add_le_add (s1.trans s4) s3).trans (le_of_eq ?_))
  rw [pow_succ]
  ring

/-- A pulse, seen two samples later, in `float64`; both signals are noisy. -/
example : ∃ o, (doubleArith Real.arccos).timeOffset ((doubleArith Real.arccos).correlate sumDouble) sumDouble [0, 1, 2] [0.1, 2, 0] [5, 6] [0, 0, 0.05, 2, -0.05] =
    .ok o ∧ |o - 7| ≤ 1e-14 := by
  have hpulse : ∀ i : ℤ, i ≠ 1 → (if i = 1 then (2 : ℝ) else 0) = 0 := fun i h => if_neg h
  have hsum : ∀ (g : ℤ → ℝ) (S : Finset ℤ), (∀ i, i ∉ S → g i = 0) → energy g = ∑ i ∈ S, g i ^ 2 := by
    intro g S h
    refine finsum_eq_sum_of_support_subset _ fun i hi => ?_
    by_contra hc
    exact hi (by simp [h i hc])
  have hκ := C112_direct (machine_double Real.arccos) sumDouble C111_sum [0.1, 2, 0] [0, 0, 0.05, 2, -0.05] 2 2 (by
      intro x hx
      simp only [List.mem_cons, List.not_mem_nil, or_false] at hx
      rcases hx with rfl | rfl | rfl <;> norm_num [abs_le]) (by
      intro x hx
      simp only [List.mem_cons, List.not_mem_nil, or_false] at hx
      rcases hx with rfl | rfl | rfl | rfl | rfl <;> norm_num [abs_le]) (by norm_num) (by norm_num)
  have H := C112_noise (machine_double Real.arccos) ((doubleArith Real.arccos).correlate sumDouble) sumDouble C111_sum _ [0, 1, 2] [0.1, 2, 0] [5, 6]
    [0, 0, 0.05, 2, -0.05] hκ (fun i => if i = 1 then 2 else 0) 2 0 2 1 0.1 0.1 2 0 5 2
    ((Set.toFinite ({1} : Set ℤ)).subset fun i hi => by by_contra hc; exact hi (hpulse i hc)) zero_le_one (by norm_num) (by norm_num) (by norm_num) ?_ ?_ ?_
    (by norm_num) (by norm_num) (by simp) (by simp) ?_ (by norm_num) rfl (by norm_num) (by norm_num) rfl rfl rfl
  · obtain ⟨o, k, h1, h2, h3⟩ := H
    obtain rfl : k = 2 := by
      have := abs_nonpos_iff.mp (show |k - 2| ≤ 0 by simpa using h2)
      omega
    refine ⟨o, h1, ?_⟩
    norm_num at h3 ⊢
    linarith
  · rw [hsum _ {1} (fun i hi => hpulse i (by simpa using hi))]
    norm_num
  · rw [hsum _ {0, 1, 2} ?_]
    · norm_num [sample]
    · intro i hi
      simp only [Finset.mem_insert, Finset.mem_singleton, not_or] at hi
      rw [hpulse i hi.2.1, sub_zero]
      by_contra hc
      have := sample_ne_zero hc
      simp at this
      omega
  · rw [hsum _ {0, 1, 2, 3, 4} ?_]
    · norm_num [sample]
    · intro i hi
      simp only [Finset.mem_insert, Finset.mem_singleton, not_or] at hi
      rw [hpulse (i - 2) (by omega), mul_zero, sub_zero]
      by_contra hc
      have := sample_ne_zero hc
      simp at this
      omega
  · intro s hs
    have hs' : s ≠ 0 := by rintro rfl; simp at hs
    rw [one_mul, hsum _ {1, 1 + s} ?_, Finset.sum_pair (by omega)]
    · rw [if_pos rfl, if_neg (by omega), if_neg (by omega), if_pos (by omega)]
      norm_num
    · intro i hi
      simp only [Finset.mem_insert, Finset.mem_singleton, not_or] at hi
      rw [if_neg hi.1, if_neg (by omega), sub_zero]

end HandEye
