import Verif.Props.DataDrops
import Verif.Lemmas.Chance
import Mathlib.Algebra.BigOperators.Fin
import Mathlib.Data.Nat.Factorial.Basic

/-! # Property C54, continued: with which probability the data have been dropped after so many rounds -/

namespace HandEye

/-- **C54**: the second random number of a round gives every number of samples up to the current maximum with the same chance. -/
theorem C54_uniform (m h v : ℕ) (hh : h ≤ m) (hv : v ≤ h) :
    Spec.chance (fun u : Fin (Nat.factorial (m + 1)) => (u : ℕ) % (h + 1) = v) = 1 / ((h : ℝ) + 1) := by
  classical
  obtain ⟨q, hq⟩ : h + 1 ∣ Nat.factorial (m + 1) := Nat.dvd_factorial (Nat.succ_pos h) (by omega)
  rw [mul_comm] at hq
  have key : ∀ M, M = q * (h + 1) → Spec.chance (fun u : Fin M => (u : ℕ) % (h + 1) = v) = (q : ℝ) / M := by
    rintro M rfl
    rw [chance_eq, Fintype.card_fin]
    congr 2
    rw [Finset.card_filter, ← finProdFinEquiv.sum_comp, Fintype.sum_prod_type]
    have : ∀ a : Fin q, ∑ b : Fin (h + 1), (if (finProdFinEquiv (a, b) : ℕ) % (h + 1) = v then 1 else 0) = 1 := by
      intro a
      have e : ∀ b : Fin (h + 1), (if (finProdFinEquiv (a, b) : ℕ) % (h + 1) = v then 1 else 0) = if b = ⟨v, by omega⟩ then 1 else 0 := by
        intro b
        congr 1
        rw [finProdFinEquiv_apply_val, Nat.add_mul_mod_self_left, Nat.mod_eq_of_lt b.2, Fin.ext_iff]
      simp only [e]
      simp
    simp only [this]
    simp
  rw [key _ hq, hq]
  have hq0 : q ≠ 0 := by
    rintro rfl
    simp [Nat.factorial_ne_zero] at hq
  have : (q : ℝ) ≠ 0 := by exact_mod_cast hq0
  push_cast
  field_simp

/-! ## The loop -/

theorem dropLoop_shift {n : ℕ} {m k : ℝ} {draws : ℕ → ℕ × ℕ} (rounds : ℕ) : ∀ (t : ℕ) (S : Finset ℕ),
    dropLoop n m k draws rounds (t + 1) S = dropLoop n m k (fun i => draws (i + 1)) rounds t S := by
  induction rounds with
  | zero => intro t S; rfl
  | succ r ih =>
    intro t S
    rw [dropLoop, dropLoop]
    simp only [ih]

theorem dropDraws_cons {n m N : ℕ} (d : Spec.DropDraw n m) (ω : Fin N → Spec.DropDraw n m) :
    Spec.dropDraws (Fin.cons d ω : Fin (N + 1) → Spec.DropDraw n m) 0 = ((d.1 : ℕ), (d.2 : ℕ)) ∧
    (fun i => Spec.dropDraws (Fin.cons d ω : Fin (N + 1) → Spec.DropDraw n m) (i + 1)) = Spec.dropDraws ω := by
  constructor
  · unfold Spec.dropDraws
    rw [dif_pos (Nat.succ_pos N)]
    rfl
  · funext i
    unfold Spec.dropDraws
    by_cases h : i < N
    · rw [dif_pos h, dif_pos (by omega)]
      rfl
    · rw [dif_neg h, dif_neg (by omega)]

/-- The chance that a round drops a certain sample. -/
theorem drop_share {n m h : ℕ} (i : Fin n) (h1 : 1 ≤ h) (hm : h ≤ m) :
    1 / (2 * (n : ℝ)) ≤ Spec.chance (fun d : Spec.DropDraw n m => d.1 = i ∧ (d.2 : ℕ) % (h + 1) ≠ 0) := by
  classical
  have hn : (0 : ℝ) < n := by exact_mod_cast (lt_of_le_of_lt (Nat.zero_le _) i.2)
  have hne : Nonempty (Fin (Nat.factorial (m + 1))) := ⟨⟨0, Nat.factorial_pos _⟩⟩
  have hu := C54_uniform m h 0 hm (Nat.zero_le _)
  have hu' : Spec.chance (fun u : Fin (Nat.factorial (m + 1)) => (u : ℕ) % (h + 1) ≠ 0) = 1 - 1 / ((h : ℝ) + 1) := by
    rw [← hu, ← chance_not]
  have hprod : Spec.chance (fun d : Spec.DropDraw n m => d.1 = i ∧ (d.2 : ℕ) % (h + 1) ≠ 0) =
      1 / n * Spec.chance (fun u : Fin (Nat.factorial (m + 1)) => (u : ℕ) % (h + 1) ≠ 0) := by
    simp only [chance_eq]
    rw [Fintype.card_prod, Fintype.card_fin, div_mul_div_comm, one_mul]
    push_cast
    congr 2
    have : (Finset.univ.filter fun d : Spec.DropDraw n m => d.1 = i ∧ (d.2 : ℕ) % (h + 1) ≠ 0) =
        {i} ×ˢ (Finset.univ.filter fun u : Fin (Nat.factorial (m + 1)) => (u : ℕ) % (h + 1) ≠ 0) := by
      ext ⟨a, b⟩
      simp only [Finset.mem_filter, Finset.mem_univ, true_and, Finset.mem_product, Finset.mem_singleton]
    rw [this, Finset.card_product, Finset.card_singleton, one_mul]
  rw [hprod, hu']
  have : (1 : ℝ) ≤ h := by exact_mod_cast h1
  have h2 : 1 / ((h : ℝ) + 1) ≤ 1 / 2 := one_div_le_one_div_of_le (by norm_num) (by linarith)
  have h3 : 1 / (2 * (n : ℝ)) = 1 / n * (1 / 2) := by rw [one_div_mul_one_div, mul_comm]
  rw [h3]
  exact mul_le_mul_of_nonneg_left (by linarith) (by positivity)

theorem drop_bound {n m k : ℕ} (hm : 1 ≤ m) (hkn : k < n) (N : ℕ) : ∀ S : Finset ℕ, S.card ≤ k → (∀ i ∈ S, i + 1 < n) →
    Spec.chance (fun ω : Fin N → Spec.DropDraw n m => dropLoop n m k (Spec.dropDraws ω) N 0 S = .ok none) ≤
      fewer (1 / (2 * (n : ℝ))) N (k - S.card) := by
  have hn1 : (1 : ℝ) ≤ n := by exact_mod_cast (by omega : 1 ≤ n)
  have hp0 : (0 : ℝ) ≤ 1 / (2 * (n : ℝ)) := by positivity
  have hp1 : 1 / (2 * (n : ℝ)) ≤ 1 := by
    rw [div_le_one (by linarith)]
    linarith
  have hne : Nonempty (Spec.DropDraw n m) := ⟨⟨⟨0, by omega⟩, ⟨0, Nat.factorial_pos _⟩⟩⟩
  have hdone : ∀ N (S : Finset ℕ), ¬ S.card < k → (Spec.chance fun ω : Fin N → Spec.DropDraw n m => dropLoop n m k (Spec.dropDraws ω) N 0 S = .ok none) = 0 := by
    intro N S hS
    refine chance_zero fun ω => ?_
    cases N with
    | zero => rw [dropLoop, if_neg (by exact_mod_cast hS)]; simp
    | succ N => rw [dropLoop, if_neg (by exact_mod_cast hS)]; simp
  induction N with
  | zero =>
    intro S hS hSn
    by_cases hlt : S.card < k
    · refine le_trans (chance_le_one _) ?_
      obtain ⟨r, hr⟩ : ∃ r, k - S.card = r + 1 := ⟨k - S.card - 1, by omega⟩
      rw [hr]
      unfold fewer
      rw [Finset.sum_range_succ']
      simp
    · rw [hdone _ _ hlt]
      exact fewer_nonneg hp0 hp1 _ _
  | succ N ih =>
    intro S hS hSn
    by_cases hlt : S.card < k
    · obtain ⟨r, hr⟩ : ∃ r, k - S.card = r + 1 := ⟨k - S.card - 1, by omega⟩
      rw [chance_cons, hr, fewer_step]
      obtain ⟨i, hi, hiS⟩ : ∃ i, i < n - 1 ∧ i ∉ S := by
        by_contra hc
        push Not at hc
        have := Finset.card_le_card (show Finset.range (n - 1) ⊆ S from fun i hi => hc i (Finset.mem_range.mp hi))
        rw [Finset.card_range] at this
        omega
      set T : Spec.DropDraw n m → Finset ℕ := fun d => S ∪ Finset.Ico ((d.1 : ℕ) % n)
        (min ((d.1 : ℕ) % n + (d.2 : ℕ) % (min (k - S.card) m + 1)) (n - 1)) with hT
      have hstep : ∀ (d : Spec.DropDraw n m) (ω : Fin N → Spec.DropDraw n m),
          dropLoop n m k (Spec.dropDraws (Fin.cons d ω : Fin (N + 1) → Spec.DropDraw n m)) (N + 1) 0 S = dropLoop n m k (Spec.dropDraws ω) N 0 (T d) := by
        intro d ω
        obtain ⟨e1, e2⟩ := dropDraws_cons d ω
        rw [dropLoop_step (by omega) hlt, dropLoop_shift, e1, e2]
      have hTc : ∀ d, (T d).card ≤ k := by
        intro d
        refine le_trans (Finset.card_union_le _ _) ?_
        rw [Nat.card_Ico]
        have := Nat.mod_lt (d.2 : ℕ) (Nat.succ_pos (min (k - S.card) m))
        rw [Nat.succ_eq_add_one] at this
        omega
      have hTn : ∀ d, ∀ i ∈ T d, i + 1 < n := by
        intro d i hi
        rcases Finset.mem_union.mp hi with hi | hi
        · exact hSn i hi
        · have := (Finset.mem_Ico.mp hi).2
          omega
      have hTS : ∀ d, S.card ≤ (T d).card := fun d => Finset.card_le_card Finset.subset_union_left
      simp only [hstep]
      have hsh := drop_share (n := n) (m := m) (h := min (k - S.card) m) ⟨i, by omega⟩ (by omega) (Nat.min_le_right _ _)
      refine average_le (D := Spec.DropDraw n m) _ _ (fewer_mono hp0 hp1 N (Nat.le_succ r)) ?_ ?_ hsh
      · rintro d ⟨hd1, hd2⟩
        refine le_trans (ih (T d) (hTc d) (hTn d)) (fewer_mono hp0 hp1 N ?_)
        have hlt' : S.card < (T d).card := by
          refine Finset.card_lt_card (Finset.ssubset_iff_of_subset Finset.subset_union_left |>.mpr ⟨i, ?_, hiS⟩)
          refine Finset.mem_union_right _ (Finset.mem_Ico.mpr ?_)
          rw [hd1]
          dsimp only
          rw [Nat.mod_eq_of_lt (by omega : i < n)]
          omega
        omega
      · intro d
        refine le_trans (ih (T d) (hTc d) (hTn d)) (fewer_mono hp0 hp1 N ?_)
        have := hTS d
        omega
    · rw [hdone _ _ hlt]
      exact fewer_nonneg hp0 hp1 _ _

/-- **C54**, the chance of having ended: if the percentages give whole numbers m > 0 and k of samples, and k is less than all n, then the chance that the function is
still running after N rounds is at most that of fewer than k successes in N independent attempts with the chance 1/(2n); and the chance that it has returned tends
to one.  The expected number of rounds, which is the sum of the chances that it is still running after N rounds, is at most 2nk.  Partial because of `C54_fraction_refuted` and `C54_everything_refuted`. -/
theorem C54_almost_surely_partial {α : Type} (data : List (Option α)) (single overall : ℝ) (set_to_none : Bool) (m k : ℕ)
    (hc : single < overall) (hm : single / 100 * data.length = m) (hk : overall / 100 * data.length = k) (hm0 : m ≠ 0) (hkn : k < data.length) :
    (∀ N, 1 - ∑ j ∈ Finset.range k, N.choose j * (1 / (2 * (data.length : ℝ))) ^ j * (1 - 1 / (2 * (data.length : ℝ))) ^ (N - j) ≤
      Spec.chance fun ω : Fin N → Spec.DropDraw data.length m =>
        ∃ data', introduceDataDrops data single overall set_to_none (Spec.dropDraws ω) N = .ok (some data')) ∧
    (Summable (fun N => Spec.chance fun ω : Fin N → Spec.DropDraw data.length m =>
        introduceDataDrops data single overall set_to_none (Spec.dropDraws ω) N = .ok none) ∧
      ∑' N, (Spec.chance fun ω : Fin N → Spec.DropDraw data.length m =>
        introduceDataDrops data single overall set_to_none (Spec.dropDraws ω) N = .ok none) ≤ 2 * data.length * k) ∧
    Filter.Tendsto (fun N => Spec.chance fun ω : Fin N → Spec.DropDraw data.length m =>
        ∃ data', introduceDataDrops data single overall set_to_none (Spec.dropDraws ω) N = .ok (some data')) Filter.atTop (nhds 1) := by
  classical
  set n := data.length with hn
  have hne : Nonempty (Spec.DropDraw n m) := ⟨⟨⟨0, by omega⟩, ⟨0, Nat.factorial_pos _⟩⟩⟩
  have hev : ∀ N (ω : Fin N → Spec.DropDraw n m), (∃ data', introduceDataDrops data single overall set_to_none (Spec.dropDraws ω) N = .ok (some data')) ↔
      ¬ dropLoop n m k (Spec.dropDraws ω) N 0 ∅ = .ok none := by
    intro N ω
    obtain ⟨r, hr⟩ := C54_no_error_partial data single overall set_to_none (Spec.dropDraws ω) N m k hc hm hk
    have hr' := hr
    unfold introduceDataDrops at hr'
    rw [pyAssert_pos hc, Py.ok_bind] at hr'
    dsimp only at hr'
    rw [hm, hk, ← hn] at hr'
    obtain ⟨o, ho, hr'⟩ := Py.bind_eq_ok.mp hr'
    cases o with
    | none =>
      cases Except.ok.inj hr'
      rw [hr, ho]
      simp
    | some S =>
      dsimp only at hr'
      obtain ⟨_, -, hr'⟩ := Py.bind_eq_ok.mp hr'
      cases Except.ok.inj hr'
      rw [hr, ho]
      simp
  have hle : ∀ N, 1 - fewer (1 / (2 * (n : ℝ))) N k ≤ Spec.chance fun ω : Fin N → Spec.DropDraw n m =>
      ∃ data', introduceDataDrops data single overall set_to_none (Spec.dropDraws ω) N = .ok (some data') := by
    intro N
    rw [chance_congr (hev N), chance_not]
    have := drop_bound (m := m) (Nat.one_le_iff_ne_zero.mpr hm0) hkn N ∅ (by simp) (by simp)
    rw [Finset.card_empty, Nat.sub_zero] at this
    linarith
  refine ⟨hle, ?_, ?_⟩
  · have hch : ∀ N, Spec.chance (fun ω : Fin N → Spec.DropDraw n m =>
        introduceDataDrops data single overall set_to_none (Spec.dropDraws ω) N = .ok none) ≤ fewer (1 / (2 * (n : ℝ))) N k := by
      intro N
      have h := hle N
      have e : Spec.chance (fun ω : Fin N → Spec.DropDraw n m => introduceDataDrops data single overall set_to_none (Spec.dropDraws ω) N = .ok none) =
          1 - Spec.chance (fun ω : Fin N → Spec.DropDraw n m =>
            ∃ data', introduceDataDrops data single overall set_to_none (Spec.dropDraws ω) N = .ok (some data')) := by
        rw [← chance_not]
        refine chance_congr fun ω => ?_
        obtain ⟨r, hr⟩ := C54_no_error_partial data single overall set_to_none (Spec.dropDraws ω) N m k hc hm hk
        rw [hr]
        cases r <;> simp
      rw [e]
      linarith
    have hn1 : (1 : ℝ) ≤ n := by exact_mod_cast (by omega : 1 ≤ n)
    have hsum := fewer_hasSum (p := 1 / (2 * (n : ℝ))) (by positivity) (by rw [div_le_one (by linarith)]; linarith) k
    have hs := Summable.of_nonneg_of_le (fun N => chance_nonneg _) hch hsum.summable
    refine ⟨hs, le_trans (hs.tsum_le_tsum hch hsum.summable) (le_of_eq ?_)⟩
    rw [hsum.tsum_eq]
    field_simp
  refine tendsto_of_tendsto_of_tendsto_of_le_of_le (h := fun _ => (1 : ℝ)) ?_ tendsto_const_nhds hle fun N => chance_le_one _
  have ht : Filter.Tendsto (fun N => fewer (1 / (2 * (n : ℝ))) N k) Filter.atTop (nhds 0) := by
    have hn0 : 0 < n := by omega
    exact fewer_tendsto hn0 k
  simpa using ht.const_sub 1

/-- The data drops of `test_introduce_data_drops`: 1000 samples, at most 50 at a time, 200 in all.  The test ends with probability one. -/
example (f : ℕ → ℝ) : Filter.Tendsto (fun N => Spec.chance fun ω : Fin N → Spec.DropDraw 1000 50 =>
    ∃ data', introduceDataDrops ((List.range 1000).map fun i => some (f i)) 5 20 true (Spec.dropDraws ω) N = .ok (some data')) Filter.atTop (nhds 1) := by
  have hl : ((List.range 1000).map fun i => some (f i)).length = 1000 := by simp
  have h := (C54_almost_surely_partial ((List.range 1000).map fun i => some (f i)) 5 20 true 50 200 (by norm_num) (by rw [hl]; norm_num) (by rw [hl]; norm_num)
    (by norm_num) (by rw [hl]; norm_num)).2.2
  rw [hl] at h
  exact h

/-- Ten samples, one at a time and two in all: after 100 rounds, both have been dropped with a chance of at least 96 percent. -/
example : (0.96 : ℝ) ≤ Spec.chance fun ω : Fin 100 → Spec.DropDraw 10 1 =>
    ∃ data', introduceDataDrops ((List.range 10).map some) 10 20 false (Spec.dropDraws ω) 100 = .ok (some data') := by
  have hl : ((List.range 10).map some).length = 10 := by simp
  have h := (C54_almost_surely_partial ((List.range 10).map some) 10 20 false 1 2 (by norm_num) (by rw [hl]; norm_num) (by rw [hl]; norm_num)
    (by norm_num) (by rw [hl]; norm_num)).1 100
  rw [hl] at h
  refine le_trans ?_ h
  rw [Finset.sum_range_succ, Finset.sum_range_one]
  norm_num

end HandEye
