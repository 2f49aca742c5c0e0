import Verif.Spec.Chance
import Mathlib.Algebra.BigOperators.Field
import Mathlib.Algebra.BigOperators.Fin
import Mathlib.Analysis.SpecificLimits.Basic
import Mathlib.Topology.Algebra.InfiniteSum.NatInt
import Mathlib.Topology.Algebra.InfiniteSum.Ring
import Mathlib.Topology.Algebra.InfiniteSum.Real
import Mathlib.Data.Nat.Factorial.BigOperators
import Mathlib.Tactic.Linarith
import Mathlib.Tactic.FieldSimp
import Mathlib.Tactic.Positivity

/-! # Counting outcomes -/

namespace HandEye

open Classical in
theorem card_pattern {D : Type} [Fintype D] (N : ℕ) (A : D → Prop) (S : Finset (Fin N)) :
    (Finset.univ.filter fun ω : Fin N → D => ∀ i, A (ω i) ↔ i ∈ S).card =
      (Finset.univ.filter A).card ^ S.card * (Finset.univ.filter fun d => ¬ A d).card ^ (N - S.card) := by
  have e : (Finset.univ.filter fun ω : Fin N → D => ∀ i, A (ω i) ↔ i ∈ S) =
      Fintype.piFinset fun i => if i ∈ S then Finset.univ.filter A else Finset.univ.filter fun d => ¬ A d := by
    ext ω
    simp only [Finset.mem_filter, Finset.mem_univ, true_and, Fintype.mem_piFinset]
    refine forall_congr' fun i => ?_
    by_cases h : i ∈ S <;> simp [h]
  rw [e, Fintype.card_piFinset]
  simp only [apply_ite Finset.card]
  rw [Finset.prod_ite, Finset.prod_const, Finset.prod_const]
  congr 2
  · congr 1; ext i; simp
  · rw [Finset.filter_not, Finset.card_sdiff_of_subset (Finset.filter_subset _ _)]
    simp

open Classical in
theorem card_count {D : Type} [Fintype D] (N : ℕ) (A : D → Prop) (j : ℕ) :
    (Finset.univ.filter fun ω : Fin N → D => (Finset.univ.filter fun i => A (ω i)).card = j).card =
      N.choose j * ((Finset.univ.filter A).card ^ j * (Finset.univ.filter fun d => ¬ A d).card ^ (N - j)) := by
  rw [Finset.card_eq_sum_card_fiberwise (f := fun ω : Fin N → D => Finset.univ.filter fun i => A (ω i)) (t := Finset.powersetCard j Finset.univ)]
  · rw [Finset.sum_congr rfl (g := fun _ => (Finset.univ.filter A).card ^ j * (Finset.univ.filter fun d => ¬ A d).card ^ (N - j)), Finset.sum_const,
      Finset.card_powersetCard, Finset.card_univ, Fintype.card_fin, smul_eq_mul]
    intro S hS
    have hS' := (Finset.mem_powersetCard.mp hS).2
    rw [← hS', ← card_pattern N A S, hS']
    congr 1
    ext ω
    simp only [Finset.mem_filter, Finset.mem_univ, true_and]
    constructor
    · rintro ⟨-, h⟩ i
      rw [← h]
      simp
    · intro h
      have : (Finset.univ.filter fun i => A (ω i)) = S := by ext i; simp [h i]
      exact ⟨by rw [this, hS'], this⟩
  · intro ω hω
    simp only [Finset.coe_filter, Finset.mem_univ, true_and, Set.mem_ofPred_eq] at hω
    simpa [Finset.mem_powersetCard] using hω

theorem chance_eq {Ω : Type} [Fintype Ω] (E : Ω → Prop) [DecidablePred E] : Spec.chance E = (Finset.univ.filter E).card / Fintype.card Ω := by
  unfold Spec.chance
  congr!

theorem chance_not {Ω : Type} [Fintype Ω] [Nonempty Ω] (E : Ω → Prop) : Spec.chance (fun ω => ¬ E ω) = 1 - Spec.chance E := by
  classical
  simp only [chance_eq]
  have h := Finset.card_filter_add_card_filter_not (s := (Finset.univ : Finset Ω)) E
  have hc : (Fintype.card Ω : ℝ) ≠ 0 := by exact_mod_cast Fintype.card_ne_zero
  rw [Finset.card_univ] at h
  rw [eq_sub_iff_add_eq, ← add_div, div_eq_one_iff_eq hc]
  rw [← h]
  push_cast
  rw [add_comm]

theorem chance_mono {Ω : Type} [Fintype Ω] {E F : Ω → Prop} (h : ∀ ω, E ω → F ω) : Spec.chance E ≤ Spec.chance F := by
  classical
  unfold Spec.chance
  refine div_le_div_of_nonneg_right ?_ (by positivity)
  exact_mod_cast Finset.card_le_card (Finset.monotone_filter_right _ fun ω _ => h ω)

theorem chance_congr {Ω : Type} [Fintype Ω] {E F : Ω → Prop} (h : ∀ ω, E ω ↔ F ω) : Spec.chance E = Spec.chance F :=
  le_antisymm (chance_mono fun ω => (h ω).mp) (chance_mono fun ω => (h ω).mpr)

theorem chance_nonneg {Ω : Type} [Fintype Ω] (E : Ω → Prop) : 0 ≤ Spec.chance E := by
  unfold Spec.chance; positivity

theorem chance_le_one {Ω : Type} [Fintype Ω] [Nonempty Ω] (E : Ω → Prop) : Spec.chance E ≤ 1 := by
  have := chance_nonneg fun ω => ¬ E ω
  rw [chance_not] at this
  linarith

theorem chance_pos {Ω : Type} [Fintype Ω] {E : Ω → Prop} (ω : Ω) (h : E ω) : 0 < Spec.chance E := by
  classical
  have : Nonempty Ω := ⟨ω⟩
  rw [chance_eq]
  refine div_pos ?_ (by exact_mod_cast Fintype.card_pos)
  exact_mod_cast Finset.card_pos.mpr ⟨ω, by simpa using h⟩

theorem chance_zero {Ω : Type} [Fintype Ω] {E : Ω → Prop} (h : ∀ ω, ¬ E ω) : Spec.chance E = 0 := by
  classical
  rw [chance_eq, Finset.filter_false_of_mem fun ω _ => h ω]
  simp

open Classical in
/-- The binomial distribution. -/
theorem chance_count {D : Type} [Fintype D] [Nonempty D] (N : ℕ) (A : D → Prop) {j : ℕ} (hj : j ≤ N) :
    Spec.chance (fun ω : Fin N → D => (Finset.univ.filter fun i => A (ω i)).card = j) =
      N.choose j * Spec.chance A ^ j * (1 - Spec.chance A) ^ (N - j) := by
  rw [← chance_not]
  simp only [chance_eq]
  rw [card_count, Fintype.card_fun, Fintype.card_fin]
  push_cast
  have hc : (Fintype.card D : ℝ) ≠ 0 := by exact_mod_cast Fintype.card_ne_zero
  rw [div_pow, div_pow, ← Nat.add_sub_of_le hj, pow_add, Nat.add_sub_cancel_left]
  field_simp

open Classical in
theorem chance_count_lt {D : Type} [Fintype D] [Nonempty D] (N : ℕ) (A : D → Prop) (M : ℕ) :
    Spec.chance (fun ω : Fin N → D => (Finset.univ.filter fun i => A (ω i)).card < M) =
      ∑ j ∈ Finset.range M, N.choose j * Spec.chance A ^ j * (1 - Spec.chance A) ^ (N - j) := by
  have h : ∀ j, Spec.chance (fun ω : Fin N → D => (Finset.univ.filter fun i => A (ω i)).card = j) =
      N.choose j * Spec.chance A ^ j * (1 - Spec.chance A) ^ (N - j) := by
    intro j
    rcases le_or_gt j N with hj | hj
    · exact chance_count N A hj
    · rw [Nat.choose_eq_zero_of_lt hj]
      simp only [chance_eq]
      rw [card_count, Nat.choose_eq_zero_of_lt hj]
      simp
  rw [← Finset.sum_congr rfl fun j _ => h j]
  simp only [chance_eq]
  rw [← Finset.sum_div, ← Nat.cast_sum]
  congr 2
  rw [Finset.card_eq_sum_card_fiberwise (f := fun ω : Fin N → D => (Finset.univ.filter fun i => A (ω i)).card) (t := Finset.range M)]
  · refine Finset.sum_congr rfl fun j hj => ?_
    congr 1
    ext ω
    simp only [Finset.mem_filter, Finset.mem_univ, true_and, and_iff_right_iff_imp]
    rintro rfl
    exact Finset.mem_range.mp hj
  · intro ω hω
    simpa using hω

open Classical in
/-- None of the outcomes in a set of places is in A. -/
theorem chance_none {D : Type} [Fintype D] [Nonempty D] (N : ℕ) (A : D → Prop) (S : Finset (Fin N)) :
    Spec.chance (fun ω : Fin N → D => ∀ i ∈ S, ¬ A (ω i)) = (1 - Spec.chance A) ^ S.card := by
  rw [← chance_not]
  simp only [chance_eq]
  have e : (Finset.univ.filter fun ω : Fin N → D => ∀ i ∈ S, ¬ A (ω i)) =
      Fintype.piFinset fun i => if i ∈ S then Finset.univ.filter fun d => ¬ A d else Finset.univ := by
    ext ω
    simp only [Finset.mem_filter, Finset.mem_univ, true_and, Fintype.mem_piFinset]
    refine forall_congr' fun i => ?_
    by_cases h : i ∈ S <;> simp [h]
  rw [e, Fintype.card_piFinset, Fintype.card_fun, Fintype.card_fin]
  simp only [apply_ite Finset.card]
  rw [Finset.prod_ite, Finset.prod_const, Finset.prod_const]
  have h1 : (Finset.univ.filter fun i => i ∈ S) = S := by ext i; simp
  have h2 : (Finset.univ.filter fun i => i ∉ S).card = N - S.card := by
    rw [Finset.filter_not, Finset.card_sdiff_of_subset (Finset.filter_subset _ _), h1]
    simp
  have hS : S.card ≤ N := by simpa using Finset.card_le_univ S
  have hc : (Fintype.card D : ℝ) ≠ 0 := by exact_mod_cast Fintype.card_ne_zero
  rw [h1, h2, Finset.card_univ, div_pow]
  push_cast
  rw [show (Fintype.card D : ℝ) ^ N = (Fintype.card D : ℝ) ^ S.card * (Fintype.card D : ℝ) ^ (N - S.card) by rw [← pow_add, Nat.add_sub_of_le hS]]
  field_simp

open Classical in
/-- Fewer than M outcomes in A, if there are M disjoint sets of B places each. -/
theorem chance_blocks {D : Type} [Fintype D] [Nonempty D] {N M B : ℕ} (h : M * B ≤ N) (A : D → Prop) :
    Spec.chance (fun ω : Fin N → D => (Finset.univ.filter fun i => A (ω i)).card < M) ≤ M * (1 - Spec.chance A) ^ B := by
  set S : ℕ → Finset (Fin N) := fun b => Finset.univ.filter fun i => b * B ≤ (i : ℕ) ∧ (i : ℕ) < (b + 1) * B with hS
  have hcard : ∀ b < M, (S b).card = B := by
    intro b hb
    have hle : (b + 1) * B ≤ N := le_trans (Nat.mul_le_mul_right B hb) h
    have : (S b).map Fin.valEmbedding = Finset.Ico (b * B) ((b + 1) * B) := by
      ext x
      simp only [hS, Finset.mem_map, Finset.mem_filter, Finset.mem_univ, true_and, Fin.valEmbedding_apply, Finset.mem_Ico]
      constructor
      · rintro ⟨i, hi, rfl⟩; exact hi
      · intro hx; exact ⟨⟨x, lt_of_lt_of_le hx.2 hle⟩, hx, rfl⟩
    rw [← Finset.card_map Fin.valEmbedding, this, Nat.card_Ico, Nat.add_mul, Nat.one_mul, Nat.add_sub_cancel_left]
  have hsub : (Finset.univ.filter fun ω : Fin N → D => (Finset.univ.filter fun i => A (ω i)).card < M) ⊆
      (Finset.range M).biUnion fun b => Finset.univ.filter fun ω : Fin N → D => ∀ i ∈ S b, ¬ A (ω i) := by
    intro ω hω
    simp only [Finset.mem_filter, Finset.mem_univ, true_and] at hω
    by_contra hc
    simp only [Finset.mem_biUnion, Finset.mem_range, Finset.mem_filter, Finset.mem_univ, true_and, not_exists, not_and, not_forall, not_not] at hc
    have hc' : ∀ b : Fin M, ∃ i ∈ S b, A (ω i) := fun b => by
      obtain ⟨i, hi, ha⟩ := hc b b.2
      exact ⟨i, hi, ha⟩
    choose f hf hA using hc'
    have hinj : Function.Injective f := by
      intro a b hab
      have h1 := hf a
      have h2 := hf b
      rw [hab] at h1
      simp only [hS, Finset.mem_filter, Finset.mem_univ, true_and] at h1 h2
      apply Fin.ext
      apply le_antisymm
      · exact Nat.lt_succ_iff.mp (lt_of_mul_lt_mul_right (lt_of_le_of_lt h1.1 h2.2) (Nat.zero_le B))
      · exact Nat.lt_succ_iff.mp (lt_of_mul_lt_mul_right (lt_of_le_of_lt h2.1 h1.2) (Nat.zero_le B))
    have : M ≤ (Finset.univ.filter fun i => A (ω i)).card := by
      have e := Finset.card_le_card_of_injOn (s := (Finset.univ : Finset (Fin M))) (t := Finset.univ.filter fun i => A (ω i)) f
        (fun b _ => by simpa using hA b) (hinj.injOn)
      simpa using e
    omega
  have h1 : ∀ b < M, Spec.chance (fun ω : Fin N → D => ∀ i ∈ S b, ¬ A (ω i)) = (1 - Spec.chance A) ^ B := by
    intro b hb
    rw [chance_none, hcard b hb]
  calc Spec.chance (fun ω : Fin N → D => (Finset.univ.filter fun i => A (ω i)).card < M)
      ≤ ∑ b ∈ Finset.range M, Spec.chance (fun ω : Fin N → D => ∀ i ∈ S b, ¬ A (ω i)) := by
        simp only [chance_eq]
        rw [← Finset.sum_div, ← Nat.cast_sum]
        refine div_le_div_of_nonneg_right ?_ (by positivity)
        exact_mod_cast le_trans (Finset.card_le_card hsub) Finset.card_biUnion_le
    _ = M * (1 - Spec.chance A) ^ B := by
        rw [Finset.sum_congr rfl fun b hb => h1 b (Finset.mem_range.mp hb), Finset.sum_const, Finset.card_range, nsmul_eq_mul]

/-- The chance that fewer than r of N independent attempts with the chance p each succeed. -/
def fewer (p : ℝ) (N r : ℕ) : ℝ := ∑ j ∈ Finset.range r, N.choose j * p ^ j * (1 - p) ^ (N - j)

theorem chance_cons {D : Type} [Fintype D] {N : ℕ} (E : (Fin (N + 1) → D) → Prop) :
    Spec.chance E = (∑ d, Spec.chance fun ω : Fin N → D => E (Fin.cons d ω)) / Fintype.card D := by
  classical
  simp only [chance_eq]
  rw [← Finset.sum_div, div_div, Fintype.card_fun, Fintype.card_fun, Fintype.card_fin, Fintype.card_fin, pow_succ, ← Nat.cast_sum, ← Nat.cast_mul]
  congr 2
  simp only [Finset.card_filter]
  rw [← (Fin.consEquiv fun _ : Fin (N + 1) => D).sum_comp, Fintype.sum_prod_type]
  rfl

/-- An average of numbers of which at least the share q is at most a, and the others at most b. -/
theorem average_le {D : Type} [Fintype D] [Nonempty D] (f : D → ℝ) (A : D → Prop) {a b q : ℝ} (hab : a ≤ b) (ha : ∀ d, A d → f d ≤ a) (hb : ∀ d, f d ≤ b)
    (hq : q ≤ Spec.chance A) : (∑ d, f d) / Fintype.card D ≤ q * a + (1 - q) * b := by
  classical
  have hc : (0 : ℝ) < Fintype.card D := by exact_mod_cast Fintype.card_pos
  have h1 : ∑ d, f d ≤ ∑ d, (b + if A d then a - b else 0) := Finset.sum_le_sum fun d _ => by
    split
    · next h => have := ha d h; linarith
    · have := hb d; linarith
  have h2 : ∑ d, (b + if A d then a - b else 0) = Fintype.card D * b + (Finset.univ.filter A).card * (a - b) := by
    rw [Finset.sum_add_distrib, Finset.sum_const, Finset.card_univ, nsmul_eq_mul, ← Finset.sum_filter, Finset.sum_const, nsmul_eq_mul]
  rw [chance_eq, le_div_iff₀ hc] at hq
  rw [div_le_iff₀ hc]
  nlinarith [mul_nonneg (sub_nonneg.mpr hq) (sub_nonneg.mpr hab)]

theorem fewer_nonneg {p : ℝ} (h0 : 0 ≤ p) (h1 : p ≤ 1) (N r : ℕ) : 0 ≤ fewer p N r :=
  Finset.sum_nonneg fun j _ => by
    have : 0 ≤ 1 - p := by linarith
    positivity

theorem fewer_mono {p : ℝ} (h0 : 0 ≤ p) (h1 : p ≤ 1) (N : ℕ) {r s : ℕ} (h : r ≤ s) : fewer p N r ≤ fewer p N s :=
  Finset.sum_le_sum_of_subset_of_nonneg (Finset.range_subset_range.mpr h) fun j _ _ => by
    have : 0 ≤ 1 - p := by linarith
    positivity

theorem fewer_step (p : ℝ) (N r : ℕ) : fewer p (N + 1) (r + 1) = p * fewer p N r + (1 - p) * fewer p N (r + 1) := by
  unfold fewer
  rw [Finset.sum_range_succ', Finset.sum_range_succ' _ r, Finset.mul_sum, mul_add, Finset.mul_sum, ← add_assoc, ← Finset.sum_add_distrib]
  congr 1
  · refine Finset.sum_congr rfl fun j _ => ?_
    rw [Nat.choose_succ_succ, Nat.succ_eq_add_one, Nat.add_sub_add_right]
    push_cast
    rcases le_or_gt (j + 1) N with h | h
    · rw [show N - j = (N - (j + 1)) + 1 by omega]
      ring
    · rw [Nat.choose_eq_zero_of_lt h]
      push_cast
      ring
  · simp [pow_succ]
    ring

/-- With rare successes, fewer than r of them become less and less likely. -/
theorem fewer_tendsto {n : ℕ} (hn : 0 < n) (r : ℕ) : Filter.Tendsto (fun N => fewer (1 / (2 * (n : ℝ))) N r) Filter.atTop (nhds 0) := by
  classical
  have hn1 : (1 : ℝ) ≤ n := by exact_mod_cast hn
  have hp0 : (0 : ℝ) < 1 / (2 * (n : ℝ)) := by positivity
  have hp1 : 1 / (2 * (n : ℝ)) ≤ 1 := by
    rw [div_le_one (by linarith)]
    linarith
  have hne : Nonempty (Fin (2 * n)) := ⟨⟨0, by omega⟩⟩
  have hch : Spec.chance (fun u : Fin (2 * n) => u = ⟨0, by omega⟩) = 1 / (2 * (n : ℝ)) := by
    rw [chance_eq, Fintype.card_fin, Finset.filter_eq', if_pos (Finset.mem_univ _), Finset.card_singleton]
    push_cast
    rfl
  rcases Nat.eq_zero_or_pos r with rfl | hr
  · simp [fewer]
  have hup : ∀ N, fewer (1 / (2 * (n : ℝ))) N r ≤ r * (1 - 1 / (2 * (n : ℝ))) ^ (N / r) := by
    intro N
    have h := chance_blocks (Nat.mul_div_le N r) fun u : Fin (2 * n) => u = ⟨0, by omega⟩
    rw [chance_count_lt N fun u : Fin (2 * n) => u = ⟨0, by omega⟩, hch] at h
    exact h
  refine squeeze_zero (fun N => fewer_nonneg hp0.le hp1 N r) hup ?_
  have ht0 : Filter.Tendsto (fun N : ℕ => (1 - 1 / (2 * (n : ℝ))) ^ (N / r)) Filter.atTop (nhds 0) :=
    (tendsto_pow_atTop_nhds_zero_of_lt_one (by linarith) (by linarith)).comp (Nat.tendsto_div_const_atTop hr.ne')
  simpa using ht0.const_mul (r : ℝ)

theorem fewer_zero (p : ℝ) (r : ℕ) : fewer p 0 (r + 1) = 1 := by
  unfold fewer
  rw [Finset.sum_range_succ']
  simp

/-- The expected number of attempts until r of them succeed is r / p: it is the sum of the chances that this number is more than N. -/
theorem fewer_hasSum {p : ℝ} (h0 : 0 < p) (h1 : p ≤ 1) (r : ℕ) : HasSum (fun N => fewer p N r) (r / p) := by
  induction r with
  | zero => simp [fewer]
  | succ r ih =>
    have hs : Summable fun N => fewer p N (r + 1) := by
      refine summable_of_sum_range_le (c := (1 + p * (r / p)) / p) (fun N => fewer_nonneg h0.le h1 N _) fun K => ?_
      rw [le_div_iff₀ h0]
      have e : ∑ N ∈ Finset.range (K + 1), fewer p N (r + 1) =
          1 + p * ∑ N ∈ Finset.range K, fewer p N r + (1 - p) * ∑ N ∈ Finset.range K, fewer p N (r + 1) := by
        rw [Finset.sum_range_succ', fewer_zero, Finset.mul_sum, Finset.mul_sum, add_assoc, ← Finset.sum_add_distrib, add_comm]
        congr 1
        exact Finset.sum_congr rfl fun N _ => fewer_step p N r
      rw [Finset.sum_range_succ] at e
      have hb : ∑ N ∈ Finset.range K, fewer p N r ≤ r / p := by
        have := ih.summable.sum_le_tsum (Finset.range K) fun N _ => fewer_nonneg h0.le h1 N r
        rwa [ih.tsum_eq] at this
      have hn := fewer_nonneg h0.le h1 K (r + 1)
      nlinarith [mul_le_mul_of_nonneg_left hb h0.le]
    have ht := hs.tsum_eq_zero_add
    simp only [fewer_zero, fewer_step] at ht
    rw [Summable.tsum_add (ih.summable.mul_left p) (hs.mul_left (1 - p)), tsum_mul_left, tsum_mul_left, ih.tsum_eq, mul_div_cancel₀ _ h0.ne'] at ht
    have : ∑' N, fewer p N (r + 1) = ((r + 1 : ℕ) : ℝ) / p := by
      rw [eq_div_iff h0.ne']
      push_cast
      linarith
    rw [← this]
    exact hs.hasSum

/-- Draws from a set of numbers only. -/
theorem card_draw_within {n k : ℕ} (G : Finset (Fin n)) [DecidablePred fun d : Spec.Draw n k => ∀ i, d i ∈ G] :
    (Finset.univ.filter fun d : Spec.Draw n k => ∀ i, d i ∈ G).card = G.card.descFactorial k := by
  rw [← Fintype.card_subtype]
  have e : {d : Spec.Draw n k // ∀ i, d i ∈ G} ≃ (Fin k ↪ G) :=
    { toFun := fun d => ⟨fun i => ⟨d.1 i, d.2 i⟩, fun i j h => d.1.injective (congrArg Subtype.val h)⟩
      invFun := fun d => ⟨⟨fun i => (d i).1, fun i j h => d.injective (Subtype.ext h)⟩, fun i => (d i).2⟩
      left_inv := fun _ => rfl
      right_inv := fun _ => rfl }
  rw [Fintype.card_congr e, Fintype.card_embedding_eq, Fintype.card_fin, Fintype.card_coe]

theorem chance_within {n k : ℕ} (G : Finset (Fin n)) :
    Spec.chance (fun d : Spec.Draw n k => ∀ i, d i ∈ G) = (G.card.descFactorial k : ℝ) / n.descFactorial k := by
  classical
  simp only [chance_eq]
  rw [card_draw_within, Fintype.card_embedding_eq, Fintype.card_fin, Fintype.card_fin]

theorem draw_nonempty {n k : ℕ} (h : k ≤ n) : Nonempty (Spec.Draw n k) := ⟨Fin.castLEEmb h⟩

/-- Drawing without replacement gives fewer samples without outliers than the power of the share. -/
theorem share_lt {g n k : ℕ} (hg : 0 < g) (hgn : g < n) (hk : 2 ≤ k) (hkn : k ≤ n) :
    (g.descFactorial k : ℝ) / n.descFactorial k < ((g : ℝ) / n) ^ k := by
  have hn : (0 : ℝ) < n := by exact_mod_cast (by omega : 0 < n)
  induction k, hk using Nat.le_induction with
  | base =>
    have h2 : (0 : ℝ) < (n : ℝ) - 1 := by
      have : (2 : ℝ) ≤ n := by exact_mod_cast hkn
      linarith
    have hg1 : (1 : ℝ) ≤ g := by exact_mod_cast hg
    have e : ∀ m : ℕ, 1 ≤ m → ((m.descFactorial 2 : ℕ) : ℝ) = ((m : ℝ) - 1) * m := by
      intro m hm
      rw [Nat.descFactorial_succ, Nat.descFactorial_one]
      push_cast [hm]
      ring
    rw [e g hg, e n (by omega), div_pow, div_lt_div_iff₀ (by positivity) (by positivity)]
    have hlt : (g : ℝ) < n := by exact_mod_cast hgn
    have hg0 : (0 : ℝ) < g := by exact_mod_cast hg
    have : (g : ℝ) * n * ((n : ℝ) - g) > 0 := by
      have : (0 : ℝ) < (n : ℝ) - g := by linarith
      positivity
    nlinarith
  | succ k hk ih =>
    have hkn' : k < n := by omega
    have h0 : (0 : ℝ) < (n : ℝ) - k := by
      have : (k : ℝ) < n := by exact_mod_cast hkn'
      linarith
    have hpos : (0 : ℝ) < n.descFactorial k := by
      exact_mod_cast Nat.descFactorial_pos.mpr hkn'.le
    rw [Nat.descFactorial_succ, Nat.descFactorial_succ, pow_succ', Nat.cast_mul, Nat.cast_mul, mul_div_mul_comm]
    have hq : ((g - k : ℕ) : ℝ) / ((n - k : ℕ) : ℝ) ≤ (g : ℝ) / n := by
      rw [Nat.cast_sub hkn'.le, div_le_div_iff₀ h0 hn]
      rcases le_or_gt k g with h | h
      · rw [Nat.cast_sub h]
        have : (g : ℝ) < n := by exact_mod_cast hgn
        have hk0 : (0 : ℝ) ≤ k := by positivity
        nlinarith
      · rw [Nat.sub_eq_zero_of_le h.le]
        push_cast
        rw [zero_mul]
        positivity
    have hg0 : (0 : ℝ) < g := by exact_mod_cast hg
    calc ((g - k : ℕ) : ℝ) / ((n - k : ℕ) : ℝ) * ((g.descFactorial k : ℝ) / n.descFactorial k)
        ≤ (g : ℝ) / n * ((g.descFactorial k : ℝ) / n.descFactorial k) := mul_le_mul_of_nonneg_right hq (by positivity)
      _ < (g : ℝ) / n * ((g : ℝ) / n) ^ k := mul_lt_mul_of_pos_left (ih (by omega)) (by positivity)

end HandEye
