import Verif.Model.TimeAlign
import Verif.Lemmas.TimeAlign
import Verif.Lemmas.Py

/-! # Lemmas: the velocity filter does not amplify noise -/

namespace HandEye

/-- Vectors of the same length whose elements differ by at most `e`. -/
def Near (e : ℝ) (l l' : List ℝ) : Prop := l.length = l'.length ∧ ∀ i, |l.getD i 0 - l'.getD i 0| ≤ e

theorem Near.symm {e : ℝ} {l l' : List ℝ} (h : Near e l l') : Near e l' l := ⟨h.1.symm, fun i => by rw [abs_sub_comm]; exact h.2 i⟩

theorem sorted_count_ge {s : List ℝ} (hs : s.Pairwise (· ≤ ·)) {k : ℕ} (hk : k < s.length) : k + 1 ≤ s.countP fun x => decide (x ≤ s[k]) := by
  have h : (s.take (k + 1)).countP (fun x => decide (x ≤ s[k])) = (s.take (k + 1)).length := by
    rw [List.countP_eq_length]
    intro x hx
    obtain ⟨i, hi, rfl⟩ := List.getElem_of_mem hx
    rw [List.length_take] at hi
    rw [List.getElem_take, decide_eq_true_eq]
    rcases Nat.lt_or_ge i k with h | h
    · exact List.pairwise_iff_getElem.mp hs i k (by omega) hk h
    · have : i = k := by omega
      subst this
      exact le_rfl
  have h2 : (s.take (k + 1)).countP (fun x => decide (x ≤ s[k])) ≤ s.countP fun x => decide (x ≤ s[k]) :=
    (List.take_sublist _ _).countP_le
  rw [h, List.length_take] at h2
  omega

theorem sorted_count_le {s : List ℝ} (hs : s.Pairwise (· ≤ ·)) {k : ℕ} (hk : k < s.length) {z : ℝ} (hz : z < s[k]) :
    s.countP (fun x => decide (x ≤ z)) ≤ k := by
  have e : s = s.take k ++ s.drop k := (List.take_append_drop k s).symm
  have h : (s.drop k).countP (fun x => decide (x ≤ z)) = 0 := by
    rw [List.countP_eq_zero]
    intro x hx
    obtain ⟨i, hi, rfl⟩ := List.getElem_of_mem hx
    rw [List.length_drop] at hi
    rw [List.getElem_drop, decide_eq_true_eq, not_le]
    refine hz.trans_le ?_
    rcases Nat.eq_zero_or_pos i with rfl | h
    · simp
    · exact List.pairwise_iff_getElem.mp hs k (k + i) hk (by omega) (by omega)
  have h2 : (s.take k).countP (fun x => decide (x ≤ z)) ≤ (s.take k).length := List.countP_le_length
  rw [e, List.countP_append, h]
  rw [List.length_take] at h2
  omega

theorem near_count {e y : ℝ} {l l' : List ℝ} (h : Near e l l') :
    (l'.countP fun x => decide (x ≤ y)) ≤ l.countP fun x => decide (x ≤ y + e) := by
  obtain ⟨hl, hd⟩ := h
  induction l generalizing l' with
  | nil =>
    cases l' with
    | nil => rfl
    | cons b l' => simp at hl
  | cons a l ih =>
    cases l' with
    | nil => simp at hl
    | cons b l' =>
      have h0 := hd 0
      simp only [List.getD_cons_zero] at h0
      have := ih (by simpa using hl) (fun i => by simpa using hd (i + 1))
      rw [List.countP_cons, List.countP_cons]
      have h0 := abs_le.mp h0
      by_cases hb : b ≤ y
      · rw [if_pos (by simpa using hb), if_pos (by simp; linarith)]
        omega
      · rw [if_neg (by simpa using hb)]
        omega

theorem npSort_pairwise (l : List ℝ) : (npSort l).Pairwise (· ≤ ·) := List.pairwise_insertionSort _ _

theorem npSort_perm (l : List ℝ) : (npSort l).Perm l := List.perm_insertionSort _ _

theorem near_sort_le {e : ℝ} {l l' : List ℝ} (h : Near e l l') (k : ℕ) (hk : k < (npSort l).length) (hk' : k < (npSort l').length) :
    (npSort l)[k] ≤ (npSort l')[k] + e := by
  by_contra hc
  rw [not_le] at hc
  have h1 := sorted_count_ge (npSort_pairwise l') hk'
  have h2 := sorted_count_le (npSort_pairwise l) hk hc
  rw [(npSort_perm l').countP_eq] at h1
  rw [(npSort_perm l).countP_eq] at h2
  have := near_count (y := (npSort l')[k]) h
  omega

theorem near_sort {e : ℝ} (he : 0 ≤ e) {l l' : List ℝ} (h : Near e l l') : Near e (npSort l) (npSort l') := by
  have hl : (npSort l).length = (npSort l').length := by rw [(npSort_perm l).length_eq, (npSort_perm l').length_eq, h.1]
  refine ⟨hl, fun k => ?_⟩
  by_cases hk : k < (npSort l).length
  · have hk' : k < (npSort l').length := by omega
    rw [getD_eq hk, getD_eq hk', abs_le]
    have h1 := near_sort_le h k hk hk'
    have h2 := near_sort_le h.symm k hk' hk
    constructor <;> linarith
  · rw [List.getD_eq_getElem?_getD, List.getD_eq_getElem?_getD, List.getElem?_eq_none (by omega), List.getElem?_eq_none (by omega)]
    simpa using he

/-- The percentile. -/
theorem near_percentile {e : ℝ} (he : 0 ≤ e) {l l' : List ℝ} (h : Near e l l') (hne : l ≠ []) {p : ℝ} (h0 : 0 ≤ p) (h1 : p ≤ 100) :
    ∃ m m', npPercentile l p = .ok m ∧ npPercentile l' p = .ok m' ∧ |m - m'| ≤ e := by
  have hne' : l' ≠ [] := by
    rintro rfl
    exact hne (List.length_eq_zero_iff.mp h.1)
  unfold npPercentile
  rw [if_neg hne, if_neg hne', if_neg (by rintro (h | h) <;> linarith), if_neg (by rintro (h | h) <;> linarith)]
  refine ⟨_, _, rfl, rfl, ?_⟩
  have hs := near_sort he h
  rw [← h.1]
  set x : ℝ := p / 100 * ((l.length - 1 : ℕ) : ℝ) with hx
  have hx0 : 0 ≤ x := by positivity
  have f0 : 0 ≤ x - ⌊x⌋₊ := sub_nonneg.mpr (Nat.floor_le hx0)
  have f1 : x - ⌊x⌋₊ ≤ 1 := by
    have := Nat.lt_floor_add_one x
    linarith
  have a1 := abs_le.mp (hs.2 ⌊x⌋₊)
  have a2 := abs_le.mp (hs.2 (min (⌊x⌋₊ + 1) (l.length - 1)))
  generalize (npSort l).getD ⌊x⌋₊ 0 = u at *
  generalize (npSort l').getD ⌊x⌋₊ 0 = u' at *
  generalize (npSort l).getD (min (⌊x⌋₊ + 1) (l.length - 1)) 0 = v at *
  generalize (npSort l').getD (min (⌊x⌋₊ + 1) (l.length - 1)) 0 = v' at *
  generalize x - ⌊x⌋₊ = t at *
  rw [abs_le]
  constructor <;> nlinarith

theorem near_clip {e x x' m m' : ℝ} (hx : |x - x'| ≤ e) (hm : |m - m'| ≤ e) : |npClip x (-m) m - npClip x' (-m') m'| ≤ e := by
  unfold npClip
  refine (abs_min_sub_min_le_max _ _ _ _).trans (max_le hm ((abs_max_sub_max_le_max _ _ _ _).trans (max_le hx ?_)))
  rw [show -m - -m' = -(m - m') by ring, abs_neg]
  exact hm

theorem near_zeroExt {e : ℝ} (he : 0 ≤ e) {l l' : List ℝ} (h : Near e l l') (i : ℤ) : |zeroExt l i - zeroExt l' i| ≤ e := by
  unfold zeroExt
  split
  · exact h.2 _
  · simpa using he

theorem near_sum {e : ℝ} (f g : ℕ → ℝ) (l : List ℕ) (h : ∀ i, |f i - g i| ≤ e) : |(l.map f).sum - (l.map g).sum| ≤ l.length * e := by
  induction l with
  | nil => simp
  | cons a l ih =>
    simp only [List.map_cons, List.sum_cons, List.length_cons]
    have h1 := abs_le.mp (h a)
    have h2 := abs_le.mp ih
    push_cast
    rw [abs_le]
    constructor <;> linarith

theorem near_smoothAt {e : ℝ} (he : 0 ≤ e) {l l' : List ℝ} (h : Near e l l') {k : ℕ} (hk : 0 < k) (i : ℕ) : |smoothAt l k i - smoothAt l' k i| ≤ e := by
  unfold smoothAt
  have hk' : (0 : ℝ) < k := by exact_mod_cast hk
  refine (near_sum (e := e * (1 / k)) _ _ (List.range k) fun j => ?_).trans (le_of_eq ?_)
  · rw [← sub_mul, abs_mul, abs_of_pos (a := 1 / (k : ℝ)) (by positivity)]
    exact mul_le_mul_of_nonneg_right (near_zeroExt he h _) (by positivity)
  · rw [List.length_range]
    field_simp

/-- The length of a vector whose components have changed a little. -/
theorem near_norm {e : ℝ} (he : 0 ≤ e) {u v : Vec3} (hx : |u.x - v.x| ≤ e) (hy : |u.y - v.y| ≤ e) (hz : |u.z - v.z| ≤ e) :
    |u.norm - v.norm| ≤ √3 * e := by
  have key : ∀ {u v : Vec3}, |u.x - v.x| ≤ e → |u.y - v.y| ≤ e → |u.z - v.z| ≤ e → u.norm ≤ v.norm + √3 * e := by
    intro u v hx hy hz
    have h3 : √3 * √3 = (3 : ℝ) := Real.mul_self_sqrt (by norm_num)
    have h30 : 0 ≤ √(3 : ℝ) := Real.sqrt_nonneg 3
    have hv0 : 0 ≤ v.dot v := by
      unfold Vec3.dot
      nlinarith [mul_self_nonneg v.x, mul_self_nonneg v.y, mul_self_nonneg v.z]
    have hv : v.norm * v.norm = v.dot v := Real.mul_self_sqrt hv0
    have hn : 0 ≤ v.norm := Real.sqrt_nonneg _
    unfold Vec3.norm
    rw [show Real.sqrt (v.dot v) = v.norm from rfl]
    apply Real.sqrt_le_iff.mpr
    refine ⟨by positivity, ?_⟩
    have hs : |v.x| + |v.y| + |v.z| ≤ √3 * v.norm := by
      refine abs_le_of_sq_le_sq' ?_ (by positivity) |>.2
      have : (√3 * v.norm) ^ 2 = 3 * (v.dot v) := by
        rw [mul_pow, sq, sq, h3, hv]
      rw [this]
      unfold Vec3.dot
      nlinarith [sq_nonneg (|v.x| - |v.y|), sq_nonneg (|v.y| - |v.z|), sq_nonneg (|v.x| - |v.z|), abs_mul_abs_self v.x, abs_mul_abs_self v.y,
        abs_mul_abs_self v.z]
    have c1 : ∀ a b : ℝ, |a - b| ≤ e → a * a ≤ b * b + 2 * e * |b| + e * e := by
      intro a b h
      have h1 := abs_nonneg (a - b)
      have h2 : (a - b) * (a - b) ≤ e * e := by
        rw [← abs_mul_abs_self (a - b)]
        exact mul_self_le_mul_self h1 h
      have h3 : b * (a - b) ≤ |b| * e := by
        refine (le_abs_self _).trans ?_
        rw [abs_mul]
        exact mul_le_mul_of_nonneg_left h (abs_nonneg b)
      nlinarith
    have d1 := c1 _ _ hx
    have d2 := c1 _ _ hy
    have d3 := c1 _ _ hz
    have hm : e * (|v.x| + |v.y| + |v.z|) ≤ e * (√3 * v.norm) := mul_le_mul_of_nonneg_left hs he
    have : (v.norm + √3 * e) ^ 2 = v.dot v + 2 * (e * (√3 * v.norm)) + 3 * (e * e) := by
      rw [← hv]
      linear_combination (e * e) * h3
    rw [this]
    unfold Vec3.dot at *
    linarith
  rw [abs_le]
  have h1 := key hx hy hz
  have h2 := key (u := v) (v := u) (by rwa [abs_sub_comm]) (by rwa [abs_sub_comm]) (by rwa [abs_sub_comm])
  constructor <;> linarith

end HandEye
