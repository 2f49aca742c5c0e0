import Verif.Model.RoundedFilter
import Verif.Props.RoundedOffset
import Verif.Props.RoundedPoses

/-! # Property C114: the speeds for the time alignment in floating-point arithmetic -/

namespace HandEye

open Spec

/-- A computed percentile, up to the error `κ`. -/
def Spec.PercentileNear (κ : ℝ) (l : List ℝ) (p x : ℝ) : Prop := ∃ m, Spec.IsPercentile l p m ∧ |x - m| ≤ κ

/-- Computed means over windows of `k` samples of signals of length `n` with values of at most `M`, up to the error `κ`. -/
def Spec.Smooths (κ : ℝ) (n k : ℕ) (M : ℝ) (smooth : List ℝ → ℕ → ℕ → ℝ) : Prop :=
  ∀ (l : List ℝ) (i : ℕ), l.length = n → (∀ x ∈ l, |x| ≤ M) → |smooth l k i - Spec.windowMean (Spec.sample l) k i| ≤ κ

theorem isPercentile_unique {l : List ℝ} {p a b : ℝ} (ha : Spec.IsPercentile l p a) (hb : Spec.IsPercentile l p b) : a = b := by
  obtain ⟨s, k, f, x, h1, h2, h3, h4, h5, h6, h7⟩ := ha
  obtain ⟨s', k', f', x', h1', h2', h3', h4', h5', h6', h7'⟩ := hb
  obtain rfl : s = s' := List.Perm.eq_of_pairwise' (r := (· ≤ ·)) h2 h2' (h1.trans h1'.symm)
  have hk : k = k' := by
    have e : (k : ℝ) + f = k' + f' := h3.trans h3'.symm
    have e1 : (k : ℝ) < k' + 1 := by linarith
    have e2 : (k' : ℝ) < k + 1 := by linarith
    have e1 : k < k' + 1 := by exact_mod_cast e1
    have e2 : k' < k + 1 := by exact_mod_cast e2
    omega
  subst hk
  have hf : f = f' := by linarith
  subst hf
  have hx : x = x' := by
    rw [h6] at h6'
    injection h6'
  subst hx
  rcases h7 with ⟨e1, rfl⟩ | ⟨y, e1, rfl⟩ <;> rcases h7' with ⟨e2, rfl⟩ | ⟨y', e2, rfl⟩
  · rfl
  · rw [e1]; ring
  · rw [e2]; ring
  · rw [e1] at e2
    injection e2 with e2
    rw [e2]

theorem clip_bound {x m M : ℝ} (hm : |m| ≤ M) : |npClip x (-m) m| ≤ M := by
  unfold npClip
  obtain ⟨h1, h2⟩ := abs_le.mp hm
  rw [abs_le]
  refine ⟨le_min h1 ?_, (min_le_left _ _).trans h2⟩
  exact (by linarith : -M ≤ -m).trans (le_max_right _ _)

/-- **C114**, the filter: angular velocities `v` within `ε` of the true ones `w`, a percentile up to the error `κ₁` and smoothing up to `κ₂` give filtered
velocities within `ε + κ₁ + κ₂` of the exactly filtered true velocities. -/
theorem C114_filter (percentile : List ℝ → ℝ → ℝ) (smooth : List ℝ → ℕ → ℕ → ℝ) (v w : List Vec3) (ε κ₁ κ₂ M p : ℝ) (k : ℕ) (hv : v ≠ [])
    (hvw : List.Forall₂ (NearVec ε) v w) (hM : ∀ x ∈ v, |x.x| ≤ M ∧ |x.y| ≤ M ∧ |x.z| ≤ M) (hk : 0 < k) (hp : 0 ≤ p) (hp' : p ≤ 100)
    (hper : Spec.PercentileNear κ₁ (v.flatMap fun x => [x.x, x.y, x.z]) p (percentile (v.flatMap fun x => [x.x, x.y, x.z]) p))
    (hsm : Spec.Smooths κ₂ v.length k (M + κ₁) smooth) :
    ∃ out exact, Arith.filterWith percentile smooth v k p = .ok out ∧ filterAndSmooth w k p = .ok exact ∧ out.length = v.length ∧
      List.Forall₂ (NearVec (ε + κ₁ + κ₂)) out exact ∧ ∀ x ∈ out, |x.x| ≤ M + κ₁ + κ₂ ∧ |x.y| ≤ M + κ₁ + κ₂ ∧ |x.z| ≤ M + κ₁ + κ₂ := by
  have hε : 0 ≤ ε := by
    cases hvw with
    | nil => exact absurd rfl hv
    | cons h1 _ => exact (abs_nonneg _).trans h1.1
  have hflat : flat3 v ≠ [] := by
    cases v with
    | nil => exact absurd rfl hv
    | cons u l => simp [flat3]
  obtain ⟨mp, hmp, hmp'⟩ := hper
  have hκ1 : 0 ≤ κ₁ := (abs_nonneg _).trans hmp'
  obtain ⟨m, m', e1, e2, hm⟩ := near_percentile hε (near_flat3 hε hvw) hflat hp hp'
  obtain rfl : m = mp := by
    obtain ⟨m2, e3, e4⟩ := npPercentile_spec hflat hp hp'
    obtain rfl : m = m2 := by rw [e1] at e3; injection e3
    exact isPercentile_unique e4 hmp
  change |percentile (flat3 v) p - m| ≤ κ₁ at hmp'
  have hflatM : ∀ x ∈ flat3 v, |x| ≤ M := by
    intro x hx
    obtain ⟨y, hy, hx⟩ := List.mem_flatMap.mp hx
    have := hM y hy
    simp only [List.mem_cons, List.not_mem_nil, or_false] at hx
    rcases hx with rfl | rfl | rfl
    · exact this.1
    · exact this.2.1
    · exact this.2.2
  have hmM : |m| ≤ M := by
    obtain ⟨⟨a, ha, ha'⟩, b, hb, hb'⟩ := isPercentile_bounds hmp
    have k1 := abs_le.mp (hflatM a ha)
    have k2 := abs_le.mp (hflatM b hb)
    rw [abs_le]
    constructor <;> linarith
  set c := percentile (flat3 v) p with hc
  have hcM : |c| ≤ M + κ₁ := by
    have := abs_sub_abs_le_abs_sub c m
    linarith
  have hcm : |c - m'| ≤ ε + κ₁ := by
    have : c - m' = (c - m) + (m - m') := by ring
    rw [this]
    exact (abs_add_le _ _).trans (by linarith)
  have hclip : List.Forall₂ (NearVec (ε + κ₁)) (v.map (clipVec c)) (w.map (clipVec m')) := by
    rw [List.forall₂_map_left_iff, List.forall₂_map_right_iff]
    exact hvw.imp fun a b hab => ⟨near_clip (hab.1.trans (by linarith)) hcm, near_clip (hab.2.1.trans (by linarith)) hcm,
      near_clip (hab.2.2.trans (by linarith)) hcm⟩
  have he : 0 ≤ ε + κ₁ := by linarith
  have hclipM : ∀ g : Vec3 → ℝ, (∀ x, |g (clipVec c x)| ≤ M + κ₁) → ∀ x ∈ (v.map (clipVec c)).map g, |x| ≤ M + κ₁ := by
    intro g hg x hx
    obtain ⟨y, hy, rfl⟩ := List.mem_map.mp hx
    obtain ⟨z, -, rfl⟩ := List.mem_map.mp hy
    exact hg z
  have one : ∀ (g : Vec3 → ℝ) (i : ℕ), (∀ u u', NearVec (ε + κ₁) u u' → |g u - g u'| ≤ ε + κ₁) → (∀ x, |g (clipVec c x)| ≤ M + κ₁) →
      |smooth ((v.map (clipVec c)).map g) k i - smoothAt ((w.map (clipVec m')).map g) k i| ≤ ε + κ₁ + κ₂ ∧
      |smooth ((v.map (clipVec c)).map g) k i| ≤ M + κ₁ + κ₂ := by
    intro g i hg hgM
    have a1 := hsm ((v.map (clipVec c)).map g) i (by simp) (hclipM g hgM)
    have a2 := near_smoothAt he (near_map he hclip g hg) hk i
    have a3 := windowMean_le (abs_sample_le ((abs_nonneg _).trans hcM) (hclipM g hgM)) k i ((abs_nonneg _).trans hcM)
    rw [smoothAt_eq _ hk, ] at a2
    constructor
    · generalize smooth ((v.map (clipVec c)).map g) k i = s1 at *
      generalize Spec.windowMean (Spec.sample ((v.map (clipVec c)).map g)) k i = s2 at *
      generalize smoothAt ((w.map (clipVec m')).map g) k i = s3 at *
      have : s1 - s3 = (s1 - s2) + (s2 - s3) := by ring
      rw [this]
      exact (abs_add_le _ _).trans (by linarith)
    · have := abs_sub_abs_le_abs_sub (smooth ((v.map (clipVec c)).map g) k i) (Spec.windowMean (Spec.sample ((v.map (clipVec c)).map g)) k i)
      linarith
  have ox := fun i => one Vec3.x i (fun _ _ h => h.1) fun x => clip_bound hcM
  have oy := fun i => one Vec3.y i (fun _ _ h => h.2.1) fun x => clip_bound hcM
  have oz := fun i => one Vec3.z i (fun _ _ h => h.2.2) fun x => clip_bound hcM
  unfold Arith.filterWith filterAndSmooth
  rw [e2, Py.ok_bind, pyRequire, if_pos hv, Py.ok_bind, pyRequire, if_pos ⟨hp, hp'⟩, Py.ok_bind, pyRequire, if_pos hk.ne', Py.ok_bind, Py.ok_bind]
  refine ⟨_, _, rfl, rfl, by simp, ?_, ?_⟩
  · rw [List.forall₂_map_left_iff, List.forall₂_map_right_iff, ← hvw.length_eq, List.forall₂_same]
    exact fun i _ => ⟨(ox i).1, (oy i).1, (oz i).1⟩
  · intro x hx
    obtain ⟨i, -, rfl⟩ := List.mem_map.mp hx
    exact ⟨(ox i).2, (oy i).2, (oz i).2⟩

/-- **C114**, the speeds: `np.linalg.norm` is exact up to `6 u` of the speed. -/
theorem C114_speed {u : ℝ} {A : Arith} (h : Spec.Machine u A) (sum : List ℝ → ℝ) (hsum : Spec.Sums u sum) (v : Vec3) :
    |A.speed sum v - Real.sqrt (v.x ^ 2 + v.y ^ 2 + v.z ^ 2)| ≤ 6 * u * Real.sqrt (v.x ^ 2 + v.y ^ 2 + v.z ^ 2) := by
  have h0 := h.nonneg
  have hs := h.small
  unfold Arith.speed
  have rx := abs_le.mp (h.rounds (v.x * v.x))
  have ry := abs_le.mp (h.rounds (v.y * v.y))
  have rz := abs_le.mp (h.rounds (v.z * v.z))
  have sx := mul_self_nonneg v.x
  have sy := mul_self_nonneg v.y
  have sz := mul_self_nonneg v.z
  rw [abs_of_nonneg sx] at rx
  rw [abs_of_nonneg sy] at ry
  rw [abs_of_nonneg sz] at rz
  have hS := hsum [A.fl (v.x * v.x), A.fl (v.y * v.y), A.fl (v.z * v.z)]
  rw [show v.x ^ 2 + v.y ^ 2 + v.z ^ 2 = v.x * v.x + v.y * v.y + v.z * v.z by ring]
  generalize v.x * v.x = a at *
  generalize v.y * v.y = b at *
  generalize v.z * v.z = c at *
  have ua : u * a ≤ 1 / 1000 * a := mul_le_mul_of_nonneg_right hs sx
  have ub : u * b ≤ 1 / 1000 * b := mul_le_mul_of_nonneg_right hs sy
  have uc : u * c ≤ 1 / 1000 * c := mul_le_mul_of_nonneg_right hs sz
  simp only [List.length_cons, List.length_nil, List.sum_cons, List.sum_nil, List.map_cons, List.map_nil, add_zero, zero_add] at hS
  rw [abs_of_nonneg (by linarith : 0 ≤ A.fl a), abs_of_nonneg (by linarith : 0 ≤ A.fl b), abs_of_nonneg (by linarith : 0 ≤ A.fl c)] at hS
  generalize sum [A.fl a, A.fl b, A.fl c] = s at *
  generalize A.fl a = a' at *
  generalize A.fl b = b' at *
  generalize A.fl c = c' at *
  have hp : (1 + u) ^ (1 + 1 + 1) - 1 ≤ 3.01 * u := by
    norm_num
    nlinarith [mul_nonneg h0 h0, mul_nonneg (mul_nonneg h0 h0) h0]
  set S := a + b + c with hSdef
  have hS0 : 0 ≤ S := by linarith
  have huS : u * S ≤ 1 / 1000 * S := mul_le_mul_of_nonneg_right hs hS0
  have huS0 : 0 ≤ u * S := mul_nonneg h0 hS0
  have k0 : a' + b' + c' ≤ 1.001 * S := by norm_num; linarith
  have k1 : ((1 + u) ^ (1 + 1 + 1) - 1) * (a' + (b' + c')) ≤ 3.01 * u * (1.001 * S) :=
    mul_le_mul hp (by linarith) (by linarith) (by positivity)
  have k2 : |s - S| ≤ 4.1 * u * S := by
    have := abs_le.mp (hS.trans k1)
    norm_num at this
    rw [abs_le]
    norm_num
    constructor <;> linarith
  obtain ⟨l1, l2⟩ := abs_le.mp k2
  have hsq : Real.sqrt S * Real.sqrt S = S := Real.mul_self_sqrt hS0
  set R := Real.sqrt S with hR
  have hR0 : 0 ≤ R := Real.sqrt_nonneg _
  have huR : u * R ≤ 1 / 1000 * R := mul_le_mul_of_nonneg_right hs hR0
  have huR0 : 0 ≤ u * R := mul_nonneg h0 hR0
  have q1 : Real.sqrt s ≤ (1 + 4.1 * u) * R := by
    apply Real.sqrt_le_iff.mpr
    refine ⟨by positivity, ?_⟩
    have : ((1 + 4.1 * u) * R) ^ 2 = (1 + 8.2 * u + 16.81 * (u * u)) * S := by rw [← hsq]; ring
    rw [this]
    norm_num at l2 ⊢
    nlinarith [mul_nonneg h0 h0, mul_nonneg (mul_nonneg h0 h0) hS0]
  have q2 : (1 - 4.1 * u) * R ≤ Real.sqrt s := by
    apply Real.le_sqrt_of_sq_le
    have : ((1 - 4.1 * u) * R) ^ 2 = (1 - 8.2 * u + 16.81 * (u * u)) * S := by rw [← hsq]; ring
    rw [this]
    have : u * u * S ≤ 1 / 1000 * (u * S) := by
      have := mul_le_mul_of_nonneg_left huS h0
      linarith
    norm_num at l1 ⊢
    linarith
  have r := abs_le.mp (h.rounds (Real.sqrt s))
  rw [abs_of_nonneg (Real.sqrt_nonneg _)] at r
  have k5 : u * Real.sqrt s ≤ u * ((1 + 4.1 * u) * R) := mul_le_mul_of_nonneg_left q1 h0
  have k6 : u * (u * R) ≤ 1 / 1000 * (u * R) := mul_le_mul_of_nonneg_right hs huR0
  rw [abs_le]
  norm_num at q1 q2 k5
  constructor <;> nlinarith

theorem sum_close (u : ℝ) (f g : ℕ → ℝ) (l : List ℕ) (h : ∀ i, |f i - g i| ≤ u * |g i|) :
    |(l.map f).sum - (l.map g).sum| ≤ u * ((l.map g).map abs).sum ∧ ((l.map f).map abs).sum ≤ (1 + u) * ((l.map g).map abs).sum := by
  induction l with
  | nil => simp
  | cons a l ih =>
    simp only [List.map_cons, List.sum_cons]
    have k := h a
    have k2 := abs_sub_abs_le_abs_sub (f a) (g a)
    constructor
    · have e : f a + (l.map f).sum - (g a + (l.map g).sum) = (f a - g a) + ((l.map f).sum - (l.map g).sum) := by ring
      rw [e]
      exact (abs_add_le _ _).trans (by linarith [ih.1])
    · linarith [ih.2]

/-- **C114**, direct smoothing: its errors are at most `(1 + u)^(k + 2) - 1` of the largest value. -/
theorem C114_smooth {u : ℝ} {A : Arith} (h : Spec.Machine u A) (sum : List ℝ → ℝ) (hsum : Spec.Sums u sum) (n k : ℕ) (M : ℝ) (hk : 0 < k) (hM : 0 ≤ M) :
    Spec.Smooths (((1 + u) ^ (k + 2) - 1) * M) n k M (A.smoothAt sum) := by
  intro l i _ hl
  have h0 := h.nonneg
  rw [← smoothAt_eq _ hk]
  unfold Arith.smoothAt smoothAt
  set z : ℕ → ℝ := fun j => zeroExt l ((i : ℤ) + ((k - 1) / 2 : ℕ) - (k - 1 : ℕ) + j) with hz
  have hzM : ∀ j, |z j| ≤ M := by
    intro j
    rw [hz]
    dsimp only
    rw [← sample_eq]
    exact abs_sample_le hM hl _
  have hkr : (0 : ℝ) < k := by exact_mod_cast hk
  have hq : (1 + u) ^ 2 - 1 = 2 * u + u * u := by ring
  have hfl : ∀ j, |A.fl (z j * A.fl (1 / k)) - z j * (1 / k)| ≤ ((1 + u) ^ 2 - 1) * |z j * (1 / k)| := by
    intro j
    have r1 := h.rounds (1 / k)
    have r2 := h.rounds (z j * A.fl (1 / k))
    have e1 : |z j * A.fl (1 / k) - z j * (1 / k)| ≤ u * |z j * (1 / k)| := by
      rw [← mul_sub, abs_mul, abs_mul]
      calc |z j| * |A.fl (1 / k) - 1 / k| ≤ |z j| * (u * |1 / (k : ℝ)|) := mul_le_mul_of_nonneg_left r1 (abs_nonneg _)
        _ = _ := by ring
    have e2 := abs_sub_abs_le_abs_sub (z j * A.fl (1 / k)) (z j * (1 / k))
    have e3 : u * |z j * A.fl (1 / k)| ≤ u * ((1 + u) * |z j * (1 / k)|) := mul_le_mul_of_nonneg_left (by linarith) h0
    have e : A.fl (z j * A.fl (1 / k)) - z j * (1 / k) = (A.fl (z j * A.fl (1 / k)) - z j * A.fl (1 / k)) + (z j * A.fl (1 / k) - z j * (1 / k)) := by
      ring
    rw [e, hq]
    refine (abs_add_le _ _).trans ?_
    linarith
  have hc := sum_close ((1 + u) ^ 2 - 1) (fun j => A.fl (z j * A.fl (1 / k))) (fun j => z j * (1 / k)) (List.range k) hfl
  have hs := hsum ((List.range k).map fun j => A.fl (z j * A.fl (1 / k)))
  rw [List.length_map, List.length_range] at hs
  have hT : (((List.range k).map fun j => z j * (1 / k)).map abs).sum ≤ M := by
    have : ∀ m : ℕ, (((List.range m).map fun j => z j * (1 / (k : ℝ))).map abs).sum ≤ m * (M * (1 / k)) := by
      intro m
      induction m with
      | zero => simp
      | succ m ih =>
        rw [List.range_succ, List.map_append, List.map_append, List.sum_append]
        simp only [List.map_cons, List.map_nil, List.sum_cons, List.sum_nil, add_zero, Nat.cast_succ]
        have : |z m * (1 / (k : ℝ))| ≤ M * (1 / k) := by
          rw [abs_mul, abs_of_pos (by positivity : (0 : ℝ) < 1 / k)]
          exact mul_le_mul_of_nonneg_right (hzM m) (by positivity)
        linarith
    have e := this k
    have e2 : (k : ℝ) * (M * (1 / k)) = M := by field_simp
    rwa [e2] at e
  set T := (((List.range k).map fun j => z j * (1 / k)).map abs).sum
  have hk1 : 1 ≤ (1 + u) ^ k := one_le_pow₀ (by linarith)
  have a1 : ((1 + u) ^ k - 1) * (((List.range k).map fun j => A.fl (z j * A.fl (1 / k))).map abs).sum ≤ ((1 + u) ^ k - 1) * ((1 + u) ^ 2 * M) := by
    refine mul_le_mul_of_nonneg_left (hc.2.trans ?_) (by linarith)
    rw [add_sub_cancel]
    exact mul_le_mul_of_nonneg_left hT (by positivity)
  have a2 : ((1 + u) ^ 2 - 1) * T ≤ ((1 + u) ^ 2 - 1) * M := mul_le_mul_of_nonneg_left hT (by rw [hq]; positivity)
  have e : sum ((List.range k).map fun j => A.fl (z j * A.fl (1 / k))) - ((List.range k).map fun j => z j * (1 / k)).sum =
      (sum ((List.range k).map fun j => A.fl (z j * A.fl (1 / k))) - ((List.range k).map fun j => A.fl (z j * A.fl (1 / k))).sum) +
      (((List.range k).map fun j => A.fl (z j * A.fl (1 / k))).sum - ((List.range k).map fun j => z j * (1 / k)).sum) := by ring
  rw [e]
  refine (abs_add_le _ _).trans ((add_le_add (hs.trans a1) (hc.1.trans a2)).trans (le_of_eq ?_))
  rw [pow_add]
  ring

/-- The percentile as a function of the position in the sorted list. -/
noncomputable def atPosition (s : List ℝ) (n : ℕ) (x : ℝ) : ℝ :=
  s.getD ⌊x⌋₊ 0 + (x - ⌊x⌋₊) * (s.getD (min (⌊x⌋₊ + 1) (n - 1)) 0 - s.getD ⌊x⌋₊ 0)

theorem atPosition_le {s : List ℝ} {n : ℕ} {M : ℝ} (hM : ∀ i, |s.getD i 0| ≤ M) {x y : ℝ} (hx : 0 ≤ x) (hxy : x ≤ y) (hy1 : y < x + 1) (hn : y < n) :
    |atPosition s n x - atPosition s n y| ≤ 2 * M * (y - x) := by
  have d : ∀ i j, |s.getD i 0 - s.getD j 0| ≤ 2 * M := by
    intro i j
    have a := abs_le.mp (hM i)
    have b := abs_le.mp (hM j)
    rw [abs_le]
    constructor <;> linarith
  have f1 := Nat.floor_le hx
  have f2 := Nat.lt_floor_add_one x
  have g1 := Nat.floor_le (hx.trans hxy)
  have g2 := Nat.lt_floor_add_one y
  have hmono : ⌊x⌋₊ ≤ ⌊y⌋₊ := Nat.floor_le_floor hxy
  have hle : ⌊y⌋₊ ≤ ⌊x⌋₊ + 1 := by
    have : (⌊y⌋₊ : ℝ) < ⌊x⌋₊ + 1 + 1 := by linarith
    have : ⌊y⌋₊ < ⌊x⌋₊ + 1 + 1 := by exact_mod_cast this
    omega
  have hyn : ⌊y⌋₊ ≤ n - 1 := by
    have : (⌊y⌋₊ : ℝ) < n := by linarith
    have : ⌊y⌋₊ < n := by exact_mod_cast this
    omega
  unfold atPosition
  rcases (by omega : ⌊y⌋₊ = ⌊x⌋₊ ∨ ⌊y⌋₊ = ⌊x⌋₊ + 1) with e | e
  · rw [e]
    have k := d (min (⌊x⌋₊ + 1) (n - 1)) ⌊x⌋₊
    generalize s.getD (min (⌊x⌋₊ + 1) (n - 1)) 0 = b at *
    generalize s.getD ⌊x⌋₊ 0 = a at *
    have : a + (x - ⌊x⌋₊) * (b - a) - (a + (y - ⌊x⌋₊) * (b - a)) = -((y - x) * (b - a)) := by ring
    rw [this, abs_neg, abs_mul, abs_of_nonneg (by linarith : 0 ≤ y - x)]
    have := mul_le_mul_of_nonneg_left k (by linarith : 0 ≤ y - x)
    linarith
  · rw [min_eq_left (by omega : ⌊x⌋₊ + 1 ≤ n - 1), e]
    rw [e] at g1 g2
    push_cast at g1 g2 ⊢
    have k1 := d (⌊x⌋₊ + 1) ⌊x⌋₊
    have k2 := d (min (⌊x⌋₊ + 1 + 1) (n - 1)) (⌊x⌋₊ + 1)
    generalize s.getD (min (⌊x⌋₊ + 1 + 1) (n - 1)) 0 = c at *
    generalize s.getD (⌊x⌋₊ + 1) 0 = b at *
    generalize s.getD ⌊x⌋₊ 0 = a at *
    generalize (⌊x⌋₊ : ℝ) = F at *
    have : a + (x - F) * (b - a) - (b + (y - (F + 1)) * (c - b)) = -((F + 1 - x) * (b - a)) + -((y - (F + 1)) * (c - b)) := by ring
    rw [this]
    refine (abs_add_le _ _).trans ?_
    rw [abs_neg, abs_neg, abs_mul, abs_mul, abs_of_nonneg (by linarith : 0 ≤ F + 1 - x), abs_of_nonneg (by linarith : 0 ≤ y - (F + 1))]
    have m1 := mul_le_mul_of_nonneg_left k1 (by linarith : 0 ≤ F + 1 - x)
    have m2 := mul_le_mul_of_nonneg_left k2 (by linarith : 0 ≤ y - (F + 1))
    linarith

/-- The computed position. -/
theorem position_near {u : ℝ} {A : Arith} (h : Spec.Machine u A) {p N : ℝ} (hp : 0 ≤ p) (hp' : p ≤ 100) (hN0 : 0 ≤ N) :
    |A.fl (A.fl (p / 100) * N) - p / 100 * N| ≤ 2.01 * (u * N) ∧ 0 ≤ A.fl (A.fl (p / 100) * N) := by
  have h0 := h.nonneg
  have hs := h.small
  have q : ∀ z, 0 ≤ z → 0 ≤ A.fl z := by
    intro z hz
    have := (abs_le.mp (h.rounds z)).1
    rw [abs_of_nonneg hz] at this
    nlinarith
  have hp1 : p / 100 ≤ 1 := by linarith
  refine ⟨?_, q _ (mul_nonneg (q _ (by positivity)) hN0)⟩
  have r1 := h.rounds (p / 100)
  rw [abs_of_nonneg (by positivity : 0 ≤ p / 100)] at r1
  have r2 := h.rounds (A.fl (p / 100) * N)
  have a1 : |A.fl (p / 100) * N - p / 100 * N| ≤ u * N := by
    rw [← sub_mul, abs_mul, abs_of_nonneg hN0]
    exact mul_le_mul_of_nonneg_right (r1.trans (by nlinarith)) hN0
  have hx : p / 100 * N ≤ N := by nlinarith
  have hx0 : 0 ≤ p / 100 * N := by positivity
  generalize A.fl (p / 100) * N = X at *
  generalize p / 100 * N = x at *
  have a2 := abs_sub_abs_le_abs_sub X x
  rw [abs_of_nonneg hx0] at a2
  have huN : u * N ≤ 1 / 1000 * N := mul_le_mul_of_nonneg_right hs hN0
  have huN0 : 0 ≤ u * N := mul_nonneg h0 hN0
  have a3 : u * |X| ≤ u * (1.001 * N) := by
    refine mul_le_mul_of_nonneg_left ?_ h0
    norm_num
    linarith
  have e : A.fl X - x = (A.fl X - X) + (X - x) := by ring
  rw [e]
  refine (abs_add_le _ _).trans ?_
  norm_num at a3 ⊢
  linarith

/-- A product with a weight. -/
theorem weight_near {u : ℝ} {A : Arith} (h : Spec.Machine u A) {M c w s e : ℝ} (hc : |c| ≤ M) (hw : |w - s| ≤ e) (hs0 : 0 ≤ s) :
    |A.fl (c * w) - c * s| ≤ (e + u * s + u * e) * M := by
  have h0 := h.nonneg
  have hM0 : 0 ≤ M := (abs_nonneg _).trans hc
  have r := h.rounds (c * w)
  have k1 : |c * w - c * s| ≤ M * e := by
    rw [← mul_sub, abs_mul]
    exact mul_le_mul hc hw (abs_nonneg _) hM0
  have k2 : |c * w| ≤ M * (s + e) := by
    rw [abs_mul]
    have : |w| ≤ s + e := by
      have := abs_sub_abs_le_abs_sub w s
      rw [abs_of_nonneg hs0] at this
      linarith
    exact mul_le_mul hc this (abs_nonneg _) hM0
  have k3 := mul_le_mul_of_nonneg_left k2 h0
  have e' : A.fl (c * w) - c * s = (A.fl (c * w) - c * w) + (c * w - c * s) := by ring
  rw [e']
  refine (abs_add_le _ _).trans ((add_le_add (r.trans k3) k1).trans (le_of_eq ?_))
  ring

/-- The weighted mean. -/
theorem weighted_near {u : ℝ} {A : Arith} (h : Spec.Machine u A) {M a b t : ℝ} (ha : |a| ≤ M) (hb : |b| ≤ M) (t0 : 0 ≤ t) (t1 : t ≤ 1) :
    |A.fl (A.fl (a * A.fl (1 - A.fl t)) + A.fl (b * A.fl t)) - (a + t * (b - a))| ≤ 5.2 * (u * M) := by
  have h0 := h.nonneg
  have hs := h.small
  have hM0 : 0 ≤ M := (abs_nonneg _).trans ha
  have w1 := h.rounds t
  rw [abs_of_nonneg t0] at w1
  have w1' : |A.fl t - t| ≤ u := w1.trans (by nlinarith)
  have w2 := h.rounds (1 - A.fl t)
  generalize A.fl t = wa at *
  obtain ⟨w11, w12⟩ := abs_le.mp w1'
  have w2' : |A.fl (1 - wa) - (1 - t)| ≤ 2.01 * u := by
    have k : |1 - wa| ≤ 1.001 := by
      rw [abs_le]
      norm_num
      constructor <;> linarith
    have k2 := mul_le_mul_of_nonneg_left k h0
    have e : A.fl (1 - wa) - (1 - t) = (A.fl (1 - wa) - (1 - wa)) + (t - wa) := by ring
    rw [e]
    refine (abs_add_le _ _).trans ?_
    rw [abs_sub_comm t wa]
    norm_num at k2 ⊢
    linarith
  have p1 := weight_near h hb w1' t0
  have p2 := weight_near h ha w2' (by linarith : 0 ≤ 1 - t)
  have huM : 0 ≤ u * M := mul_nonneg h0 hM0
  have huuM : u * (u * M) ≤ 1 / 1000 * (u * M) := mul_le_mul_of_nonneg_right hs huM
  have huM1 : u * M ≤ 1 / 1000 * M := mul_le_mul_of_nonneg_right hs hM0
  generalize A.fl (a * A.fl (1 - wa)) = P at *
  generalize A.fl (b * wa) = Q at *
  have hPQ : |P + Q - (a + t * (b - a))| ≤ 4.1 * (u * M) := by
    have e : P + Q - (a + t * (b - a)) = (P - a * (1 - t)) + (Q - b * t) := by ring
    rw [e]
    refine (abs_add_le _ _).trans ((add_le_add p2 p1).trans ?_)
    have e3 : (2.01 * u + u * (1 - t) + u * (2.01 * u)) * M + (u + u * t + u * u) * M = 4.01 * (u * M) + 3.01 * (u * (u * M)) := by ring
    rw [e3]
    norm_num
    linarith
  have hexact : |a + t * (b - a)| ≤ M := between_bound t0 t1 ha hb
  have hPQ' : |P + Q| ≤ 1.01 * M := by
    have := abs_sub_abs_le_abs_sub (P + Q) (a + t * (b - a))
    norm_num at hPQ ⊢
    linarith
  have r := h.rounds (P + Q)
  have k := mul_le_mul_of_nonneg_left hPQ' h0
  have e : A.fl (P + Q) - (a + t * (b - a)) = (A.fl (P + Q) - (P + Q)) + (P + Q - (a + t * (b - a))) := by ring
  rw [e]
  refine (abs_add_le _ _).trans ((add_le_add (r.trans k) hPQ).trans ?_)
  norm_num
  linarith

/-- **C114**, the percentile as a weighted mean: its errors are at most `(5 n + 6) u` of the largest value, for `n` values. -/
theorem C114_percentile {u : ℝ} {A : Arith} (h : Spec.Machine u A) (l : List ℝ) (p M : ℝ) (hl : l ≠ []) (hM : ∀ x ∈ l, |x| ≤ M) (hp : 0 ≤ p) (hp' : p ≤ 100)
    (hn : l.length * u ≤ 1 / 100) : Spec.PercentileNear ((5 * l.length + 6) * u * M) l p (A.percentile l p) := by
  have h0 := h.nonneg
  obtain ⟨m, e1, e2⟩ := npPercentile_spec hl hp hp'
  refine ⟨m, e2, ?_⟩
  have hperm : (npSort l).Perm l := List.perm_insertionSort _ _
  have hpos := List.length_pos_of_ne_nil hl
  have hM0 : 0 ≤ M := by
    obtain ⟨x, hx⟩ := List.exists_mem_of_ne_nil l hl
    exact (abs_nonneg _).trans (hM x hx)
  have hg : ∀ i, |(npSort l).getD i 0| ≤ M := by
    intro i
    rw [List.getD_eq_getElem?_getD]
    cases hi : (npSort l)[i]? with
    | none => simpa using hM0
    | some y => exact hM y (hperm.mem_iff.mp (List.mem_of_getElem? hi))
  unfold npPercentile at e1
  rw [if_neg hl, if_neg (by rintro (h | h) <;> linarith)] at e1
  have e1 : atPosition (npSort l) l.length (p / 100 * ((l.length - 1 : ℕ) : ℝ)) = m := by
    injection e1
  have hNl : ((l.length - 1 : ℕ) : ℝ) = l.length - 1 := by rw [Nat.cast_sub (by omega)]; simp
  unfold Arith.percentile
  dsimp only
  have hN0 : (0 : ℝ) ≤ ((l.length - 1 : ℕ) : ℝ) := Nat.cast_nonneg _
  obtain ⟨hy, hy0⟩ := position_near h hp hp' hN0
  generalize ((l.length - 1 : ℕ) : ℝ) = N at *
  have hx0 : 0 ≤ p / 100 * N := by positivity
  have hxN : p / 100 * N ≤ N := by
    have : p / 100 ≤ 1 := by linarith
    nlinarith
  have huN : u * N ≤ 1 / 100 := by
    rw [hNl]
    nlinarith
  have huN0 : 0 ≤ u * N := by positivity
  generalize p / 100 * N = x at *
  generalize A.fl (A.fl (p / 100) * N) = y at *
  obtain ⟨y1, y2⟩ := abs_le.mp hy
  norm_num at y1 y2
  have hpos2 : |atPosition (npSort l) l.length y - m| ≤ 2 * M * (2.01 * (u * N)) := by
    rw [← e1]
    have hlt : 2 * M * |y - x| ≤ 2 * M * (2.01 * (u * N)) := mul_le_mul_of_nonneg_left hy (by positivity)
    refine le_trans ?_ hlt
    rcases le_total x y with hc | hc
    · rw [abs_sub_comm, abs_of_nonneg (by linarith : 0 ≤ y - x)]
      exact atPosition_le hg hx0 hc (by linarith) (by linarith)
    · rw [abs_of_nonpos (by linarith : y - x ≤ 0), neg_sub]
      exact atPosition_le hg hy0 hc (by linarith) (by linarith)
  have f1 := Nat.floor_le hy0
  have f2 := Nat.lt_floor_add_one y
  have hw := weighted_near h (hg ⌊y⌋₊) (hg (min (⌊y⌋₊ + 1) (l.length - 1))) (t := y - ⌊y⌋₊) (by linarith) (by linarith)
  unfold atPosition at hpos2
  refine (abs_sub_le _ _ _).trans ((add_le_add hw hpos2).trans ?_)
  have : 0 ≤ u * M := by positivity
  have e3 : 5.2 * (u * M) + 2 * M * (2.01 * (u * N)) = (u * M) * (4.02 * N + 5.2) := by ring
  rw [e3, hNl, show (5 * (l.length : ℝ) + 6) * u * M = u * M * (5 * l.length + 6) by ring]
  refine mul_le_mul_of_nonneg_left ?_ this
  have : (0 : ℝ) ≤ l.length := Nat.cast_nonneg _
  norm_num
  linarith

/-- In `float64`, the filter of the scripts on two angular velocities; the percentile as a weighted mean and direct smoothing. -/
example : ∃ out exact, Arith.filterWith (doubleArith Real.arccos).percentile ((doubleArith Real.arccos).smoothAt sumDouble) [⟨1, 0, 0⟩, ⟨0, 3, 0⟩] 25 99 = .ok out ∧
    filterAndSmooth [⟨1, 0, 0⟩, ⟨0, 3, 0⟩] 25 99 = .ok exact ∧ out.length = 2 ∧ List.Forall₂ (NearVec 1e-12) out exact := by
  have hu : (2⁻¹ : ℝ) ^ 53 ≤ 1.2e-16 := by norm_num
  have hl : ∀ x ∈ ([⟨1, 0, 0⟩, ⟨0, 3, 0⟩] : List Vec3).flatMap (fun x => [x.x, x.y, x.z]), |x| ≤ 3 := by
    intro x hx
    simp at hx
    rcases hx with rfl | rfl | rfl | rfl <;> norm_num
  have hper := C114_percentile (machine_double Real.arccos) (([⟨1, 0, 0⟩, ⟨0, 3, 0⟩] : List Vec3).flatMap fun x => [x.x, x.y, x.z]) 99 3 (by simp) hl (by norm_num)
    (by norm_num) (by norm_num)
  have hsm := C114_smooth (machine_double Real.arccos) sumDouble C111_sum 2 25
    (3 + (5 * (([⟨1, 0, 0⟩, ⟨0, 3, 0⟩] : List Vec3).flatMap fun x => [x.x, x.y, x.z]).length + 6) * 2⁻¹ ^ 53 * 3) (by norm_num) (by positivity)
  obtain ⟨out, exact, e1, e2, e3, e4, -⟩ := C114_filter (doubleArith Real.arccos).percentile ((doubleArith Real.arccos).smoothAt sumDouble) [⟨1, 0, 0⟩, ⟨0, 3, 0⟩]
    [⟨1, 0, 0⟩, ⟨0, 3, 0⟩] 0 _ _ 3 99 25 (by simp) (by simp [NearVec]) (by norm_num) (by norm_num) (by norm_num) (by norm_num) hper hsm
  refine ⟨out, exact, e1, e2, e3, e4.imp ?_⟩
  intro a b ⟨h1, h2, h3⟩
  have hb : 0 + (5 * ((([⟨1, 0, 0⟩, ⟨0, 3, 0⟩] : List Vec3).flatMap fun x => [x.x, x.y, x.z]).length : ℝ) + 6) * 2⁻¹ ^ 53 * 3 +
      ((1 + (2⁻¹ : ℝ) ^ 53) ^ (25 + 2) - 1) * (3 + (5 * ((([⟨1, 0, 0⟩, ⟨0, 3, 0⟩] : List Vec3).flatMap fun x => [x.x, x.y, x.z]).length : ℝ) + 6) * 2⁻¹ ^ 53 * 3) ≤ 1e-12 := by
    norm_num
  exact ⟨h1.trans hb, h2.trans hb, h3.trans hb⟩

/-- The speed of an angular velocity in `float64`. -/
example : |(doubleArith Real.arccos).speed sumDouble ⟨3, 4, 0⟩ - 5| ≤ 1e-14 := by
  have := C114_speed (machine_double Real.arccos) sumDouble C111_sum ⟨3, 4, 0⟩
  rw [show Real.sqrt ((3 : ℝ) ^ 2 + 4 ^ 2 + 0 ^ 2) = 5 by rw [show (3 : ℝ) ^ 2 + 4 ^ 2 + 0 ^ 2 = 5 ^ 2 by norm_num, Real.sqrt_sq (by norm_num)]] at this
  exact this.trans (by norm_num)

end HandEye
