import Verif.Model.TestTimeAlign
import Verif.Props.Figures
import Verif.Props.Mounting
import Verif.Props.DataDrops

/-! # Property C82, continued: `test_time_alignment.py` -/

namespace HandEye

theorem testTimes_ok : npLinspace 0 ((100 + 1) / 100) 100 = .ok ((List.range 100).map fun (i : ℕ) => (i : ℝ) * (1.01 / 99)) := by
  unfold npLinspace
  have e : pyInt 100 = 100 := by
    unfold pyInt
    rw [if_pos (by norm_num)]
    exact_mod_cast Int.floor_natCast (R := ℝ) 100
  rw [e, if_neg (by norm_num), if_neg (by norm_num)]
  refine congrArg Except.ok (List.map_congr_left ?_)
  intro i _
  have : Int.toNat 100 = 100 := rfl
  rw [this]
  norm_num

theorem gaussian_length (M : ℕ) (s : ℝ) : (scipyGaussian M s).length = M := by simp [scipyGaussian]

theorem gaussian_get (M : ℕ) (s : ℝ) (i : ℕ) (hi : i < M) :
    (scipyGaussian M s)[i]? = some (Real.exp (-((i : ℝ) - ((M : ℝ) - 1) / 2) ^ 2 / (2 * s * s))) := by
  simp [scipyGaussian, hi]

theorem gaussian_bounds {M : ℕ} {s x : ℝ} (hx : x ∈ scipyGaussian M s) : 0 < x ∧ x ≤ 1 := by
  obtain ⟨i, -, rfl⟩ := List.mem_map.mp hx
  refine ⟨Real.exp_pos _, ?_⟩
  apply Real.exp_le_one_iff.mpr
  rw [neg_div]
  have : 0 ≤ ((i : ℝ) - ((M : ℝ) - 1) / 2) ^ 2 / (2 * s * s) := by
    have h : 2 * s * s = 2 * s ^ 2 := by ring
    rw [h]
    positivity
  linarith

theorem exp_neg_nat (n : ℕ) : Real.exp (-(n : ℝ)) ≤ (1 / 2) ^ n := by
  have h : Real.exp (-1) ≤ 1 / 2 := by
    rw [Real.exp_neg, ← one_div]
    exact one_div_le_one_div_of_le (by norm_num) (by linarith [Real.add_one_le_exp (1 : ℝ)])
  have e : Real.exp (-(n : ℝ)) = Real.exp (-1) ^ n := by
    rw [← Real.exp_nat_mul]
    congr 1
    ring
  rw [e]
  exact pow_le_pow_left₀ (Real.exp_pos _).le h n

/-- The gaussian that is added to the second times is tiny. -/
theorem testGauss_small (i : ℕ) : Real.exp (-((i : ℝ) - (((100 : ℕ) : ℝ) - 1) / 2) ^ 2 / (2 * 0.1 * 0.1)) ≤ 1 / 4096 := by
  have h : (1 / 4 : ℝ) ≤ ((i : ℝ) - (((100 : ℕ) : ℝ) - 1) / 2) ^ 2 := by
    rcases Nat.lt_or_ge i 50 with hi | hi
    · have : (i : ℝ) ≤ 49 := by exact_mod_cast Nat.le_of_lt_succ hi
      push_cast
      nlinarith
    · have : (50 : ℝ) ≤ i := by exact_mod_cast hi
      push_cast
      nlinarith
  have h2 : -((i : ℝ) - (((100 : ℕ) : ℝ) - 1) / 2) ^ 2 / (2 * 0.1 * 0.1) ≤ -((12 : ℕ) : ℝ) := by
    rw [div_le_iff₀ (by norm_num)]
    push_cast at h ⊢
    norm_num
    linarith
  refine (Real.exp_le_exp.mpr h2).trans ((exp_neg_nat 12).trans ?_)
  norm_num

theorem testGauss_first : Real.exp (-(((0 : ℕ) : ℝ) - (((100 : ℕ) : ℝ) - 1) / 2) ^ 2 / (2 * 0.1 * 0.1)) ≤ 1e-30 := by
  have h2 : -(((0 : ℕ) : ℝ) - (((100 : ℕ) : ℝ) - 1) / 2) ^ 2 / (2 * 0.1 * 0.1) ≤ -((100 : ℕ) : ℝ) := by
    rw [div_le_iff₀ (by norm_num)]
    push_cast
    norm_num
  refine (Real.exp_le_exp.mpr h2).trans ((exp_neg_nat 100).trans ?_)
  norm_num

/-- The times of the second signal. -/
noncomputable def testTime2 (i : ℕ) : ℝ := (i : ℝ) * (1.01 / 99) + 1.5 + Real.exp (-((i : ℝ) - (((100 : ℕ) : ℝ) - 1) / 2) ^ 2 / (2 * 0.1 * 0.1))

theorem testTimes2_ok : arrayAdd (((List.range 100).map fun (i : ℕ) => (i : ℝ) * (1.01 / 99)).map (· + 1.5))
    (scipyGaussian ((List.range 100).map fun (i : ℕ) => (i : ℝ) * (1.01 / 99)).length 0.1) = .ok ((List.range 100).map testTime2) := by
  unfold arrayAdd
  rw [pyRequire_pos (by rw [gaussian_length, List.length_map]), Py.ok_bind]
  change Except.ok _ = _
  refine congrArg Except.ok (List.ext_getElem (by simp [gaussian_length]) ?_)
  intro i h1 h2
  simp [scipyGaussian, testTime2]

theorem testTime2_bounds (i : ℕ) : (i : ℝ) * (1.01 / 99) + 1.5 < testTime2 i ∧ testTime2 i ≤ (i : ℝ) * (1.01 / 99) + 1.5 + 1 / 4096 := by
  unfold testTime2
  have h1 := Real.exp_pos (-((i : ℝ) - (((100 : ℕ) : ℝ) - 1) / 2) ^ 2 / (2 * 0.1 * 0.1))
  have h2 := testGauss_small i
  constructor <;> linarith

/-- Interpolating between two unit quaternions that are not too close gives unit quaternions. -/
theorem interpolate_unit {ql qr : Quat} {tl tr : ℝ} (h : tl < tr) (h1 : ql.norm = 1) (h2 : qr.norm = 1) (hd : 1 - ql.dot qr ^ 2 > 1e-16)
    {times : List ℝ} (ht : ∀ t ∈ times, tl ≤ t ∧ t ≤ tr) :
    ∃ rs, quaternionsInterpolate ql tl qr tr times = .ok rs ∧ rs.length = times.length ∧ ∀ r ∈ rs, r.dot r = 1 := by
  rw [interpolate_eq ql qr tl tr h]
  induction times with
  | nil => exact ⟨[], rfl, rfl, by simp⟩
  | cons t times ih =>
    obtain ⟨rs, e1, e2, e3⟩ := ih (fun t ht' => ht t (List.mem_cons_of_mem _ ht'))
    have hf := (scaled_mem h).mpr (ht t (by simp))
    obtain ⟨r, g1, -, -, -, g2⟩ := C08_slerp ql qr h1 h2 _ hf.1 hf.2
    refine ⟨r :: rs, by rw [List.map_cons, Py.mapM_cons, g1, e1]; rfl, by simp [e2], ?_⟩
    intro q hq
    rcases List.mem_cons.mp hq with rfl | hq
    · exact Quat.norm_eq_one.mp (g2 hd).1
    · exact e3 q hq

/-- The norms of the angular velocities of unit quaternions at different times. -/
theorem velocityNorms_ok {qs : List Quat} {ts : List ℝ} (hl : qs.length ≤ ts.length) (hu : ∀ q ∈ qs, q.dot q = 1)
    (ht : ∀ (i : ℕ) (s t : ℝ), ts[i]? = some s → ts[i + 1]? = some t → s < t) :
    ∃ vs, (List.range (qs.length - 1)).mapM (velocityNormAt qs ts) = .ok vs ∧ vs.length = qs.length - 1 ∧ ∀ v ∈ vs, 0 ≤ v := by
  have key : ∀ i ∈ List.range (qs.length - 1), ∃ v, velocityNormAt qs ts i = .ok v ∧ 0 ≤ v := by
    intro i hi
    have hi := List.mem_range.mp hi
    unfold velocityNormAt
    rw [pyAt_ok (show i < qs.length by omega), Py.ok_bind, pyAt_ok (show i + 1 < qs.length by omega), Py.ok_bind, pyAt_ok (show i + 1 < ts.length by omega),
      Py.ok_bind, pyAt_ok (show i < ts.length by omega), Py.ok_bind]
    have hlt := ht i ts[i] ts[i + 1] (List.getElem?_eq_getElem _) (List.getElem?_eq_getElem _)
    obtain ⟨v, hv, -, -⟩ := velocity_norm (hu qs[i] (List.getElem_mem _)) (hu qs[i + 1] (List.getElem_mem _)) (sub_pos.mpr hlt).ne'
    rw [hv, Py.ok_bind]
    exact ⟨_, rfl, Real.sqrt_nonneg _⟩
  choose! f hf using key
  refine ⟨(List.range (qs.length - 1)).map f, Py.mapM_ok fun i hi => (hf i hi).1, by simp, ?_⟩
  intro v hv
  obtain ⟨i, hi, rfl⟩ := List.mem_map.mp hv
  exact (hf i hi).2

/-- **C82**, `test_time_alignment`: whatever the random numbers are, the test computes an offset.  It is near 1.5 plus a multiple of the step, at most 98 steps away, and the test does not look at it. -/
theorem C82_time_alignment (rand : List ℝ) (hlen : rand.length = 100) (hr : ∀ r ∈ rand, 0 ≤ r ∧ r < 1) :
    ∃ (c : TimeAlignmentTest) (o : ℝ) (fig : ResultFigure) (m : ℤ), timeAlignmentTest rand = .ok c ∧ testTimeAlignment c = .ok (o, fig) ∧
      c.angular_velocity1_norms.length = 99 ∧ c.angular_velocity2_norms.length = 99 ∧ |m| ≤ 98 ∧ |o - (1.5 + m * (1.01 / 99))| ≤ 1e-30 := by
  have hs2 : Real.sqrt 2 * Real.sqrt 2 = 2 := Real.mul_self_sqrt (by norm_num)
  have hp : (npSort rand).Perm rand := List.perm_insertionSort _ _
  have hl : (npSort rand).length = 100 := by rw [hp.length_eq, hlen]
  have hm : ∀ t ∈ npSort rand, 0 ≤ t ∧ t < 1 := fun t ht => hr t (hp.mem_iff.mp ht)
  have hne : npSort rand ≠ [] := by intro h; rw [h] at hl; simp at hl
  have hlast := hm _ (List.getLast_mem hne)
  have hfirst := hm _ (List.head_mem hne)
  -- the times
  have hT1 : (List.range 100).map (fun (i : ℕ) => (i : ℝ) * (1.01 / 99)) ≠ [] := by simp
  have f1 : ((List.range 100).map (fun (i : ℕ) => (i : ℝ) * (1.01 / 99))).head? = some 0 := by
    rw [List.head?_map]; simp [List.head?_range]
  have l1 : ((List.range 100).map (fun (i : ℕ) => (i : ℝ) * (1.01 / 99))).getLast? = some 1.01 := by
    rw [List.getLast?_map]; simp [List.getLast?_range]; norm_num
  have f2 : ((List.range 100).map testTime2).head? = some (testTime2 0) := by
    rw [List.head?_map]; simp [List.head?_range]
  have l2 : ((List.range 100).map testTime2).getLast? = some (testTime2 99) := by
    rw [List.getLast?_map]; simp [List.getLast?_range]
  have b0 := testTime2_bounds 0
  have b9 := testTime2_bounds 99
  push_cast at b0 b9
  have hT2 : testTime2 0 < testTime2 99 := by linarith
  -- the quaternions
  obtain ⟨q1s, e1, len1, u1⟩ := interpolate_unit (ql := ⟨0, 0, 0, 1⟩) (qr := ⟨Real.sqrt 2 / 2, 0, 0, Real.sqrt 2 / 2⟩) (tl := 0) (tr := 1.01)
    (by norm_num) (Quat.norm_eq_one.mpr (by simp [Quat.dot])) (Quat.norm_eq_one.mpr (by simp only [Quat.dot]; nlinarith))
    (by simp only [Quat.dot]; nlinarith) (times := npSort rand) (fun t ht => ⟨(hm t ht).1, by linarith [(hm t ht).2]⟩)
  obtain ⟨q2s, e2, len2, u2⟩ := interpolate_unit (ql := ⟨Real.sqrt 2 / 2, 0, 0, Real.sqrt 2 / 2⟩) (qr := ⟨1, 0, 0, 0⟩) hT2
    (Quat.norm_eq_one.mpr (by simp only [Quat.dot]; nlinarith)) (Quat.norm_eq_one.mpr (by simp [Quat.dot]))
    (by simp only [Quat.dot]; nlinarith)
    (times := (npSort rand).map fun r => r * ((npSort rand).getLast hne - (npSort rand).head hne) + testTime2 0) (by
      intro t ht
      obtain ⟨r, hr', rfl⟩ := List.mem_map.mp ht
      have h1 := hm r hr'
      have hsp : 0 ≤ (npSort rand).getLast hne - (npSort rand).head hne := by
        have hpw := List.pairwise_insertionSort (· ≤ · : ℝ → ℝ → Prop) rand
        have := hpw.rel_head (List.getLast_mem (l := npSort rand) hne)
        exact sub_nonneg.mpr this
      generalize (npSort rand).getLast hne = a at *
      generalize (npSort rand).head hne = b at *
      constructor
      · nlinarith [mul_nonneg h1.1 hsp]
      · have : r * (a - b) ≤ 1 * 1 := mul_le_mul h1.2.le (by linarith) hsp (by norm_num)
        linarith)
  rw [List.length_map] at len2
  obtain ⟨n1, g1, ln1, -⟩ := velocityNorms_ok (ts := (List.range 100).map (fun (i : ℕ) => (i : ℝ) * (1.01 / 99))) (by simp [len1, hl]) u1 (by
    intro i s t hs ht
    simp only [List.getElem?_map, Option.map_eq_some_iff] at hs ht
    obtain ⟨j, hj, rfl⟩ := hs
    obtain ⟨k, hk, rfl⟩ := ht
    obtain ⟨_, rfl⟩ := List.getElem?_eq_some_iff.mp hj
    obtain ⟨_, rfl⟩ := List.getElem?_eq_some_iff.mp hk
    simp only [List.getElem_range]
    push_cast
    linarith)
  obtain ⟨n2, g2, ln2, -⟩ := velocityNorms_ok (ts := (List.range 100).map testTime2) (by simp [len2, hl]) u2 (by
    intro i s t hs ht
    simp only [List.getElem?_map, Option.map_eq_some_iff] at hs ht
    obtain ⟨j, hj, rfl⟩ := hs
    obtain ⟨k, hk, rfl⟩ := ht
    obtain ⟨_, rfl⟩ := List.getElem?_eq_some_iff.mp hj
    obtain ⟨_, rfl⟩ := List.getElem?_eq_some_iff.mp hk
    simp only [List.getElem_range]
    have b1 := testTime2_bounds i
    have b2 := testTime2_bounds (i + 1)
    push_cast at b2
    linarith)
  rw [len1, hl] at ln1
  rw [len2, hl] at ln2
  have ga : arrayAdd n1 (scipyGaussian n1.length 1) = .ok (List.zipWith (· + ·) n1 (scipyGaussian n1.length 1)) := by
    unfold arrayAdd
    rw [pyRequire_pos (by rw [gaussian_length]), Py.ok_bind]
    rfl
  have hc : timeAlignmentTest rand = .ok ⟨(List.range 100).map (fun (i : ℕ) => (i : ℝ) * (1.01 / 99)), List.zipWith (· + ·) n1 (scipyGaussian n1.length 1),
      (List.range 100).map testTime2, n2⟩ := by
    unfold timeAlignmentTest
    dsimp only
    rw [testTimes_ok, Py.ok_bind, testTimes2_ok, Py.ok_bind]
    rw [pyGet_last (List.getLast?_eq_some_getLast hne), Py.ok_bind, pyGet_first (List.head?_eq_some_head hne), Py.ok_bind, pyGet_first f2, Py.ok_bind,
      pyGet_first f1, Py.ok_bind, pyGet_last l1, Py.ok_bind, e1, Py.ok_bind, pyGet_last l2, Py.ok_bind, e2, Py.ok_bind, g1, Py.ok_bind, g2, Py.ok_bind,
      ga, Py.ok_bind]
    rfl
  have lA : (List.zipWith (· + ·) n1 (scipyGaussian n1.length 1)).length = 99 := by rw [List.length_zipWith, gaussian_length, ln1]; rfl
  have hdl : (List.range 100).dropLast = List.range 99 := by rw [List.range_succ, List.dropLast_concat]
  obtain ⟨m, o, t₀, t₁, ho, hfig, -, -, hm', -⟩ := offsetWithFigure_ok (times_A := ((List.range 100).map (fun (i : ℕ) => (i : ℝ) * (1.01 / 99))).dropLast)
    (A := List.zipWith (· + ·) n1 (scipyGaussian n1.length 1)) (times_B := ((List.range 100).map testTime2).dropLast) (B := n2) (ta := 0) (tb := testTime2 0)
    (last := 98 * (1.01 / 99)) (by rw [lA]; simp) (by rw [ln2]; simp) (by rw [lA]; norm_num)
    (by rw [← List.map_dropLast, hdl, List.head?_map]; simp [List.head?_range])
    (by rw [← List.map_dropLast, hdl, List.getLast?_map]; simp [List.getLast?_range])
    (by rw [← List.map_dropLast, hdl, List.head?_map]; simp [List.head?_range])
  rw [lA, ln2] at hm'
  refine ⟨_, o, _, m, hc, hfig, lA, ln2, by rw [abs_le]; constructor <;> push_cast at hm' <;> omega, ?_⟩
  rw [ho, lA]
  have h0 := testGauss_first
  have hpos := Real.exp_pos (-(((0 : ℕ) : ℝ) - (((100 : ℕ) : ℝ) - 1) / 2) ^ 2 / (2 * 0.1 * 0.1))
  have e0 : (98 * (1.01 / 99) - 0) / (((99 : ℕ) : ℝ) - 1) * (m : ℝ) + testTime2 0 - 0 - (1.5 + m * (1.01 / 99)) =
      Real.exp (-(((0 : ℕ) : ℝ) - (((100 : ℕ) : ℝ) - 1) / 2) ^ 2 / (2 * 0.1 * 0.1)) := by
    unfold testTime2
    push_cast
    ring
  rw [e0, abs_of_pos hpos]
  exact h0

theorem testXs_ok : npLinspace 0 (2 * Real.pi) 1000 = .ok ((List.range 1000).map fun (i : ℕ) => (i : ℝ) * (2 * Real.pi / 999)) := by
  unfold npLinspace
  have e : pyInt 1000 = 1000 := by
    unfold pyInt
    rw [if_pos (by norm_num)]
    exact_mod_cast Int.floor_natCast (R := ℝ) 1000
  rw [e, if_neg (by norm_num), if_neg (by norm_num)]
  refine congrArg Except.ok (List.map_congr_left ?_)
  intro i _
  have : Int.toNat 1000 = 1000 := rfl
  rw [this]
  norm_num

/-- Blanking the positions `S` of a list without `None` leaves as many `None` as `S` has elements. -/
theorem count_blanked {α : Type} [DecidableEq α] (f : ℕ → α) (n : ℕ) (S : Finset ℕ) (hS : ∀ i ∈ S, i < n) :
    (Spec.blanked S ((List.range n).map fun i => some (f i))).count none = S.card := by
  have e : Spec.blanked S ((List.range n).map fun i => some (f i)) = (List.range n).map fun i => if i ∈ S then none else some (f i) := by
    unfold Spec.blanked
    refine List.ext_getElem (by simp) ?_
    intro i h1 h2
    simp
  rw [e, List.count_eq_countP, List.countP_map]
  have e2 : (((fun x => x == none) ∘ fun i => if i ∈ S then none else some (f i)) : ℕ → Bool) = fun i => decide (i ∈ S) := by
    funext i
    by_cases h : i ∈ S <;> simp [h]
  rw [e2, List.countP_eq_length_filter]
  have e3 : ((List.range n).filter fun i => decide (i ∈ S)).toFinset = S := by
    ext i
    simp only [List.mem_toFinset, List.mem_filter, List.mem_range, decide_eq_true_eq]
    exact ⟨fun h => h.2, fun h => ⟨hS i h, h⟩⟩
  rw [← e3, List.toFinset_card_of_nodup (List.nodup_range.filter _), e3]

/-- **C82**, `test_introduce_data_drops`: no draw raises an error, and whenever the call returns, the list still has its 1000 entries, 200 of which are `None`.  The assertion that is commented out
compares the length with 800. -/
theorem C82_data_drops (draws : ℕ → ℕ × ℕ) (rounds : ℕ) :
    ∃ r, testIntroduceDataDrops draws rounds = .ok r ∧ ∀ data', r = some data' → data'.length = 1000 ∧ data'.count none = 200 := by
  classical
  unfold testIntroduceDataDrops
  rw [testXs_ok, Py.ok_bind, List.map_map]
  have hl : ((List.range 1000).map ((fun x => some (Real.sin x)) ∘ fun (i : ℕ) => (i : ℝ) * (2 * Real.pi / 999))).length = 1000 := by simp
  obtain ⟨r, h⟩ := C54_no_error_partial ((List.range 1000).map ((fun x => some (Real.sin x)) ∘ fun (i : ℕ) => (i : ℝ) * (2 * Real.pi / 999))) 5 20 true draws rounds 50 200
    (by norm_num) (by rw [hl]; norm_num) (by rw [hl]; norm_num)
  refine ⟨r, h, ?_⟩
  rintro data' rfl
  obtain ⟨S, h1, h2, h3⟩ := C54_exact_partial (by norm_num) h
  rw [hl] at h1
  have hcard : S.card = 200 := by
    have : (S.card : ℝ) = 200 := by rw [h1]; norm_num
    exact_mod_cast this
  rw [if_pos rfl] at h3
  refine ⟨by rw [h3]; unfold Spec.blanked; rw [List.length_mapIdx, hl], ?_⟩
  rw [← hcard, h3]
  have := count_blanked (fun (i : ℕ) => Real.sin ((i : ℝ) * (2 * Real.pi / 999))) 1000 S (fun i hi => by have := h2 i hi; rw [hl] at this; omega)
  convert this using 3
  rfl

/-- It can return: `C54_can_finish_partial` gives draws with which it does, so the assertion would fail. -/
theorem C82_data_drops_refuted : ∃ (draws : ℕ → ℕ × ℕ) (rounds : ℕ) (data' : List (Option ℝ)), testIntroduceDataDrops draws rounds = .ok (some data') ∧
    ¬ |(data'.length : ℝ) - (1000 - 20 / 100 * 1000)| < 1e-8 := by
  obtain ⟨draws, rounds, data', h⟩ := C54_can_finish_partial ((List.range 1000).map ((fun x => some (Real.sin x)) ∘ fun (i : ℕ) => (i : ℝ) * (2 * Real.pi / 999))) 5 20 true 50 200
    (by norm_num) (by rw [List.length_map, List.length_range]; norm_num) (by rw [List.length_map, List.length_range]; norm_num) (by norm_num) (by simp)
  have h' : testIntroduceDataDrops draws rounds = .ok (some data') := by
    unfold testIntroduceDataDrops
    rw [testXs_ok, Py.ok_bind, List.map_map]
    exact h
  refine ⟨draws, rounds, data', h', ?_⟩
  obtain ⟨r, hr, hd⟩ := C82_data_drops draws rounds
  rw [h'] at hr
  rw [(hd data' (Except.ok.inj hr).symm).1]
  norm_num [abs_of_pos]

/-- The random numbers 0, 0.01, …, 0.99 satisfy the hypotheses. -/
example : ∃ (c : TimeAlignmentTest) (o : ℝ) (fig : ResultFigure), timeAlignmentTest ((List.range 100).map fun (i : ℕ) => (i : ℝ) / 100) = .ok c ∧ testTimeAlignment c = .ok (o, fig) ∧
    0.5 ≤ o ∧ o ≤ 2.5 := by
  obtain ⟨c, o, fig, m, h1, h2, -, -, h5, h6⟩ := C82_time_alignment ((List.range 100).map fun (i : ℕ) => (i : ℝ) / 100) (by simp) (by
    intro r hr
    obtain ⟨i, hi, rfl⟩ := List.mem_map.mp hr
    have hi : (i : ℝ) < 100 := by exact_mod_cast List.mem_range.mp hi
    exact ⟨by positivity, by linarith⟩)
  refine ⟨c, o, fig, h1, h2, ?_⟩
  have h5' : (-98 : ℝ) ≤ m ∧ (m : ℝ) ≤ 98 := by
    rw [abs_le] at h5
    exact ⟨by exact_mod_cast h5.1, by exact_mod_cast h5.2⟩
  obtain ⟨h6, h7⟩ := abs_le.mp h6
  obtain ⟨h8, h9⟩ := h5'
  constructor <;> norm_num at h6 h7 ⊢ <;> linarith

end HandEye
