import Verif.Model.Figures
import Verif.Spec.Figures
import Verif.Props.Mounting

/-!
# C83: the figures of the time alignment show what their titles say

For: `plot_results` in `/repo/hand_eye_calibration/python/hand_eye_calibration/time_alignment_plotting_tools.py`:15-74, and
what `time_alignment.py` passes to it.
-/

namespace HandEye

theorem npAmin_eq_ok {l : List ℝ} {m : ℝ} : npAmin l = .ok m ↔ Spec.IsLeast m l := by
  unfold npAmin Spec.IsLeast
  rw [← List.min?_eq_some_iff]
  cases l.min? with
  | none => simp
  | some a => simp

theorem npAmin_ok {l : List ℝ} (h : l ≠ []) : ∃ m, npAmin l = .ok m := by
  unfold npAmin
  cases hm : l.min? with
  | none => exact absurd (List.min?_eq_none_iff.mp hm) h
  | some a => exact ⟨a, rfl⟩

theorem plotXY_ok {xs ys : List ℝ} (h : xs.length = ys.length) : plotXY xs ys = .ok ⟨xs, ys⟩ := by
  unfold plotXY
  rw [pyRequire_pos h, Py.ok_bind]
  rfl

theorem plotXY_eq_ok {xs ys : List ℝ} {c : Curve} (h : plotXY xs ys = .ok c) : xs.length = ys.length ∧ c = ⟨xs, ys⟩ := by
  by_cases hl : xs.length = ys.length
  · rw [plotXY_ok hl] at h
    exact ⟨hl, (Except.ok.inj h).symm⟩
  · unfold plotXY pyRequire at h
    rw [if_neg hl] at h
    cases h

theorem npArgmax_spec {l : List ℝ} (h : l ≠ []) : ∃ (k : ℕ) (hk : k < l.length), npArgmax l = .ok k ∧
    (∀ x ∈ l, x ≤ l[k]) ∧ ∀ (i : ℕ) (hi : i < k), l[i] < l[k] := by
  unfold npArgmax
  cases hm : l.max? with
  | none => exact absurd (List.max?_eq_none_iff.mp hm) h
  | some m =>
    obtain ⟨h1, h2⟩ := List.max?_eq_some_iff.mp hm
    have hk : l.findIdx (fun x => decide (x = m)) < l.length :=
      List.findIdx_lt_length_of_exists ⟨m, h1, by simp⟩
    have hv : l[l.findIdx (fun x => decide (x = m))] = m := by
      have := List.findIdx_getElem (w := hk)
      simpa using this
    refine ⟨_, hk, rfl, ?_, ?_⟩
    · rw [hv]; exact h2
    · intro i hi
      rw [hv]
      refine lt_of_le_of_ne (h2 _ (List.getElem_mem _)) ?_
      have := List.not_of_lt_findIdx hi
      simpa using this

/-- The elements of the correlation are the values at the lags from `1 - len(A)` on. -/
theorem correlateFull_get (A B : List ℝ) (k : ℕ) (hk : k < (correlateFull B A).length) :
    (correlateFull B A)[k] = Spec.correlationAt A B ((k : ℤ) - A.length + 1) := by
  simp only [correlateFull, List.getElem_map, List.getElem_range]
  rw [corr_eq_finsum B (fun i => zeroExt A (i - k + A.length - 1))]
  refine finsum_congr fun i => ?_
  rw [← sample_eq]
  congr 2
  ring

theorem correlateFull_length (A B : List ℝ) : (correlateFull B A).length = B.length + A.length - 1 := by
  simp [correlateFull]

theorem lags_length (A B : List ℝ) (h : A ≠ [] ∨ B ≠ []) :
    (npArangeInt (-(A.length : ℤ) + 1) B.length).length = B.length + A.length - 1 := by
  have : 0 < A.length ∨ 0 < B.length := h.imp List.length_pos_of_ne_nil List.length_pos_of_ne_nil
  simp only [npArangeInt, List.length_map, List.length_range]
  omega

theorem lags_get (A B : List ℝ) (k : ℕ) (hk : k < (npArangeInt (-(A.length : ℤ) + 1) B.length).length) :
    (npArangeInt (-(A.length : ℤ) + 1) B.length)[k] = (((k : ℤ) - A.length + 1 : ℤ) : ℝ) := by
  simp only [npArangeInt, List.getElem_map, List.getElem_range]
  congr 1
  ring

theorem mem_lags (A B : List ℝ) (hA : A ≠ []) (m : ℤ) :
    (m : ℝ) ∈ npArangeInt (-(A.length : ℤ) + 1) B.length ↔ -(A.length : ℤ) < m ∧ m < B.length := by
  have := List.length_pos_of_ne_nil hA
  constructor
  · intro h
    obtain ⟨k, hk, e⟩ := List.getElem_of_mem h
    rw [lags_get] at e
    have e := Int.cast_injective e
    rw [lags_length A B (.inl hA)] at hk
    omega
  · rintro ⟨h1, h2⟩
    have hk : (m + A.length - 1).toNat < (npArangeInt (-(A.length : ℤ) + 1) B.length).length := by
      rw [lags_length A B (.inl hA)]; omega
    have := lags_get A B _ hk
    have e : (((m + A.length - 1).toNat : ℤ) - A.length + 1) = m := by omega
    rw [e] at this
    rw [← this]
    exact List.getElem_mem _

/-- The overlap of the signals is empty at a lag that is not shown. -/
theorem correlationAt_zero (A B : List ℝ) (m : ℤ) (h : ¬ (-(A.length : ℤ) < m ∧ m < B.length)) :
    Spec.correlationAt A B m = 0 := by
  unfold Spec.correlationAt
  rw [← finsum_zero]
  refine finsum_congr fun i => ?_
  by_contra hne
  have h1 := sample_ne_zero (left_ne_zero_of_mul hne)
  have h2 := sample_ne_zero (right_ne_zero_of_mul hne)
  omega

/-- What is drawn: both signals over their times from the first of all, before and after adding the offset to those of A. -/
def Spec.shownResults (times_A A times_B B : List ℝ) (corr : Curve) (o t₀ t₁ : ℝ) : ResultFigure :=
  ⟨⟨times_A.map fun t => t - t₀, A⟩, ⟨times_B.map fun t => t - t₀, B⟩, corr, ⟨times_A.map fun t => t + o - t₁, A⟩,
    ⟨times_B.map fun t => t - t₁, B⟩⟩

theorem plotResults_ok {times_A A times_B B C : List ℝ} (o : ℝ) (hA : times_A.length = A.length)
    (hB : times_B.length = B.length) (hC : (npArangeInt (-(A.length : ℤ) + 1) B.length).length = C.length) (hTA : times_A ≠ [])
    (hTB : times_B ≠ []) : ∃ t₀ t₁, plotResults times_A times_B A B C o =
        .ok (Spec.shownResults times_A A times_B B ⟨npArangeInt (-(A.length : ℤ) + 1) B.length, C⟩ o t₀ t₁) ∧
      Spec.IsLeast t₀ (times_A ++ times_B) ∧ Spec.IsLeast t₁ (times_A.map (· + o) ++ times_B) := by
  obtain ⟨m₁, hm₁⟩ := npAmin_ok hTA
  obtain ⟨m₂, hm₂⟩ := npAmin_ok hTB
  obtain ⟨m₃, hm₃⟩ := npAmin_ok (l := times_A.map (· + o)) (by simpa using hTA)
  have key : ∀ {l r : List ℝ} {a b : ℝ}, npAmin l = .ok a → npAmin r = .ok b → Spec.IsLeast (min a b) (l ++ r) := by
    intro l r a b h1 h2
    obtain ⟨h1, h1'⟩ := npAmin_eq_ok.mp h1
    obtain ⟨h2, h2'⟩ := npAmin_eq_ok.mp h2
    refine ⟨?_, fun x hx => ?_⟩
    · rcases min_choice a b with h | h <;> rw [h, List.mem_append]
      · exact .inl h1
      · exact .inr h2
    · rcases List.mem_append.mp hx with h | h
      · exact (min_le_left _ _).trans (h1' x h)
      · exact (min_le_right _ _).trans (h2' x h)
  refine ⟨min m₁ m₂, min m₃ m₂, ?_, key hm₁ hm₂, key hm₃ hm₂⟩
  unfold plotResults
  rw [hm₁, Py.ok_bind, hm₂, Py.ok_bind, plotXY_ok (by simpa using hA), Py.ok_bind, plotXY_ok (by simpa using hB),
    Py.ok_bind, plotXY_ok hC, Py.ok_bind,
    hm₃, Py.ok_bind, plotXY_ok (by simpa using hA), Py.ok_bind, plotXY_ok (by simpa using hB), Py.ok_bind, Py.pure_eq,
    List.map_map]
  rfl

/-- The offset and the figure of two signals. -/
theorem offsetWithFigure_ok {times_A A times_B B : List ℝ} {ta tb last : ℝ} (hA : times_A.length = A.length)
    (hB : times_B.length = B.length) (h2 : 2 ≤ A.length) (ha : times_A.head? = some ta)
    (hl : times_A.getLast? = some last) (hb : times_B.head? = some tb) :
    ∃ (m : ℤ) (o t₀ t₁ : ℝ), o = (last - ta) / (A.length - 1) * m + tb - ta ∧
      offsetWithFigure times_A A times_B B = .ok (o, Spec.shownResults times_A A times_B B
        ⟨npArangeInt (-(A.length : ℤ) + 1) B.length, correlateFull B A⟩ o t₀ t₁) ∧
      Spec.IsLeast t₀ (times_A ++ times_B) ∧ Spec.IsLeast t₁ (times_A.map (· + o) ++ times_B) ∧
      (-(A.length : ℤ) < m ∧ m < B.length) ∧
      ∀ m' : ℤ, -(A.length : ℤ) < m' ∧ m' < B.length → Spec.correlationAt A B m' ≤ Spec.correlationAt A B m ∧
          (m' < m → Spec.correlationAt A B m' < Spec.correlationAt A B m) := by
  have hAne : A ≠ [] := by rintro rfl; simp at h2
  have hTA : times_A ≠ [] := by rintro rfl; simp at ha
  have hTB : times_B ≠ [] := by rintro rfl; simp at hb
  have hB0 : 0 < B.length := by rw [← hB]; exact List.length_pos_of_ne_nil hTB
  have hclen := correlateFull_length A B
  obtain ⟨k, hk, hk1, hk2, hk3⟩ := npArgmax_spec (l := correlateFull B A)
    (by intro e; rw [e] at hclen; simp at hclen; omega)
  have e1 : pyAt times_B 0 = .ok tb := by rw [pyAt_eq_ok, ← List.head?_eq_getElem?, hb]
  have e2 : pyAt times_A 0 = .ok ta := by rw [pyAt_eq_ok, ← List.head?_eq_getElem?, ha]
  have ho : calculateTimeOffsetFromSignals times_A A times_B B =
      .ok ((last - ta) / (A.length - 1) * ((k : ℤ) - A.length + 1 : ℤ) + tb - ta) := by
    unfold calculateTimeOffsetFromSignals
    rw [pyRequire_pos (by omega), Py.ok_bind, npMean_npDiff (by omega) ha hl, Py.ok_bind, hk1, Py.ok_bind, e1, Py.ok_bind,
      e2, Py.ok_bind, hA]
    rfl
  obtain ⟨t₀, t₁, hp, h0, h1⟩ := plotResults_ok (C := correlateFull B A)
    ((last - ta) / (A.length - 1) * ((k : ℤ) - A.length + 1 : ℤ) + tb - ta) hA hB
    (by rw [lags_length A B (.inl hAne), hclen]) hTA hTB
  refine ⟨(k : ℤ) - A.length + 1, _, t₀, t₁, rfl, ?_, h0, h1, by omega, ?_⟩
  · unfold offsetWithFigure
    rw [ho, Py.ok_bind, hp, Py.ok_bind, Py.pure_eq]
  · intro m' hm'
    have hi : (m' + A.length - 1).toNat < (correlateFull B A).length := by omega
    have ei : (((m' + A.length - 1).toNat : ℤ) - A.length + 1) = m' := by omega
    have v := correlateFull_get A B _ hi
    rw [ei] at v
    rw [← v, ← correlateFull_get A B k hk]
    exact ⟨hk2 _ (List.getElem_mem _), fun hlt => hk3 _ (by omega)⟩

/-- C83, middle panel: the points shown are the correlations at the lags where the signals overlap, each over its lag, and
the offset belongs to the highest of them, the leftmost one if there are several. -/
theorem C83_correlation (times_A A times_B B : List ℝ) (ta tb last : ℝ) (hA : times_A.length = A.length)
    (hB : times_B.length = B.length) (h2 : 2 ≤ A.length) (ha : times_A.head? = some ta)
    (hl : times_A.getLast? = some last) (hb : times_B.head? = some tb) :
    ∃ o fig, offsetWithFigure times_A A times_B B = .ok (o, fig) ∧
      fig.correlation.xs.length = A.length + B.length - 1 ∧
      (∀ m : ℤ, (m : ℝ) ∈ fig.correlation.xs ↔ -(A.length : ℤ) < m ∧ m < B.length) ∧
      (∀ m : ℤ, Spec.correlationAt A B m ≠ 0 → (m : ℝ) ∈ fig.correlation.xs) ∧
      List.Forall₂ (fun x y => ∃ m : ℤ, x = (m : ℝ) ∧ y = Spec.correlationAt A B m) fig.correlation.xs
        fig.correlation.ys ∧
      ∃ m : ℤ, (m : ℝ) ∈ fig.correlation.xs ∧ o = (last - ta) / (A.length - 1) * m + tb - ta ∧
        ∀ m' : ℤ, (m' : ℝ) ∈ fig.correlation.xs →
          Spec.correlationAt A B m' ≤ Spec.correlationAt A B m ∧
          (m' < m → Spec.correlationAt A B m' < Spec.correlationAt A B m) := by
  have hAne : A ≠ [] := by rintro rfl; simp at h2
  obtain ⟨m, o, t₀, t₁, e, h, -, -, hm, hmax⟩ := offsetWithFigure_ok hA hB h2 ha hl hb
  have hll := lags_length A B (.inl hAne)
  refine ⟨o, _, h, ?_, mem_lags A B hAne, ?_, ?_, m, (mem_lags A B hAne m).mpr hm, e,
    fun m' hm' => hmax m' ((mem_lags A B hAne m').mp hm')⟩
  · change (npArangeInt _ _).length = _
    rw [hll, add_comm]
  · intro m hm
    refine (mem_lags A B hAne m).mpr ?_
    by_contra hc
    exact hm (correlationAt_zero A B m hc)
  · change List.Forall₂ _ (npArangeInt _ _) (correlateFull B A)
    rw [List.forall₂_iff_get]
    refine ⟨by rw [hll, correlateFull_length], fun i h1 h2 => ?_⟩
    simp only [List.get_eq_getElem]
    exact ⟨(i : ℤ) - A.length + 1, lags_get A B i h1, correlateFull_get A B i h2⟩

/-- A bump of A is seen one sample later by B: five lags are shown, lag 1 among them. -/
example : ∃ o fig, offsetWithFigure [0, 1, 2] [0, 1, 0] [0, 1, 2] [0, 0, 1] = .ok (o, fig) ∧
    (1 : ℝ) ∈ fig.correlation.xs ∧ fig.correlation.xs.length = 5 := by
  obtain ⟨o, fig, h1, h5, h2, -⟩ := C83_correlation [0, 1, 2] [0, 1, 0] [0, 1, 2] [0, 0, 1] 0 0 2 rfl rfl (by simp) rfl
    rfl rfl
  refine ⟨o, fig, h1, ?_, by rw [h5]; rfl⟩
  have := (h2 1).mpr (by simp)
  exact_mod_cast this

/-- C83, outer panels: both signals are drawn over their times, those of A with the offset added in the last panel, counted
from the earliest time shown; nothing is left of zero, and something is at zero. -/
theorem C83_panels (times_A A times_B B : List ℝ) (ta tb last : ℝ) (hA : times_A.length = A.length)
    (hB : times_B.length = B.length) (h2 : 2 ≤ A.length) (ha : times_A.head? = some ta)
    (hl : times_A.getLast? = some last) (hb : times_B.head? = some tb) :
    ∃ o fig t₀ t₁, offsetWithFigure times_A A times_B B = .ok (o, fig) ∧
      fig.before_A.xs = times_A.map (fun t => t - t₀) ∧ fig.before_B.xs = times_B.map (fun t => t - t₀) ∧
      fig.after_A.xs = times_A.map (fun t => t + o - t₁) ∧ fig.after_B.xs = times_B.map (fun t => t - t₁) ∧
      fig.before_A.ys = A ∧ fig.before_B.ys = B ∧ fig.after_A.ys = A ∧ fig.after_B.ys = B ∧
      Spec.IsLeast 0 (fig.before_A.xs ++ fig.before_B.xs) ∧ Spec.IsLeast 0 (fig.after_A.xs ++ fig.after_B.xs) := by
  obtain ⟨m, o, t₀, t₁, e, h, h0, h1, -⟩ := offsetWithFigure_ok hA hB h2 ha hl hb
  refine ⟨o, _, t₀, t₁, h, rfl, rfl, rfl, rfl, rfl, rfl, rfl, rfl, ?_, ?_⟩
  · change Spec.IsLeast 0 (times_A.map (fun t => t - t₀) ++ times_B.map (fun t => t - t₀))
    rw [← List.map_append]
    refine ⟨List.mem_map.mpr ⟨t₀, h0.1, sub_self _⟩, fun x hx => ?_⟩
    obtain ⟨t, ht, rfl⟩ := List.mem_map.mp hx
    exact sub_nonneg.mpr (h0.2 t ht)
  · change Spec.IsLeast 0 (times_A.map (fun t => t + o - t₁) ++ times_B.map (fun t => t - t₁))
    have : times_A.map (fun t => t + o - t₁) = (times_A.map (· + o)).map (fun t => t - t₁) := by
      rw [List.map_map]; rfl
    rw [this, ← List.map_append]
    refine ⟨List.mem_map.mpr ⟨t₁, h1.1, sub_self _⟩, fun x hx => ?_⟩
    obtain ⟨t, ht, rfl⟩ := List.mem_map.mp hx
    exact sub_nonneg.mpr (h1.2 t ht)

/-- Three samples each: no point of the first panel is left of zero. -/
example : ∃ o fig, offsetWithFigure [4, 5, 6] [0, 1, 0] [7, 8, 9] [0, 0, 1] = .ok (o, fig) ∧
    Spec.IsLeast 0 (fig.before_A.xs ++ fig.before_B.xs) := by
  obtain ⟨o, fig, _, _, h, _, _, _, _, _, _, _, _, h1, _⟩ := C83_panels [4, 5, 6] [0, 1, 0] [7, 8, 9] [0, 0, 1] 4 7 6 rfl rfl
    (by simp) rfl rfl rfl
  exact ⟨o, fig, h, h1⟩

/-- C83, last panel: for regular samples of A and B, the samples that are paired at the lag `m` of the highest correlation
are drawn on top of each other if the periods are equal; else they drift apart, in proportion to the difference. -/
theorem C83_overlay (times_A A times_B B : List ℝ) (ta tb d e : ℝ) (hA : times_A.length = A.length)
    (hB : times_B.length = B.length) (h2 : 2 ≤ A.length) (hB0 : B ≠ []) (hrA : Spec.RegularTimes times_A ta d)
    (hrB : Spec.RegularTimes times_B tb e) :
    ∃ o fig, ∃ m : ℤ, offsetWithFigure times_A A times_B B = .ok (o, fig) ∧
      (∀ m' : ℤ, -(A.length : ℤ) < m' ∧ m' < B.length → Spec.correlationAt A B m' ≤ Spec.correlationAt A B m) ∧
      ∀ (i j : ℕ) (x y : ℝ), (j : ℤ) = i + m → fig.after_A.xs[i]? = some x → fig.after_B.xs[j]? = some y →
        x - y = (d - e) * j := by
  have hlA : 2 ≤ times_A.length := by omega
  have hTB : 0 < times_B.length := by rw [hB]; exact List.length_pos_of_ne_nil hB0
  have g0 := hrA 0 times_A[0] (List.getElem?_eq_getElem (by omega))
  have gl := hrA (times_A.length - 1) times_A[times_A.length - 1] (List.getElem?_eq_getElem (by omega))
  have gb := hrB 0 times_B[0] (List.getElem?_eq_getElem hTB)
  have ha : times_A.head? = some ta := by
    rw [List.head?_eq_getElem?, List.getElem?_eq_getElem (by omega), g0]; simp
  have hb : times_B.head? = some tb := by
    rw [List.head?_eq_getElem?, List.getElem?_eq_getElem hTB, gb]; simp
  have hl : times_A.getLast? = some (ta + (times_A.length - 1 : ℕ) * d) := by
    rw [List.getLast?_eq_getElem?, List.getElem?_eq_getElem (by omega), gl]
  obtain ⟨m, o, t₀, t₁, eo, h, -, -, -, hmax⟩ := offsetWithFigure_ok hA hB h2 ha hl hb
  refine ⟨o, _, m, h, fun m' hm' => (hmax m' hm').1, fun i j x y hij hx hy => ?_⟩
  change (times_A.map fun t => t + o - t₁)[i]? = some x at hx
  change (times_B.map fun t => t - t₁)[j]? = some y at hy
  rw [List.getElem?_map, Option.map_eq_some_iff] at hx hy
  obtain ⟨s, hs, rfl⟩ := hx
  obtain ⟨t, ht, rfl⟩ := hy
  have es := hrA i s hs
  have et := hrB j t ht
  have hn : ((times_A.length - 1 : ℕ) : ℝ) = A.length - 1 := by
    rw [Nat.cast_sub (by omega), hA]; simp
  have hn0 : ((A.length : ℝ) - 1) ≠ 0 := by
    have : (2 : ℝ) ≤ A.length := by exact_mod_cast h2
    linarith
  have ed : (ta + ((times_A.length - 1 : ℕ) : ℝ) * d - ta) / (A.length - 1) = d := by
    rw [hn]; field_simp; ring
  rw [ed] at eo
  have hj : (j : ℝ) = i + m := by exact_mod_cast congrArg (fun z : ℤ => (z : ℝ)) hij
  rw [eo, es, et, hj]
  ring

/-- Both sampled every half second: paired samples are drawn at the same time. -/
example : ∃ o fig, ∃ m : ℤ, offsetWithFigure [0, 1/2, 1] [0, 1, 0] [7, 7.5, 8] [0, 0, 1] = .ok (o, fig) ∧
    ∀ (i j : ℕ) (x y : ℝ), (j : ℤ) = i + m → fig.after_A.xs[i]? = some x → fig.after_B.xs[j]? = some y → x = y := by
  obtain ⟨o, fig, m, h, -, h1⟩ := C83_overlay [0, 1/2, 1] [0, 1, 0] [7, 7.5, 8] [0, 0, 1] 0 7 (1/2) (1/2) rfl rfl (by simp)
    (by simp) (by
      intro i t h
      match i, h with
      | 0, h => simp at h; rw [← h]; norm_num
      | 1, h => simp at h; rw [← h]; norm_num
      | 2, h => simp at h; rw [← h]; norm_num) (by
      intro i t h
      match i, h with
      | 0, h => simp at h; rw [← h]; norm_num
      | 1, h => simp at h; rw [← h]; norm_num
      | 2, h => simp at h; rw [← h]; norm_num)
  refine ⟨o, fig, m, h, fun i j x y hij hx hy => ?_⟩
  have := h1 i j x y hij hx hy
  linarith

end HandEye
