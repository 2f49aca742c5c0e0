import Verif.Props.RoundedFilter2
import Verif.Props.RoundedEval3

/-! # Property C114: without rounding, the floating-point model is the exact one -/

namespace HandEye

open Spec

theorem exact_add (p q : Quat) : exactArith.add p q = p + q := rfl

theorem exact_sub (p q : Quat) : exactArith.sub p q = p - q := rfl

theorem exact_smul (s : ℝ) (q : Quat) : exactArith.smul s q = s • q := rfl

theorem exact_slerp (p q : Quat) (f : ℝ) : exactArith.slerp Real.cos Real.sin p q f = quaternionSlerp p q f := by
  unfold Arith.slerp quaternionSlerp
  rw [exact_norm, exact_norm]
  by_cases h0 : f = 0
  · simp only [h0, if_true]
  by_cases h1 : f = 1
  · simp only [h1, if_true]
  have hd : exactArith.dot p q = p.dot q := rfl
  have hacos : ∀ x, npArccos (npClip x (-1) 1) = .ok (Real.arccos (npClip x (-1) 1)) := by
    intro x
    refine if_pos ⟨?_, min_le_left _ _⟩
    exact le_min (by norm_num) (le_max_right _ _)
  simp only [h0, h1, if_false]
  unfold Arith.slerpFrom
  rw [hd]
  by_cases hneg : p.dot q < 0
  · simp only [if_pos hneg, hacos, Py.ok_bind]
    rfl
  · simp only [if_neg hneg, hacos, Py.ok_bind]
    rfl

theorem exact_scaledTime (a b t : ℝ) : exactArith.scaledTime a b t = npDiv (t - a) (b - a) := rfl

theorem exact_interpolate (p : Quat) (a : ℝ) (q : Quat) (b : ℝ) (times : List ℝ) :
    exactArith.interpolate Real.cos Real.sin p a q b times = quaternionsInterpolate p a q b times := by
  unfold Arith.interpolate quaternionsInterpolate
  simp only [exact_slerp]
  rfl

theorem exact_resampleOne (times : List ℝ) (qs : List Quat) (s : ℝ) :
    exactArith.resampleOne Real.cos Real.sin times qs s = HandEye.resampleOne times qs s := by
  unfold Arith.resampleOne HandEye.resampleOne
  simp only [exact_interpolate]

theorem exact_resample (times : List ℝ) (qs : List Quat) (samples : List ℝ) :
    exactArith.resample Real.cos Real.sin times qs samples = resampleQuaternionsFromSamples times qs samples := by
  unfold Arith.resample resampleQuaternionsFromSamples
  have : exactArith.resampleOne Real.cos Real.sin times qs = HandEye.resampleOne times qs := funext fun s => exact_resampleOne times qs s
  rw [this]

theorem exact_meanStep (times : List ℝ) : exactArith.meanStep List.sum times = npMean (npDiff times) := by
  unfold Arith.meanStep npMean npDiv
  have hl : (npDiff times).length = times.length - 1 := by
    unfold npDiff
    simp
  rw [hl]
  by_cases h : times.length < 2
  · rw [if_pos h, if_pos (by rw [show times.length - 1 = 0 by omega]; simp)]
  · rw [if_neg h, if_neg]
    · have : (npDiff times).map exactArith.fl = npDiff times := List.map_id _
      rw [this]
      rfl
    · intro e
      have := Nat.cast_eq_zero.mp e
      omega

theorem exact_angleAxis (q : Quat) : exactArith.angleAxis q = q.angleAxis := by
  unfold Arith.angleAxis Quat.angleAxis
  by_cases h : npIsclose q.w 1 1e-12
  · rw [if_pos h, if_pos h]
  rw [if_neg h, if_neg h]
  by_cases h1 : -1 ≤ q.w ∧ q.w ≤ 1
  · rw [if_neg (not_not.mpr h1)]
    have h2 : 0 ≤ 1 - q.w * q.w := by nlinarith [h1.1, h1.2]
    rw [npArccos, if_pos h1, Py.ok_bind, npSqrt, if_neg (not_lt.mpr h2), Py.ok_bind]
    have hfl : ∀ x, exactArith.fl x = x := fun _ => rfl
    simp only [hfl]
    by_cases h3 : Real.sqrt (1 - q.w * q.w) = 0
    · rw [if_pos (Or.inr h3), npDiv, if_pos h3, Py.error_bind]
    · rw [if_neg (by rintro (h | h); exacts [absurd h2 (not_le.mpr h), h3 h])]
      simp only [npDiv, if_neg h3, Py.ok_bind, Py.pure_eq]
      rfl
  · rw [if_pos h1, npArccos, if_neg h1, Py.error_bind]

theorem exact_angularVelocity (p q : Quat) (t : ℝ) : exactArith.angularVelocity p q t = angularVelocityBetweenQuaternions p q t := by
  unfold Arith.angularVelocity angularVelocityBetweenQuaternions
  simp only [exact_inverse, exact_mul, exact_angleAxis]
  refine congrArg _ (funext fun i => ?_)
  refine congrArg _ (funext fun a => ?_)
  unfold npDiv
  by_cases h : t = 0
  · rw [if_pos h, if_pos h, Py.error_bind]
  · rw [if_neg h, if_neg h, Py.ok_bind]
    rfl

theorem exact_velocityAt (qs : List Quat) (samples : List ℝ) (i : ℕ) : exactArith.velocityAt qs samples i = angularVelocityAt qs samples i := by
  unfold Arith.velocityAt angularVelocityAt
  simp only [exact_angularVelocity]
  rfl

theorem exact_linspace (a b : ℝ) {x : ℝ} (h : 2 ≤ pyInt x) : npLinspace a b x = .ok (exactArith.linspace a b (pyInt x).toNat) := by
  unfold npLinspace Arith.linspace
  rw [if_neg (by omega), if_neg (by omega)]
  obtain ⟨n, hn⟩ : ∃ n : ℕ, (pyInt x).toNat = n + 2 := ⟨(pyInt x).toNat - 2, by omega⟩
  rw [hn, show n + 2 - 1 = n + 1 by omega, show n + 2 = (n + 1) + 1 by ring, List.range_succ, List.map_append, List.map_singleton]
  have hfl : ∀ x, exactArith.fl x = x := fun _ => rfl
  simp only [hfl]
  congr 3
  have : ((n + 1 : ℕ) : ℝ) ≠ 0 := by positivity
  field_simp
  ring

theorem exact_resampleQuaternions (times : List ℝ) (qs : List Quat) (dt : ℝ) (r : List Quat × List ℝ) (h : 2 ≤ r.2.length) :
    exactArith.resampleQuaternions Real.cos Real.sin times qs dt = .ok r ↔ resampleQuaternions times qs dt = .ok r := by
  unfold Arith.resampleQuaternions resampleQuaternions Arith.sampleCount
  cases hl : pyGet times (-1) with
  | error e => simp only [Py.error_bind]
  | ok last =>
    cases hf : pyGet times 0 with
    | error e => simp only [Py.ok_bind, Py.error_bind]
    | ok first =>
      simp only [Py.ok_bind]
      unfold npDiv
      by_cases hd : dt = 0
      · simp only [if_pos hd, Py.error_bind]
      simp only [if_neg hd, Py.ok_bind]
      have hfl : ∀ x, exactArith.fl x = x := fun _ => rfl
      simp only [hfl, exact_resample]
      by_cases h2 : 2 ≤ pyInt ((last - first) / dt + 1)
      · rw [exact_linspace _ _ h2, pyRequire, if_pos h2, Py.ok_bind, Py.ok_bind]
      · rw [pyRequire, if_neg h2, Py.error_bind]
        constructor
        · intro h
          cases h
        · intro h'
          obtain ⟨samples, e1, e2⟩ := Py.bind_eq_ok.mp h'
          obtain ⟨q, -, e3⟩ := Py.bind_eq_ok.mp e2
          rw [Py.pure_eq] at e3
          injection e3 with e3
          rw [← e3] at h
          unfold npLinspace at e1
          split_ifs at e1
          · injection e1 with e1
            rw [← e1] at h
            simp at h
          · injection e1 with e1
            rw [← e1] at h
            simp at h
            omega

theorem exact_percentile {l : List ℝ} {p : ℝ} (hl : l ≠ []) (hp : 0 ≤ p) (hp' : p ≤ 100) : npPercentile l p = .ok (exactArith.percentile l p) := by
  unfold npPercentile Arith.percentile
  rw [if_neg hl, if_neg (by rintro (h | h) <;> linarith)]
  have hfl : ∀ x, exactArith.fl x = x := fun _ => rfl
  simp only [hfl]
  congr 1
  ring

theorem exact_smoothAt : exactArith.smoothAt List.sum = HandEye.smoothAt := rfl

theorem exact_filter (v : List Vec3) (k : ℕ) (p : ℝ) (out : List Vec3) :
    Arith.filterWith exactArith.percentile (exactArith.smoothAt List.sum) v k p = .ok out ↔ filterAndSmooth v k p = .ok out := by
  rw [exact_smoothAt]
  unfold Arith.filterWith filterAndSmooth
  by_cases hv : v = []
  · subst hv
    simp [pyRequire, flat3, npPercentile, Py.error_bind]
  have hf : flat3 v ≠ [] := by
    obtain ⟨x, l, rfl⟩ := List.exists_cons_of_ne_nil hv
    simp [flat3]
  rw [pyRequire, if_pos hv, Py.ok_bind]
  by_cases hp : 0 ≤ p ∧ p ≤ 100
  · rw [pyRequire, if_pos hp, Py.ok_bind, exact_percentile hf hp.1 hp.2, Py.ok_bind]
  · rw [pyRequire, if_neg hp, Py.error_bind]
    have : npPercentile (flat3 v) p = .error .value := by
      unfold npPercentile
      rw [if_neg hf, if_pos]
      by_contra hc
      rw [not_or, not_lt, not_lt] at hc
      exact hp hc
    rw [this, Py.error_bind]

theorem exact_speed (v : Vec3) : exactArith.speed List.sum v = v.norm := by
  have hfl : ∀ x, exactArith.fl x = x := fun _ => rfl
  unfold Arith.speed Vec3.norm Vec3.dot
  simp only [hfl, List.sum_cons, List.sum_nil]
  congr 1
  ring

theorem exact_norms (qs : List Quat) (samples : List ℝ) (k : ℕ) (p : ℝ) (out : List ℝ) :
    exactArith.velocityNorms exactArith.percentile (exactArith.smoothAt List.sum) List.sum qs samples k p = .ok out ↔
      computeAngularVelocityNorms qs samples k p = .ok out := by
  unfold Arith.velocityNorms computeAngularVelocityNorms
  have hv : exactArith.velocityAt qs samples = angularVelocityAt qs samples := funext fun i => exact_velocityAt qs samples i
  have hs : exactArith.speed List.sum = Vec3.norm := funext exact_speed
  rw [hv, hs]
  constructor <;> intro h
  all_goals
    obtain ⟨_, h1, h⟩ := Py.bind_eq_ok.mp h
    obtain ⟨v, h2, h⟩ := Py.bind_eq_ok.mp h
    obtain ⟨f, h3, h⟩ := Py.bind_eq_ok.mp h
    rw [h1, Py.ok_bind, h2, Py.ok_bind]
  · rw [(exact_filter v k p f).mp h3, Py.ok_bind, h]
  · rw [(exact_filter v k p f).mpr h3, Py.ok_bind, h]

theorem exact_timeOffset (tA A tB B : List ℝ) :
    exactArith.timeOffset (exactArith.correlate List.sum) List.sum tA A tB B = calculateTimeOffsetFromSignals tA A tB B := by
  unfold Arith.timeOffset calculateTimeOffsetFromSignals
  rw [exact_meanStep]
  rfl

/-- Speeds are computed only of two samples or more. -/
theorem norms_samples {times : List ℝ} {qs interp : List Quat} {dt : ℝ} {samples out : List ℝ} {k : ℕ} {p : ℝ}
    (h1 : resampleQuaternions times qs dt = .ok (interp, samples)) (h2 : computeAngularVelocityNorms interp samples k p = .ok out) : 2 ≤ samples.length := by
  have hl := resampleQuaternions_length h1
  unfold computeAngularVelocityNorms at h2
  obtain ⟨_, -, h⟩ := Py.bind_eq_ok.mp h2
  obtain ⟨v, h2, h⟩ := Py.bind_eq_ok.mp h
  obtain ⟨f, h3, h⟩ := Py.bind_eq_ok.mp h
  by_contra hc
  have hv := (Py.mapM_eq_ok.mp h2).length_eq
  rw [List.length_range, show interp.length - 1 = 0 by omega] at hv
  have := List.length_eq_zero_iff.mp hv.symm
  subst this
  simp [filterAndSmooth, npPercentile, flat3, Py.error_bind] at h3

theorem norms_samples_rounded {times : List ℝ} {qs interp : List Quat} {dt : ℝ} {samples : List ℝ}
    (h1 : exactArith.resampleQuaternions Real.cos Real.sin times qs dt = .ok (interp, samples)) : 2 ≤ samples.length := by
  unfold Arith.resampleQuaternions at h1
  obtain ⟨num, -, h⟩ := Py.bind_eq_ok.mp h1
  obtain ⟨_, h2, h⟩ := Py.bind_eq_ok.mp h
  obtain ⟨last, -, h⟩ := Py.bind_eq_ok.mp h
  obtain ⟨first, -, h⟩ := Py.bind_eq_ok.mp h
  obtain ⟨qs, -, h⟩ := Py.bind_eq_ok.mp h
  rw [Py.pure_eq] at h
  injection h with h
  obtain ⟨-, rfl⟩ := Prod.mk.inj h
  unfold pyRequire at h2
  split_ifs at h2 with hn
  unfold Arith.linspace
  simp
  omega

/-- **C114**: without rounding errors (and with exact library functions), the floating-point model has the same results as the model over the real numbers, for which
the other properties are shown. -/
theorem C114_exact (tA tB : List ℝ) (qA qB : List Quat) (cfg : FilteringConfig) (o : ℝ) :
    exactArith.offsetOf Real.cos Real.sin exactArith.percentile (exactArith.smoothAt List.sum) (exactArith.correlate List.sum) List.sum tA qA tB qB cfg = .ok o ↔
      calculateTimeOffset tA qA tB qB cfg = .ok o := by
  unfold Arith.offsetOf calculateTimeOffset
  simp only [exact_meanStep, exact_timeOffset]
  constructor <;> intro h
  all_goals
    obtain ⟨dA, h1, h⟩ := Py.bind_eq_ok.mp h
    obtain ⟨dB, h2, h⟩ := Py.bind_eq_ok.mp h
    obtain ⟨⟨iA, sA⟩, h3, h⟩ := Py.bind_eq_ok.mp h
    obtain ⟨⟨iB, sB⟩, h4, h⟩ := Py.bind_eq_ok.mp h
    obtain ⟨nA, h5, h⟩ := Py.bind_eq_ok.mp h
    obtain ⟨nB, h6, h⟩ := Py.bind_eq_ok.mp h
    rw [h1, Py.ok_bind, h2, Py.ok_bind]
    dsimp only at h h3 h4 h5 h6 ⊢
  · rw [(exact_resampleQuaternions _ _ _ _ (norms_samples_rounded h3)).mp h3, Py.ok_bind]
    dsimp only
    rw [(exact_resampleQuaternions _ _ _ _ (norms_samples_rounded h4)).mp h4, Py.ok_bind]
    dsimp only
    rw [(exact_norms _ _ _ _ _).mp h5, Py.ok_bind, (exact_norms _ _ _ _ _).mp h6, Py.ok_bind]
    exact h
  · rw [(exact_resampleQuaternions _ _ _ _ (norms_samples h3 h5)).mpr h3, Py.ok_bind]
    dsimp only
    rw [(exact_resampleQuaternions _ _ _ _ (norms_samples h4 h6)).mpr h4, Py.ok_bind]
    dsimp only
    rw [(exact_norms _ _ _ _ _).mpr h5, Py.ok_bind, (exact_norms _ _ _ _ _).mpr h6, Py.ok_bind]
    exact h

end HandEye
