import Verif.Props.RoundedExact
import Verif.Props.ClockNoise

/-! # Property C114: examples -/

namespace HandEye

open Spec

theorem machine_exact : Spec.Machine 0 exactArith where
  small := by norm_num
  rounds x := by
    change |x - x| ≤ _
    simp
  dots p q := by
    change |(p.x * q.x + p.y * q.y + p.z * q.z + p.w * q.w) - _| ≤ _
    simp

theorem sums_exact : Spec.Sums 0 List.sum := fun l => by simp

/-- The recording of a twitching sensor (see `C102_offset`), without rounding errors. -/
example : exactArith.offsetOf Real.cos Real.sin exactArith.percentile (exactArith.smoothAt List.sum) (exactArith.correlate List.sum) List.sum
    (Spec.regular 100 1 4) ((List.range 5).map fun (i : ℕ) => turnOnce i) (Spec.regular 7 1 4) ((List.range 5).map twitching) ⟨1, 100, 1, 100⟩ = .ok (-92) :=
  (C114_exact _ _ _ _ _ _).mpr twitching_offset

theorem exact_velocities {times : List ℝ} {qs : List Quat} {dt : ℝ} {samples : List ℝ} {v : List Vec3} (h : AngularVelocities times qs dt samples v)
    (hv : v ≠ []) : RoundedVelocities exactArith Real.cos Real.sin times qs dt samples v := by
  have hl := h.length
  have hp := List.length_pos_of_ne_nil hv
  obtain ⟨interp, h1, h2⟩ := h
  refine ⟨interp, (exact_resampleQuaternions _ _ _ _ (by dsimp only; omega)).mpr h1, ?_⟩
  rw [show exactArith.velocityAt interp samples = angularVelocityAt interp samples from funext fun i => exact_velocityAt interp samples i]
  exact h2

theorem turn_small : Real.arccos 0.8 ≤ 1 := by
  calc Real.arccos 0.8 ≤ Real.arccos (Real.cos 1) := Real.arccos_le_arccos (by linarith [Real.cos_one_le])
    _ = 1 := Real.arccos_cos (by norm_num) (by linarith [Real.two_le_pi])

/-- The same with the bound of C114. -/
example : ∃ o, exactArith.offsetOf Real.cos Real.sin exactArith.percentile (exactArith.smoothAt List.sum) (exactArith.correlate List.sum) List.sum
    (Spec.regular 100 1 4) ((List.range 5).map fun (i : ℕ) => turnOnce i) (Spec.regular 7 1 4) ((List.range 5).map twitching) ⟨1, 100, 1, 100⟩ = .ok o ∧
    |o + 92| ≤ 0 := by
  have hw := turn_large
  have hstep : ∀ i : ℤ, angularVelocityBetweenQuaternions (turnOnce i) (turnOnce (i + 1)) 1 = .ok (if i = 1 then ⟨Real.arccos 0.8, 0, 0⟩ else 0) := by
    intro i
    have hstep : (turnOnce (i + 1) = turnOnce i ∨ turnOnce (i + 1) = -turnOnce i) ∨ |(turnOnce i).dot (turnOnce (i + 1))| < 1 - 1.1e-5 := by
      by_cases h : i = 1
      · right
        subst h
        norm_num [turnOnce, Quat.dot, abs_lt]
      · left; left
        unfold turnOnce
        split_ifs <;> first | rfl | omega
    rw [velocity_value (turnOnce_unit _) (turnOnce_unit _) one_pos hstep, turnOnce_vector]
    congr 1
    split_ifs <;> (ext <;> simp)
  have hV : ∀ i : ℤ, ((1 : ℝ) / (2 * 1)) • Spec.rotationVector (turnOnce i) (turnOnce (i + 1)) = if i = 1 then ⟨Real.arccos 0.8, 0, 0⟩ else 0 := by
    intro i
    rw [turnOnce_vector]
    split_ifs <;> (ext <;> simp)
  have hrest : ∀ i : ℤ, i < 1 ∨ 2 ≤ i → turnOnce (i + 1) = turnOnce i := by
    intro i hi
    unfold turnOnce
    split_ifs <;> first | rfl | omega
  have eI : ∀ i : ℤ, i + 1 - 1 = i - 1 + 1 := fun i => by ring
  have fA := filter_unclipped (Q := turnOnce) (n := 4) (k := 1) (lo := 1) (hi := 2) (by norm_num) one_pos hrest (by norm_num) (by norm_num) (p := 100)
    (by norm_num) (by norm_num) (by simpa using turnOnce_within 0 (by norm_num)) one_pos
  have fB := filter_unclipped (Q := fun i => turnOnce (i - 1)) (n := 4) (k := 1) (lo := 2) (hi := 3) (by norm_num) one_pos
    (fun i hi => by rw [eI]; exact hrest _ (by omega)) (by norm_num) (by norm_num) (p := 100)
    (by norm_num) (by norm_num) (by simpa using turnOnce_within 1 le_rfl) one_pos
  simp only [eI, smoothed_one, hV] at fA fB
  have hn0 : (0 : Vec3).norm = 0 := Vec3.norm_eq_zero.mpr rfl
  have hn1 : (⟨Real.arccos 0.8, 0, 0⟩ : Vec3).norm = Real.arccos 0.8 := by
    have : (⟨Real.arccos 0.8, 0, 0⟩ : Vec3) = Real.arccos 0.8 • (⟨1, 0, 0⟩ : Vec3) := by ext <;> simp
    rw [this, Vec3.norm_smul, Vec3.norm_eq_one.mpr (by norm_num [Vec3.dot]), abs_of_pos (by linarith), mul_one]
  have eA : sample (((List.range 4).map fun (i : ℕ) => if (i : ℤ) = 1 then (⟨Real.arccos 0.8, 0, 0⟩ : Vec3) else 0).map Vec3.norm) =
      fun i => if i = 1 then Real.arccos 0.8 else 0 := by
    funext i
    rw [List.map_map, ← sample_map (n := 4) (f := fun i : ℤ => if i = 1 then Real.arccos 0.8 else 0) (fun i hi => if_neg (by omega))]
    congr 1
    refine List.map_congr_left fun j _ => ?_
    rw [Function.comp_apply, apply_ite Vec3.norm, hn0, hn1]
  have eB : sample (((List.range 4).map fun (i : ℕ) => if (i : ℤ) - 1 = 1 then (⟨Real.arccos 0.8, 0, 0⟩ : Vec3) else 0).map Vec3.norm) =
      fun i => if i - 1 = 1 then Real.arccos 0.8 else 0 := by
    funext i
    rw [List.map_map, ← sample_map (n := 4) (f := fun i : ℤ => if i - 1 = 1 then Real.arccos 0.8 else 0) (fun i hi => if_neg (by omega))]
    congr 1
    refine List.map_congr_left fun j _ => ?_
    rw [Function.comp_apply, apply_ite Vec3.norm, hn0, hn1]
  have tA := angularVelocities_regular 100 one_pos (n := 4) (by norm_num) (q := fun i => turnOnce i)
    (V := fun (i : ℕ) => if (i : ℤ) = 1 then ⟨Real.arccos 0.8, 0, 0⟩ else 0) (fun i _ => by push_cast; exact hstep i)
  have nB := angularVelocities_regular 7 one_pos (n := 4) (by norm_num) (q := twitching) (V := twitchingVelocity) twitching_velocity
  have ht := twitch_small
  have ht0 := Real.arccos_nonneg (9999 / 10001)
  have ht3 : Real.arccos (9999 / 10001) ≤ 3 / 100 := by
    norm_num at ht
    exact ht
  have hd : exactArith.meanStep List.sum (Spec.regular 100 1 4) = .ok 1 := by
    rw [exact_meanStep]
    exact regular_mean 100 1 (N := 4) (by norm_num)
  have hd' : exactArith.meanStep List.sum (Spec.regular 7 1 4) = .ok 1 := by
    rw [exact_meanStep]
    exact regular_mean 7 1 (N := 4) (by norm_num)
  have bA : ∀ x ∈ (List.range 4).map fun (i : ℕ) => if (i : ℤ) = 1 then (⟨Real.arccos 0.8, 0, 0⟩ : Vec3) else 0, |x.x| ≤ 1 ∧ |x.y| ≤ 1 ∧ |x.z| ≤ 1 := by
    intro x hx
    obtain ⟨i, -, rfl⟩ := List.mem_map.mp hx
    have := turn_small
    split_ifs <;> simp [abs_of_nonneg (Real.arccos_nonneg _), this]
  have bB : ∀ x ∈ (List.range 4).map twitchingVelocity, |x.x| ≤ 1 ∧ |x.y| ≤ 1 ∧ |x.z| ≤ 1 := by
    intro x hx
    obtain ⟨i, -, rfl⟩ := List.mem_map.mp hx
    have := turn_small
    have h3 : Real.arccos (9999 / 10001) ≤ 1 := by linarith
    unfold twitchingVelocity
    split_ifs <;> simp [abs_of_nonneg (Real.arccos_nonneg _), this, h3]
  have per : ∀ v : List Vec3, v ≠ [] → Spec.PercentileNear 0 (v.flatMap fun x => [x.x, x.y, x.z]) 100
      (exactArith.percentile (v.flatMap fun x => [x.x, x.y, x.z]) 100) := by
    intro v hv
    have hf : (v.flatMap fun x => [x.x, x.y, x.z]) ≠ [] := by
      obtain ⟨x, l, rfl⟩ := List.exists_cons_of_ne_nil hv
      simp
    obtain ⟨m, e1, e2⟩ := npPercentile_spec hf (p := 100) (by norm_num) (by norm_num)
    rw [exact_percentile hf (by norm_num) (by norm_num)] at e1
    injection e1 with e1
    exact ⟨m, e2, by rw [e1]; simp⟩
  have sm : Spec.Smooths 0 4 1 (1 + 0) (exactArith.smoothAt List.sum) := by
    have := C114_smooth machine_exact List.sum sums_exact 4 1 1 one_pos zero_le_one
    simpa using this
  have H := C114_offset machine_exact Real.cos Real.sin exactArith.percentile (exactArith.smoothAt List.sum) (exactArith.correlate List.sum) List.sum sums_exact
    (Spec.regular 100 1 4) (Spec.regular 7 1 4) _ _ _ _ ⟨1, 100, 1, 100⟩ 1 1
    ((List.range 4).map fun (i : ℕ) => if (i : ℤ) = 1 then ⟨Real.arccos 0.8, 0, 0⟩ else 0)
    ((List.range 4).map fun (i : ℕ) => if (i : ℤ) - 1 = 1 then ⟨Real.arccos 0.8, 0, 0⟩ else 0) _ _ _ _ hd hd'
    (by rw [max_self]; exact exact_velocities tA (by simp)) (by rw [max_self]; exact exact_velocities nB (by simp))
    0 0.03 0 0 0 0 0 1 1 ?_ ?_ bA bB one_pos one_pos (by norm_num) (by norm_num) (per _ (by simp)) (per _ (by simp)) (by simpa using sm) (by simpa using sm) ?_
    fA fB 1 1 (Real.arccos 0.8) 0 (√(3 * 4) * 0.03) 0 3 one_pos (Real.arccos_nonneg _) ?_ ?_ (by norm_num) (by simp) (by simp) (by simp) (by simp) ?_ (by simp) (by simp)
    (by norm_num)
  · obtain ⟨ta, tb, last, o, k, h1, h2, h3, h4, h5, h6⟩ := H
    refine ⟨o, h4, ?_⟩
    obtain rfl : k = 1 := by
      have := abs_nonpos_iff.mp (show |k - 1| ≤ 0 by simpa using h5)
      omega
    obtain rfl : 100 = ta := by simpa [Spec.regular] using h1
    obtain rfl : 7 = tb := by simpa [Spec.regular] using h3
    obtain rfl : 100 + 3 = last := by simpa [Spec.regular] using h2
    norm_num at h6 ⊢
    linarith
  · rw [List.forall₂_map_left_iff, List.forall₂_map_right_iff, List.forall₂_same]
    intro i _
    split_ifs <;> first | omega | simp [NearVec]
  · rw [List.forall₂_map_left_iff, List.forall₂_map_right_iff, List.forall₂_same]
    intro i hi
    have hi := List.mem_range.mp hi
    unfold twitchingVelocity
    split_ifs <;> first | omega | norm_num [NearVec, abs_of_nonneg ht0, ht3]
  · intro a b _ _ ha hb
    have := C112_direct machine_exact List.sum sums_exact a b _ _ ha hb (by positivity) (by positivity)
    simpa using this
  · intro i
    rw [eA, eB, one_mul]
  · rw [eA]
    exact pulse_energy
  · intro s hs
    have hs' : s ≠ 0 := by rintro rfl; simp at hs
    rw [eA]
    refine lt_of_lt_of_le ?_ (le_trans (pulse_shift hs') (le_of_eq (one_mul _).symm))
    have h12 : √(3 * 4) ≤ 3.5 := Real.sqrt_le_iff.mpr (by norm_num)
    have h12' : √(3 * 4) * Real.arccos 0.8 ≤ 3.5 * Real.arccos 0.8 := mul_le_mul_of_nonneg_right h12 (by linarith)
    nlinarith

end HandEye
