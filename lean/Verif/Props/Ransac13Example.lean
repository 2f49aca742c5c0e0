import Verif.Props.Ransac13
import Verif.Model.Experiments

/-! # Property C109, example -/

namespace HandEye

open Majority in
/-- Thirty measurements fit one mounting and ten another one: with the default values except for the prefilter, the chance that the mounting of the ten is reported
tends to 6/209, which is almost three percent, and that of the thirty to 203/209.  With a single iteration it is 6/209 of the chance that the search has ended. -/
theorem C109_minority :
    ∃ (bs ws : List DQuat) (X' : DQuat) (svd : Svd), (∀ T s V, svd T = .ok (s, V) → Spec.IsSVD T s V) ∧ bs.length = 40 ∧
      Spec.Supported 1e-2 10 bs ws 1 1 ∧ Spec.number (Spec.Fits 1 1) (bs.zip ws) = 30 ∧
      Spec.Supported 1e-2 10 bs ws 1 X' ∧ Spec.number (Spec.Fits 1 X') (bs.zip ws) = 10 ∧
      Filter.Tendsto (fun N => Spec.chance fun ω : Fin N → Spec.Draw 40 3 => ∃ r dq,
          ransac svd (Spec.calls ω) { prefilter_poses_enabled := false } bs ws N = .ok (some r) ∧ r.success = true ∧
          r.dq_H_E = some dq ∧ Spec.SameUpToSign dq X' ∧ r.num_inliers = 10) Filter.atTop (nhds (6 / 209)) ∧
      Filter.Tendsto (fun N => Spec.chance fun ω : Fin N → Spec.Draw 40 3 => ∃ r dq,
          ransac svd (Spec.calls ω) { prefilter_poses_enabled := false } bs ws N = .ok (some r) ∧ r.success = true ∧
          r.dq_H_E = some dq ∧ Spec.SameUpToSign dq 1 ∧ r.num_inliers = 30) Filter.atTop (nhds (203 / 209)) ∧
      ∀ N, Spec.chance (fun ω : Fin N → Spec.Draw 40 3 => ∃ r dq,
          ransac svd (Spec.calls ω) { prefilter_poses_enabled := false, ransac_max_number_iterations := 1 } bs ws N = .ok (some r) ∧ r.success = true ∧
          r.dq_H_E = some dq ∧ Spec.SameUpToSign dq X' ∧ r.num_inliers = 10) = 6 / 209 * (1 - (285 / 494) ^ N) := by
  obtain ⟨svd, hv, hgood⟩ := exists_good_svd
  have hl : eyes.length = hands.length := by rw [eyes_length, hands_length]
  have hsw : shifted.rot.w ≠ 0 := by norm_num [shifted]
  have hsolve : ∀ B W, (Spec.Exact B W 1 ∨ Spec.Exact B W shifted) → (∀ b ∈ B, Spec.IsUnit b) → Spec.TwoAxes B →
      B.head? = some ⟨⟨0, 0, 0, 1⟩, ⟨0, 0, 0, 0⟩⟩ → ∃ r, computeHandEyeCalibration svd B W 4e-2 = .ok r := by
    rintro B W (h1 | h1) - h3 h4
    · exact hgood B W 1 one_unit (by simp) h1 h3 h4 _ (by norm_num)
    · exact hgood B W shifted shifted_unit hsw h1 h3 h4 _ (by norm_num)
  have hmany : Spec.Supported 1e-2 10 hands eyes 1 1 := ⟨one_unit, one_unit, by simp, sep_many, axes_many, by rw [number_many]; norm_num⟩
  have hfew : Spec.Supported 1e-2 10 hands eyes 1 shifted := ⟨one_unit, shifted_unit, hsw, sep_few, axes_few, by rw [number_few]⟩
  have hne : ¬ Spec.SameUpToSign 1 shifted := by
    rw [sameUpToSign_iff]
    rintro (h | h) <;> have := congrArg (fun d => d.dual.x) h <;> norm_num [shifted] at this
  have hne' : ¬ Spec.SameUpToSign shifted 1 := by
    rw [sameUpToSign_iff]
    rintro (h | h) <;> have := congrArg (fun d => d.dual.x) h <;> norm_num [shifted] at this
  have hall : ∀ p ∈ hands.zip eyes, Spec.Fits 1 1 p ∨ Spec.Fits 1 shifted p := by
    intro p hp
    rcases cases_zip hp with ⟨b, -, rfl⟩ | ⟨b, -, rfl⟩
    · exact Or.inr (few_fits b)
    · exact Or.inl (many_fits b)
  have hone : ∀ p ∈ hands.zip eyes, ¬ (Spec.Fits 1 1 p ∧ Spec.Fits 1 shifted p) := by
    rintro p hp ⟨h1, h2⟩
    rcases cases_zip hp with ⟨b, hb, rfl⟩ | ⟨b, hb, rfl⟩
    · exact few_only hb h1
    · exact many_only hb h2
  refine ⟨hands, eyes, shifted, svd, hv, hands_length, hmany, number_many, hfew, number_few, ?_, ?_, fun N => ?_⟩
  · have h := C109_share svd hv { prefilter_poses_enabled := false } rfl 1e-2 rfl (by norm_num) rfl rfl (by norm_num) (by norm_num) (by norm_num) (by norm_num)
      hands eyes hl hands_unit eyes_unit (by norm_num) (by rw [eyes_length]; norm_num) 1 shifted 1 1 hfew hmany rfl rfl hne' (fun p hp => (hall p hp).symm)
      (fun p hp h => hone p hp h.symm) (fun B W h => hsolve B W h.symm) 10 30 number_few number_many (by norm_num)
    rw [eyes_length] at h
    rw [show (6 / 209 : ℝ) = ((10 : ℕ).descFactorial 3 : ℝ) / ((10 : ℕ).descFactorial 3 + (30 : ℕ).descFactorial 3) by norm_num [Nat.descFactorial]]
    exact h
  · have h := C109_share svd hv { prefilter_poses_enabled := false } rfl 1e-2 rfl (by norm_num) rfl rfl (by norm_num) (by norm_num) (by norm_num) (by norm_num)
      hands eyes hl hands_unit eyes_unit (by norm_num) (by rw [eyes_length]; norm_num) 1 1 1 shifted hmany hfew rfl rfl hne hall
      hone hsolve 30 10 number_many number_few (by norm_num)
    rw [eyes_length] at h
    rw [show (203 / 209 : ℝ) = ((30 : ℕ).descFactorial 3 : ℝ) / ((30 : ℕ).descFactorial 3 + (10 : ℕ).descFactorial 3) by norm_num [Nat.descFactorial]]
    exact h
  · have hends : Spec.EndsAfter { prefilter_poses_enabled := false, ransac_max_number_iterations := 1 } 1 := ⟨⟨by norm_num, Or.inl le_rfl⟩, fun _ h => h.1⟩
    have h := C109_chance svd hv { prefilter_poses_enabled := false, ransac_max_number_iterations := 1 } rfl 1e-2 rfl (by norm_num) rfl rfl (by norm_num)
      (by norm_num) (by norm_num) (by norm_num) hands eyes hl hands_unit eyes_unit (by norm_num) (by rw [eyes_length]; norm_num) 1 shifted 1 1 hfew hmany rfl rfl hne'
      (fun p hp => (hall p hp).symm) (fun p hp h => hone p hp h.symm) (fun B W h => hsolve B W h.symm) 1 hends _ _ rfl rfl N
    rw [eyes_length, number_few, number_many] at h
    rw [h]
    norm_num [Nat.descFactorial]

/-- The configurations RS_filter and RS_no_filter, with samples of a single measurement, end after seven evaluated samples. -/
theorem C108_RS (prefilter : Bool) : Spec.EndsAfter (getRansacScalarPartInliersConfig prefilter).config 7 := by
  unfold Spec.EndsAfter
  simp only [getRansacScalarPartInliersConfig, getBasicConfig]
  refine ⟨⟨by norm_num, Or.inr ⟨trivial, by norm_num⟩⟩, ?_⟩
  rintro j ⟨-, h | ⟨-, h⟩⟩
  · exact le_trans (by norm_num) h
  · by_contra hc
    have hj : j ≤ 6 := by omega
    have : ((1 : ℝ) / 2) ^ 6 ≤ (1 / 2) ^ j := pow_le_pow_of_le_one (by norm_num) (by norm_num) hj
    norm_num at h this
    linarith

open Majority in
/-- With the configuration RS_no_filter of the experiments, the mounting of the ten measurements is reported in a quarter of the runs. -/
theorem C109_RS :
    ∃ (bs ws : List DQuat) (X' : DQuat) (svd : Svd), (∀ T s V, svd T = .ok (s, V) → Spec.IsSVD T s V) ∧ bs.length = 40 ∧
      Spec.Supported 1e-2 10 bs ws 1 1 ∧ Spec.number (Spec.Fits 1 1) (bs.zip ws) = 30 ∧
      Spec.Supported 1e-2 10 bs ws 1 X' ∧ Spec.number (Spec.Fits 1 X') (bs.zip ws) = 10 ∧
      (∀ N, 7 ≤ N → Spec.chance (fun ω : Fin N → Spec.Draw 40 1 => ∃ r dq,
          ransac svd (Spec.calls ω) (getRansacScalarPartInliersConfig false).config bs ws N = .ok (some r) ∧ r.success = true ∧
          r.dq_H_E = some dq ∧ Spec.SameUpToSign dq X' ∧ r.num_inliers = 10) = 1 / 4) := by
  obtain ⟨svd, hv, hgood⟩ := exists_good_svd
  have hl : eyes.length = hands.length := by rw [eyes_length, hands_length]
  have hsw : shifted.rot.w ≠ 0 := by norm_num [shifted]
  have hsolve : ∀ B W, (Spec.Exact B W shifted ∨ Spec.Exact B W 1) → (∀ b ∈ B, Spec.IsUnit b) → Spec.TwoAxes B →
      B.head? = some ⟨⟨0, 0, 0, 1⟩, ⟨0, 0, 0, 0⟩⟩ → ∃ r, computeHandEyeCalibration svd B W 4e-2 = .ok r := by
    rintro B W (h1 | h1) - h3 h4
    · exact hgood B W shifted shifted_unit hsw h1 h3 h4 _ (by norm_num)
    · exact hgood B W 1 one_unit (by simp) h1 h3 h4 _ (by norm_num)
  have hmany : Spec.Supported 1e-2 10 hands eyes 1 1 := ⟨one_unit, one_unit, by simp, sep_many, axes_many, by rw [number_many]; norm_num⟩
  have hfew : Spec.Supported 1e-2 10 hands eyes 1 shifted := ⟨one_unit, shifted_unit, hsw, sep_few, axes_few, by rw [number_few]⟩
  have hne' : ¬ Spec.SameUpToSign shifted 1 := by
    rw [sameUpToSign_iff]
    rintro (h | h) <;> have := congrArg (fun d => d.dual.x) h <;> norm_num [shifted] at this
  have hall : ∀ p ∈ hands.zip eyes, Spec.Fits 1 shifted p ∨ Spec.Fits 1 1 p := by
    intro p hp
    rcases cases_zip hp with ⟨b, -, rfl⟩ | ⟨b, -, rfl⟩
    · exact Or.inl (few_fits b)
    · exact Or.inr (many_fits b)
  have hone : ∀ p ∈ hands.zip eyes, ¬ (Spec.Fits 1 shifted p ∧ Spec.Fits 1 1 p) := by
    rintro p hp ⟨h2, h1⟩
    rcases cases_zip hp with ⟨b, hb, rfl⟩ | ⟨b, hb, rfl⟩
    · exact few_only hb h1
    · exact many_only hb h2
  refine ⟨hands, eyes, shifted, svd, hv, hands_length, hmany, number_many, hfew, number_few, fun N hN => ?_⟩
  have h := C109_chance svd hv (getRansacScalarPartInliersConfig false).config rfl 1e-2 rfl (by norm_num) rfl rfl
    (show 0 < 20 by norm_num) (show (0 : ℝ) < 0.5 by norm_num) (show (0.5 : ℝ) < 1 by norm_num) (show (0.99 : ℝ) < 1 by norm_num)
    hands eyes hl hands_unit eyes_unit (show 0 < 1 by norm_num) (show 1 < eyes.length by rw [eyes_length]; norm_num) 1 shifted 1 1 hfew hmany rfl rfl hne'
    hall hone hsolve 7 (C108_RS false) _ _ rfl rfl N
  rw [eyes_length, number_few, number_many] at h
  have e : ∀ n : ℕ, n.descFactorial (getRansacScalarPartInliersConfig false).config.ransac_sample_size = n := fun n => Nat.descFactorial_one n
  simp only [e] at h
  refine h.trans ?_
  have h0 : ∀ j ∈ Finset.range 7, (N.choose j : ℝ) * (((10 : ℕ) : ℝ) / (40 : ℕ) + ((30 : ℕ) : ℝ) / (40 : ℕ)) ^ j *
      (1 - (((10 : ℕ) : ℝ) / (40 : ℕ) + ((30 : ℕ) : ℝ) / (40 : ℕ))) ^ (N - j) = 0 := by
    intro j hj
    have hj' := Finset.mem_range.mp hj
    rw [show (1 : ℝ) - (((10 : ℕ) : ℝ) / (40 : ℕ) + ((30 : ℕ) : ℝ) / (40 : ℕ)) = 0 by norm_num, zero_pow (by omega), mul_zero]
  rw [Finset.sum_eq_zero h0]
  norm_num

end HandEye
