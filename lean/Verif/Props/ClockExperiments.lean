import Verif.Props.ClockDefault
import Verif.Model.AlgorithmFilter

/-! # Property C73 for the configurations of the experiments -/

namespace HandEye

/-- C73 is false for the time alignment of the experiments as well: for every algorithm, the same recording compared with itself may get an offset that is not
zero, because the two signals are limited to different percentiles. -/
theorem C73_experiments_refuted : ∃ (Q : ℤ → Quat) (n : ℕ) (lo hi : ℤ), (∀ i, (Q i).norm = 1) ∧ 25 ≤ lo ∧ hi + 25 ≤ n ∧
    (∀ i : ℤ, i < lo ∨ hi ≤ i → Q (i + 1) = Q i) ∧
    ∃ m : ℤ, m ≠ 0 ∧ calculateTimeOffset (Spec.regular 0 1 n) ((List.range (n + 1)).map fun (i : ℕ) => Q i)
      (Spec.regular 0 1 n) ((List.range (n + 1)).map fun (i : ℕ) => Q i) getBasicFilteringConfig = .ok (m : ℝ) := by
  obtain ⟨Q, n, lo, hi, h1, h2, h3, h4, -, h5⟩ := C73_default_refuted
  exact ⟨Q, n, lo, hi, h1, h2, h3, h4, h5⟩

/-- C105: the settings for the time alignment are those of the class: the same kernel size for both signals, but different percentiles. -/
theorem C105_time_alignment : getBasicFilteringConfig = {} ∧
    getBasicFilteringConfig.smoothing_kernel_size_A = 25 ∧ getBasicFilteringConfig.smoothing_kernel_size_B = 25 ∧
    getBasicFilteringConfig.clipping_percentile_A = 99.5 ∧ getBasicFilteringConfig.clipping_percentile_B = 99 ∧
    getBasicFilteringConfig.clipping_percentile_A ≠ getBasicFilteringConfig.clipping_percentile_B :=
  ⟨rfl, rfl, rfl, rfl, by norm_num [getBasicFilteringConfig], by norm_num [getBasicFilteringConfig]⟩

example : getBasicFilteringConfig.clipping_percentile_B < getBasicFilteringConfig.clipping_percentile_A := by norm_num [getBasicFilteringConfig]

end HandEye
