import Verif.Props.Ransac14
import Verif.Props.Ransac9Example

/-! # Property C103, example for the chance of success -/

namespace HandEye

/-- Four good measurements and an outlier: with the classification by pose errors, the chance that the true mounting has been found tends to one. -/
example : ∃ svd : Svd, (∀ T s V, svd T = .ok (s, V) → Spec.IsSVD T s V) ∧
    Filter.Tendsto (fun N => Spec.chance fun ω : Fin N → Spec.Draw 5 3 => ∃ r dq,
      ransac svd (Spec.calls ω) (classicConfig false) outlierHands outlierEyes N = .ok (some r) ∧ r.success = true ∧
      r.dq_H_E = some dq ∧ Spec.SameUpToSign dq sampleX) Filter.atTop (nhds 1) := by
  obtain ⟨hX, -, -, hXw⟩ := sample_data
  have h1 : Spec.IsUnit (1 : DQuat) := by rw [DQuat.isUnit_iff]; norm_num [Quat.dot]
  obtain ⟨svd, hv, hgood⟩ := exists_good_svd
  have hl : outlierEyes.length = outlierHands.length := by simp [outlierEyes, outlierHands]
  have hl5 : outlierEyes.length = 5 := by simp [outlierEyes, bodyPoses]
  refine ⟨svd, hv, ?_⟩
  have h := C103_chance svd hv (classicConfig false) rfl rfl 1e-2 rfl (by norm_num) (by norm_num [classicConfig]) (by norm_num [classicConfig])
    (by norm_num [classicConfig]) rfl rfl (by norm_num [classicConfig]) (by norm_num [classicConfig]) (by norm_num [classicConfig]) (by norm_num [classicConfig])
    1 sampleX h1 hX hXw outlierHands outlierEyes hl outlier_hands_unit outlier_eyes_unit outlier_seen outlier_few outlier_selections
    (by rw [outlier_number]; rfl) outlier_clearly (by rw [hl5]; norm_num [classicConfig])
    (fun B W h1 _ h3 h4 => hgood B W sampleX hX hXw h1 h3 h4 _ (by norm_num [classicConfig])) _ rfl
  rw [hl5] at h
  exact (h.2 ⟨[0, 1, 2], ⟨rfl, by simp, by simp⟩, outlier_good⟩).1

end HandEye
