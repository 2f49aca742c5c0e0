import Verif.Props.Algorithms
import Verif.Props.Ransac9Example

/-! # Property C105, an example: twelve good measurements -/

namespace HandEye

noncomputable def thriceHands : List DQuat := bodyPoses ++ bodyPoses ++ bodyPoses

noncomputable def thriceEyes : List DQuat := thriceHands.map fun b => 1 * b * sampleX

theorem thrice_zip : thriceHands.zip thriceEyes = thriceHands.map fun b => (b, 1 * b * sampleX) := by
  unfold thriceEyes
  generalize thriceHands = l
  induction l with
  | nil => rfl
  | cons a l ih => rw [List.map_cons, List.zip_cons_cons, ih, List.map_cons]

theorem thrice_mem {b : DQuat} : b ∈ thriceHands ↔ b ∈ bodyPoses := by simp [thriceHands]

theorem thrice_fits : ∀ p ∈ thriceHands.zip thriceEyes, Spec.Fits 1 sampleX p := by
  intro p hp
  rw [thrice_zip] at hp
  obtain ⟨b, -, rfl⟩ := List.mem_map.mp hp
  exact outlier_fits b

theorem thrice_number : Spec.number (Spec.Fits 1 sampleX) (thriceHands.zip thriceEyes) = 12 := by
  classical
  unfold Spec.number
  rw [List.countP_eq_length.mpr fun p hp => decide_eq_true (thrice_fits p hp), thrice_zip, List.length_map]
  rfl

theorem thrice_hands_unit : ∀ a ∈ thriceHands, Spec.IsUnit a := fun a ha => bodyPoses_unit a (thrice_mem.mp ha)

theorem thrice_eyes_unit : ∀ a ∈ thriceEyes, Spec.IsUnit a := by
  have h1 : Spec.IsUnit (1 : DQuat) := by rw [DQuat.isUnit_iff]; norm_num [Quat.dot]
  intro a ha
  obtain ⟨b, hb, rfl⟩ := List.mem_map.mp ha
  exact DQuat.isUnit_mul (DQuat.isUnit_mul h1 (thrice_hands_unit b hb)) sample_data.1

theorem thrice_turns : Spec.TurnsAboutTwoAxes (Spec.handsOf (Spec.Fits 1 sampleX) (thriceHands.zip thriceEyes)) := by
  classical
  obtain ⟨a, ha, b, hb, c, hc, hne⟩ := bodyPoses_turns
  have : ∀ x ∈ bodyPoses, x ∈ Spec.handsOf (Spec.Fits 1 sampleX) (thriceHands.zip thriceEyes) := by
    intro x hx
    refine List.mem_map.mpr ⟨(x, 1 * x * sampleX), List.mem_filter.mpr ⟨?_, decide_eq_true (outlier_fits x)⟩, rfl⟩
    rw [thrice_zip]
    exact List.mem_map_of_mem (thrice_mem.mpr hx)
  exact ⟨a, this a ha, b, this b hb, c, this c hc, hne⟩

theorem thrice_good : Spec.TellingSample 1 sampleX thriceHands thriceEyes [0, 1, 2] := by
  refine ⟨fun i _ q hq => thrice_fits q (List.mem_of_getElem? hq), ?_⟩
  refine ⟨⟨⟨0, 0, 0, 1⟩, ⟨0, 0, 0, 0⟩⟩, by simp [thriceHands, bodyPoses], ⟨⟨0, 0, 0.6, 0.8⟩, ⟨0.8, 0, 0, 0⟩⟩, by simp [thriceHands, bodyPoses],
    ⟨⟨0.6, 0, 0, 0.8⟩, ⟨0, 0.8, 0, 0⟩⟩, by simp [thriceHands, bodyPoses], ?_⟩
  rw [Ne, cross_eq_zero]
  norm_num [Quat.vec]

/-- There are runs of both families of RANSAC that end, with the configurations of the experiments: here, on twelve good measurements. -/
theorem both_families_run : ∃ svd : Svd, (∀ T s V, svd T = .ok (s, V) → Spec.IsSVD T s V) ∧
    withOptimization (getRansacClassicConfig false) false ∈ getAllConfigs ∧ withOptimization (getRansacScalarPartInliersConfig false) false ∈ getAllConfigs ∧
    Spec.IsOf .classicRansac (withOptimization (getRansacClassicConfig false) false).config ∧
    Spec.IsOf .scalarRansac (withOptimization (getRansacScalarPartInliersConfig false) false).config ∧
    (∃ r, ransac svd (fun _ => [0, 1, 2]) (withOptimization (getRansacClassicConfig false) false).config thriceHands thriceEyes 20 = .ok (some r)) ∧
    (∃ r, ransac svd (fun _ => [0]) (withOptimization (getRansacScalarPartInliersConfig false) false).config thriceHands thriceEyes 20 = .ok (some r)) := by
  classical
  obtain ⟨hX, -, -, hXw⟩ := sample_data
  have h1 : Spec.IsUnit (1 : DQuat) := by rw [DQuat.isUnit_iff]; norm_num [Quat.dot]
  obtain ⟨svd, hv, hgood⟩ := exists_good_svd
  have hl : thriceEyes.length = thriceHands.length := by simp [thriceEyes]
  have hl12 : thriceEyes.length = 12 := by simp [thriceEyes, thriceHands, bodyPoses]
  have hsolve : ∀ B W, Spec.Exact B W sampleX → (∀ b ∈ B, Spec.IsUnit b) → Spec.TwoAxes B →
      B.head? = some ⟨⟨0, 0, 0, 1⟩, ⟨0, 0, 0, 0⟩⟩ → ∃ r, computeHandEyeCalibration svd B W 4e-2 = .ok r :=
    fun B W h1 _ h3 h4 => hgood B W sampleX hX hXw h1 h3 h4 _ (by norm_num)
  refine ⟨svd, hv, by simp [getAllConfigs], by simp [getAllConfigs],
    ⟨by simp [withOptimization, getRansacClassicConfig, getBasicConfig], by simp [withOptimization, getRansacClassicConfig], fun _ => ⟨rfl, rfl⟩, by simp⟩,
    ⟨by simp [withOptimization, getRansacScalarPartInliersConfig, getBasicConfig], by simp [withOptimization, getRansacScalarPartInliersConfig], by simp, fun _ => ⟨rfl, rfl⟩⟩, ?_, ?_⟩
  · obtain ⟨-, -, -, -, -, hs, -⟩ := C105_configurations (withOptimization (getRansacClassicConfig false) false) (by simp [getAllConfigs])
    refine (C103_random svd hv (fun _ => [0, 1, 2]) (withOptimization (getRansacClassicConfig false) false).config rfl rfl 0.01 hs.sample (by norm_num)
      (by simp [withOptimization, getRansacClassicConfig]) (by rw [hs.orientation]; norm_num) (by rw [hs.position]; norm_num) rfl rfl
      (by rw [hs.iterations]; norm_num) (by rw [hs.outliers]; norm_num) (by rw [hs.outliers]; norm_num) (by rw [hs.confidence]; norm_num)
      1 sampleX h1 hX hXw thriceHands thriceEyes hl thrice_hands_unit thrice_eyes_unit thrice_turns
      (by rw [thrice_number, hs.inliers]; norm_num) (fun _ _ _ q hq hn => absurd (thrice_fits q hq) hn)
      (by rw [hl12]; simp [withOptimization, getRansacClassicConfig])
      (fun B W a b c d => by rw [hs.gate]; convert hsolve B W a b c d using 3)
      (fun _ => by rw [hl12]; refine ⟨rfl, ?_, ?_⟩ <;> simp) 20).1 ?_
    rw [List.countP_eq_length.mpr fun k _ => decide_eq_true thrice_good, List.length_range]
    exact hs.iterations.le
  · obtain ⟨-, -, -, -, -, hs, -⟩ := C105_configurations (withOptimization (getRansacScalarPartInliersConfig false) false) (by simp [getAllConfigs])
    refine (C91_random svd hv (fun _ => [0]) (withOptimization (getRansacScalarPartInliersConfig false) false).config rfl 0.01 hs.sample (by norm_num)
      rfl rfl (by rw [hs.iterations]; norm_num) (by rw [hs.outliers]; norm_num) (by rw [hs.outliers]; norm_num)
      (by rw [hs.confidence]; norm_num) 1 sampleX h1 hX hXw thriceHands thriceEyes hl thrice_hands_unit thrice_eyes_unit
      (fun _ _ _ q hq _ => thrice_fits q hq) (fun p hp hn => absurd (thrice_fits p hp) hn) thrice_turns
      (by rw [thrice_number, hs.inliers]; norm_num) (by simp [withOptimization, getRansacScalarPartInliersConfig])
      (by rw [hl12]; simp [withOptimization, getRansacScalarPartInliersConfig])
      (fun B W a b c d => by rw [hs.gate]; convert hsolve B W a b c d using 3)
      (fun _ => by rw [hl12]; refine ⟨rfl, ?_, ?_⟩ <;> simp) 20).1 ?_
    have hall : Spec.AllFit 1 sampleX thriceHands thriceEyes [0] := fun i _ q hq => thrice_fits q (List.mem_of_getElem? hq)
    rw [List.countP_eq_length.mpr fun k _ => decide_eq_true hall, List.length_range]
    exact hs.iterations.le

end HandEye
