import Verif.Model.Experiments

/-! # Specification vocabulary: the algorithms that are compared in the experiments -/

namespace HandEye.Spec

/-- The families of algorithms: the baseline, RANSAC (R) and exhaustive search (E), with pose errors ("classic", C) or scalar parts (S)
for the inliers. -/
inductive Family where
  | baseline
  | classicRansac
  | scalarRansac
  | classicSearch
  | scalarSearch
  deriving DecidableEq

/-- The letters of a family in the plots. -/
def Family.letters : Family → String
  | .baseline => "B"
  | .classicRansac => "RC"
  | .scalarRansac => "RS"
  | .classicSearch => "EC"
  | .scalarSearch => "ES"

/-- The short name of an algorithm: `PF_` for prefiltered poses, `_O` for optimization. -/
def shortName (f : Family) (filter optimize : Bool) : String :=
  (if filter then "PF_" else "") ++ f.letters ++ (if optimize then "_O" else "")

/-- The settings that make a configuration one of a family. -/
structure IsOf (f : Family) (cfg : HandEyeConfig) : Prop where
  baseline : cfg.use_baseline_approach = true ↔ f = .baseline
  exhaustive : cfg.enable_exhaustive_search = true ↔ f = .classicSearch ∨ f = .scalarSearch
  classic : f = .classicRansac ∨ f = .classicSearch →
    cfg.ransac_inlier_classification = .rmseThreshold ∧ cfg.ransac_sample_size = 3
  scalar : f = .scalarRansac ∨ f = .scalarSearch →
    cfg.ransac_inlier_classification = .scalarPartEquality ∧ cfg.ransac_sample_size = 1

/-- The settings that all algorithms share. -/
structure SharedSettings (cfg : HandEyeConfig) : Prop where
  inliers : cfg.min_num_inliers = 10
  axes : cfg.prefilter_dot_product_threshold = 0.95
  sample : cfg.ransac_sample_rejection_scalar_part_equality_tolerance = 0.01
  iterations : cfg.ransac_max_number_iterations = 20
  abort : cfg.ransac_enable_early_abort = true
  outliers : cfg.ransac_outlier_probability = 0.5
  confidence : cfg.ransac_success_probability_threshold = 0.99
  position : cfg.ransac_position_error_threshold_m = 0.02
  orientation : cfg.ransac_orientation_error_threshold_deg = 1
  refinement : cfg.ransac_model_refinement = true
  evaluation : cfg.ransac_evaluate_refined_model_on_inliers_only = false
  gate : cfg.hand_eye_calibration_scalar_part_equality_tolerance = 0.04

end HandEye.Spec
