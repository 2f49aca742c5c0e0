import Verif.Model.TimeAlign

/-!
# Model of the time alignment part of the configurations of the algorithms

`AC.py` abbreviates `/repo/hand_eye_calibration/python/hand_eye_calibration/algorithm_config.py`.
-/

namespace HandEye

/-- AC.py:12-16, the first component of `get_basic_config`.  All other functions of AC.py (lines 63, 87, 111, 133, 155) and of `all_algorithm_configs.py` return
this component unchanged; `compute_set_of_hand_eye_calibrations.py:149` and `optimization_experiments.py:142` pass it to `calculate_time_offset`. -/
noncomputable def getBasicFilteringConfig : FilteringConfig :=
  { smoothing_kernel_size_A := 25
    clipping_percentile_A := 99.5
    smoothing_kernel_size_B := 25
    clipping_percentile_B := 99.0 }

end HandEye
