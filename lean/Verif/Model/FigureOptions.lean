import Verif.Model.Figures3d

/-!
# Model of the option for the thinning of figures

`HE.py` abbreviates `/repo/hand_eye_calibration/python/hand_eye_calibration/dual_quaternion_hand_eye_calibration.py`, `CV.py`
`/repo/hand_eye_calibration/python/hand_eye_calibration/calibration_verification.py`, `CH.py`
`/repo/hand_eye_calibration/bin/compute_hand_eye_calibration.py`, `CS.py`
`/repo/hand_eye_calibration_experiments/bin/compute_set_of_hand_eye_calibrations.py`.  Of the attributes of a configuration only
those with natural numbers for the thinning are modelled; negative values of the option are left out.
-/

namespace HandEye

/-- The attributes of a Python object: names and values, the latest assignment first. -/
abbrev Attributes := List (String × ℕ)

/-- `object.name = value`: also creates attributes that no class declares. -/
def Attributes.set (object : Attributes) (name : String) (value : ℕ) : Attributes := (name, value) :: object

/-- `object.name`: nothing for an AttributeError. -/
def Attributes.get (object : Attributes) (name : String) : Option ℕ := object.lookup name

/-- HE.py:86: the attribute that `HandEyeConfig.__init__` creates (and `algorithm_config.py`:53 sets to the same value). -/
def newHandEyeConfig : Attributes := Attributes.set [] "visualize_plot_every_nth_pose" 10

/-- CH.py:132. -/
def singleScriptConfig (plot_every_nth_pose : ℕ) : Attributes :=
  Attributes.set newHandEyeConfig "visualize_plot_every_nth_pose" plot_every_nth_pose

/-- CS.py:101. -/
def setScriptConfig (plot_every_nth_pose : ℕ) : Attributes :=
  Attributes.set newHandEyeConfig "plot_every_nth_pose" plot_every_nth_pose

/-- CV.py:45-53, HE.py:932-939: the figures that are drawn with `config.visualize`; nothing for an AttributeError. -/
noncomputable def configuredFigures (orientation_threshold_deg position_threshold_m : ℝ) (config : Attributes)
    (poses_B_H poses_W_H : List Pose) : Option (Py (ErrorsFigure × PosesFigure)) :=
  (Attributes.get config "visualize_plot_every_nth_pose").map fun every_nth_element =>
    evaluationFigures orientation_threshold_deg position_threshold_m every_nth_element poses_B_H poses_W_H

/-- CS.py:171-182, CH.py:112-123: the figure of the poses before the calibration, which takes the option itself. -/
noncomputable def unalignedFigure (plot_every_nth_pose : ℕ) (poses_B_H poses_W_E : List Pose) : Py PosesFigure := do
  let a ← everyNth poses_B_H plot_every_nth_pose
  let b ← everyNth poses_W_E plot_every_nth_pose
  plotPoses [a, b] true

end HandEye
