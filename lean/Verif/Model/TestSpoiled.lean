import Verif.Model.TestTransform
import Verif.Model.Figures3d

/-!
# Model of `test_hand_eye_calibration.py`: the tests with outliers and noise, and the test of the plot

`TH.py` abbreviates `/repo/hand_eye_calibration/test/test_hand_eye_calibration.py`.
-/

namespace HandEye

/-- TH.py:79-88, 128-137, 169-178: the poses of both paths are plotted; `to_pose` changes the dual quaternions in place.  (The
code takes the poses of the two paths in turn; here those of the first path come first.) -/
noncomputable def plotTestPaths (dq_B_H_vec dq_W_E_vec : List DQuat) : Py (PosesFigure × List DQuat × List DQuat) := do
  let b ← dq_B_H_vec.mapM DQuat.toPose
  let w ← dq_W_E_vec.mapM DQuat.toPose
  let figure ← plotPoses [b.map Prod.fst, w.map Prod.fst] true
  return (figure, b.map Prod.snd, w.map Prod.snd)

/-- TH.py:73-118 and 120-167: what the two tests have in common, for the options of the two paths and the tolerance of the last
assertion; with at most `fuel` passes of the loop of RANSAC, `none` if that did not suffice. -/
noncomputable def testOnPaths (svd : Svd) (o_B_H o_W_E : PathOptions) (atol : ℝ) (d : TestDraws) (fuel : ℕ) : Py (Option Unit) := do
  let (dq_H_E, dq_B_W) ← testTransforms d
  let (dq_B_H_vec, dq_W_E_vec) ← generateTestPaths 20 dq_H_E dq_B_W true o_B_H o_W_E d.path_B_H d.path_W_E
  let (_, dq_B_H_vec, dq_W_E_vec) ← plotTestPaths dq_B_H_vec dq_W_E_vec
  let r ← ransac svd d.samples testConfig dq_B_H_vec dq_W_E_vec fuel
  match r with
  | none => return none
  | some r => do
    checkCalibration dq_H_E atol r
    return some ()

/-- TH.py:76: the options of the hand's path in the test with outliers. -/
noncomputable def outlierOptions_B_H : PathOptions := { include_outliers := true, outlier_probability := 0.1 }

/-- TH.py:77: the options of the eye's path in the test with outliers. -/
noncomputable def outlierOptions_W_E : PathOptions := { include_outliers := true, outlier_probability := 0.2 }

/-- TH.py:123-126: the options of both paths in the test with noise. -/
noncomputable def noiseOptions : PathOptions := { include_noise := true, noise_sigma_trans := 0.0001, noise_sigma_rot := 0.001 }

/-- TH.py:73-118 `test_hand_eye_calibration_with_outliers`. -/
noncomputable def testWithOutliers (svd : Svd) (d : TestDraws) (fuel : ℕ) : Py (Option Unit) :=
  testOnPaths svd outlierOptions_B_H outlierOptions_W_E 2e-2 d fuel

/-- TH.py:120-167 `test_hand_eye_calibration_with_noise`. -/
noncomputable def testWithNoise (svd : Svd) (d : TestDraws) (fuel : ℕ) : Py (Option Unit) :=
  testOnPaths svd noiseOptions noiseOptions 4e-2 d fuel

/-- TH.py:33-34 and 168-178 `test_plot_poses`, on the paths of the class body. -/
noncomputable def testPlotPoses (d : TestDraws) : Py PosesFigure := do
  let (dq_H_E, dq_B_W) ← testTransforms d
  let (dq_B_H_vec, dq_W_E_vec) ← generateTestPaths 20 dq_H_E dq_B_W true {} {} d.path_B_H d.path_W_E
  let r ← plotTestPaths dq_B_H_vec dq_W_E_vec
  return r.1

end HandEye
