import Verif.Model.TestPaths
import Verif.Model.Ransac

/-!
# Model of `hand_eye_test_helpers.py` and `test_hand_eye_calibration.py`: the random transforms and the first test

`HELP.py` abbreviates `/repo/hand_eye_calibration/python/hand_eye_calibration/hand_eye_test_helpers.py` and `TH.py`
`/repo/hand_eye_calibration/test/test_hand_eye_calibration.py`.  What `tf.transformations` draws is a parameter.
-/

namespace HandEye

/-- `tf.transformations.translation_matrix(direction)`: not in /repo, as documented by tf: the identity with the last column
replaced. -/
def translationMatrix (t : Vec3) : Matrix (Fin 4) (Fin 4) ℝ :=
  !![1, 0, 0, t.x; 0, 1, 0, t.y; 0, 0, 1, t.z; 0, 0, 0, 1]

/-- HELP.py:25-33 `random_translation` and `rand_transform`, for the drawn vector and the drawn 4x4 rotation matrix. -/
def randTransform (translation : Vec3) (rotation : Matrix (Fin 4) (Fin 4) ℝ) : Matrix (Fin 4) (Fin 4) ℝ :=
  translationMatrix translation * rotation

/-- HELP.py:36-43 `random_transform_as_dual_quaternion`, for what is drawn. -/
noncomputable def randomTransformAsDualQuaternion (translation : Vec3) (rotation : Matrix (Fin 4) (Fin 4) ℝ)
    (enforce_positive_non_dual_scalar_sign : Bool := true) : Py DQuat := do
  let dq_rand ← DQuat.fromTransformationMatrix (randTransform translation rotation)
  return if enforce_positive_non_dual_scalar_sign = true ∧ dq_rand.rot.w < 0 then -dq_rand else dq_rand

/-- HELP.py:13-18 `random_quaternion`, for the drawn quaternion. -/
noncomputable def randomQuaternion (quaternion : Quat) : Py Quat := do
  let quaternion := if quaternion.w < 0 then -quaternion else quaternion
  pyAssert (npIsclose quaternion.norm 1 1e-8)
  return quaternion

/-- What the class body and one test draw. -/
structure TestDraws where
  translation_H_E : Vec3
  rotation_H_E : Matrix (Fin 4) (Fin 4) ℝ
  translation_B_W : Vec3
  rotation_B_W : Matrix (Fin 4) (Fin 4) ℝ
  /-- `path_B_H` and `path_W_E` of the test. -/
  path_B_H : PathDraws
  path_W_E : PathDraws
  /-- What `random.sample` returns during the calibration. -/
  samples : ℕ → List ℕ

/-- TH.py:24-32: the two transforms that the class body makes.  `to_pose` and `normalize` change `dq_H_E` in place.  (Lines
33-34 make paths for the plots only.) -/
noncomputable def testTransforms (d : TestDraws) : Py (DQuat × DQuat) := do
  let dq_H_E ← randomTransformAsDualQuaternion d.translation_H_E d.rotation_H_E true
  pyAssert (dq_H_E.rot.w ≥ -1e-8)
  let (_, dq_H_E) ← dq_H_E.toPose
  let dq_H_E ← dq_H_E.normalize
  let dq_B_W ← randomTransformAsDualQuaternion d.translation_B_W d.rotation_B_W
  pyAssert (dq_B_W.rot.w ≥ -1e-8)
  return (dq_H_E, dq_B_W)

/-- TH.py:42-45: the configuration of the tests. -/
noncomputable def testConfig : HandEyeConfig := { ransac_max_number_iterations := 50, ransac_sample_size := 3 }

/-- TH.py:51-71: what the tests do with the result, for a given tolerance of the last assertion.  A result that reports a
success has a calibration; `None` has no method `to_pose`.  Printing is left out. -/
noncomputable def checkCalibration (dq_H_E : DQuat) (atol : ℝ) (r : CalibrationResult) : Py Unit := do
  pyAssert (r.success = true)
  match r.dq_H_E with
  | none => .error .type
  | some dq => do
    let (pose_H_E_estimated, dq) ← dq.toPose
    let dq_H_E_estimated ← dq.normalize
    pyAssert (pose_H_E_estimated.q.w > 0)
    let (_, dq_H_E) ← dq_H_E.toMatrix
    let (_, dq_H_E_estimated) ← dq_H_E_estimated.toMatrix
    pyAssert (dq_H_E.allclose dq_H_E_estimated atol)

/-- TH.py:36-71 `test_hand_eye_calibration`, with at most `fuel` passes of the loop of RANSAC; `none` if that did not
suffice. -/
noncomputable def testHandEyeCalibration (svd : Svd) (d : TestDraws) (fuel : ℕ) : Py (Option Unit) := do
  let (dq_H_E, dq_B_W) ← testTransforms d
  let (dq_B_H_vec, dq_W_E_vec) ← generateTestPaths 20 dq_H_E dq_B_W true {} {} d.path_B_H d.path_W_E
  let r ← ransac svd d.samples testConfig dq_B_H_vec dq_W_E_vec fuel
  match r with
  | none => return none
  | some r => do
    checkCalibration dq_H_E 1e-3 r
    return some ()

end HandEye
