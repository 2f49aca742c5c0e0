import Verif.Model.Export
import Verif.Model.Csv

/-!
# Model of `target_extractor.cc`

`TE` abbreviates `/repo/hand_eye_calibration_target_extractor/src/target_extractor.cc`, the program that
`target_extractor_interface.py` (model: `Export.lean`) runs to get camera poses from the images of a bag.

Parameters are what the libraries do: the detector of the target, the pose estimation by `PnpPoseEstimator` (which may
depend on the number of the image, because it draws random samples), the conversion of a rotation matrix to a quaternion by
`Eigen::Quaterniond`, and the projection of a point into the image.  A file is the list of its rows of numbers, and whether
it has a header; the 17 significant digits that are printed are not modelled.  Left out: conversion of images to eight bits,
drawing, log messages.
-/

namespace HandEye

/-- An observed corner of the target: its number, where it is in the image, and where it is on the target (TE:253-255,
339). -/
structure Corner where
  id : ℕ
  measured : ℝ × ℝ
  G : Vec3

/-- What `absolutePoseRansacPinholeCam` returns (TE:257-262). -/
structure PnpResult where
  success : Bool
  rotation : Matrix (Fin 3) (Fin 3) ℝ
  position : Vec3
  inliers : List ℕ

/-- A row of the file with the reprojected corners (TE:338-345). -/
structure Reprojection where
  frame_id : ℕ
  corner_id : ℕ
  pnp_success : Bool
  pnp_inlier : Bool
  reproj_success : Bool
  measured : ℝ × ℝ
  reprojected : ℝ × ℝ

/-- The rows of the five files. -/
structure ExtractorFiles where
  reprojections : List Reprojection := []
  camera_pose : List (ℕ × Pose) := []
  camera_pose_timestamped : List StampedPose := []
  camera_pose_mm : List (ℕ × Pose) := []
  camera_pose_mm_timestamped : List StampedPose := []

/-- The variables of the loop (TE:244-247). -/
structure ExtractorState where
  files : ExtractorFiles := {}
  number_observation_success : ℕ := 0
  number_pnp_success : ℕ := 0
  number_of_good_camera_poses : ℕ := 0
  frame_id : ℕ := 0

/-- The libraries. -/
structure ExtractorWorld (image camera : Type) where
  detect : image → Option (List Corner)
  pnp : camera → ℕ → List Corner → PnpResult
  eigenQuaternion : Matrix (Fin 3) (Fin 3) ℝ → Quat
  /-- `project3Vectorized` for one point: the keypoint and whether it is visible. -/
  project : camera → Vec3 → (ℝ × ℝ) × Bool
  /-- `camera->deserializeFromFile`, for a camera that there is. -/
  deserialize : camera → Text → camera

/-- TE:115-120: an image of the bag. -/
structure ImageMessage (image : Type) where
  stamp : ℝ
  image : image

/-- TE:264-268: `inlier_ratio > FLAGS_inlier_ratio_for_good_camera_pose`.  Without corners the ratio is nan, which is not
above anything. -/
noncomputable def sufficientInliers (ratio : ℝ) (inliers : List ℕ) (corners : List Corner) : Bool :=
  if corners.length = 0 then false else decide ((inliers.length : ℝ) / corners.length > ratio)

/-- TE:281-287: the quaternion with the sign that makes its scalar part non-negative. -/
noncomputable def withPositiveW (q : Quat) : Quat := if q.w < 0 then ⟨-q.x, -q.y, -q.z, -q.w⟩ else q

/-- TE:290, 306-323: the position in millimetres. -/
noncomputable def inMillimeters (p : Pose) : Pose := ⟨⟨1000 * p.pos.x, 1000 * p.pos.y, 1000 * p.pos.z⟩, p.q⟩

/-- TE:280-323: the rows of a good camera pose. -/
noncomputable def writeCameraPose {image camera : Type} (w : ExtractorWorld image camera) (output_position_in_mm : Bool)
    (timestamps : List ℝ) (frame_id : ℕ) (r : PnpResult) (f : ExtractorFiles) : Py ExtractorFiles := do
  let quaternion := withPositiveW (w.eigenQuaternion r.rotation)
  let p : Pose := ⟨r.position, quaternion⟩
  pyAssert (frame_id < timestamps.length)
  let t ← pyAt timestamps frame_id
  return { f with
    camera_pose := f.camera_pose ++ [(frame_id, p)]
    camera_pose_timestamped := f.camera_pose_timestamped ++ [⟨t, p⟩]
    camera_pose_mm := f.camera_pose_mm ++ if output_position_in_mm then [(frame_id, inMillimeters p)] else []
    camera_pose_mm_timestamped := f.camera_pose_mm_timestamped ++
      if output_position_in_mm then [⟨t, inMillimeters p⟩] else [] }

/-- TE:275-325: rows and counters. -/
noncomputable def writeIfGood {image camera : Type} (w : ExtractorWorld image camera) (flags : ExtractorFlags)
    (timestamps : List ℝ) (corners : List Corner) (r : PnpResult) (s : ExtractorState) : Py ExtractorState :=
  if r.success then
    if sufficientInliers flags.inlier_ratio_for_good_camera_pose r.inliers corners then do
      let f ← writeCameraPose w flags.output_position_in_mm timestamps s.frame_id r s.files
      return { s with
        files := f
        number_pnp_success := s.number_pnp_success + 1
        number_of_good_camera_poses := s.number_of_good_camera_poses + 1 }
    else return { s with number_pnp_success := s.number_pnp_success + 1 }
  else return s

/-- TE:271-272: `T_G_C.inverse()` applied to a point of the target. -/
def inCamera (r : PnpResult) (p : Vec3) : Vec3 :=
  ⟨r.rotation 0 0 * (p.x - r.position.x) + r.rotation 1 0 * (p.y - r.position.y) + r.rotation 2 0 * (p.z - r.position.z),
   r.rotation 0 1 * (p.x - r.position.x) + r.rotation 1 1 * (p.y - r.position.y) + r.rotation 2 1 * (p.z - r.position.z),
   r.rotation 0 2 * (p.x - r.position.x) + r.rotation 1 2 * (p.y - r.position.y) + r.rotation 2 2 * (p.z - r.position.z)⟩

/-- TE:327-346: the rows of the reprojected corners. -/
def reprojectionRows {image camera : Type} (w : ExtractorWorld image camera) (cam : camera) (frame_id : ℕ)
    (corners : List Corner) (r : PnpResult) : List Reprojection :=
  corners.zipIdx.map fun c =>
    { frame_id := frame_id
      corner_id := c.1.id
      pnp_success := r.success
      pnp_inlier := decide (c.2 ∈ r.inliers)
      reproj_success := (w.project cam (inCamera r c.1.G)).2
      measured := c.1.measured
      reprojected := (w.project cam (inCamera r c.1.G)).1 }

/-- TE:251-347: an image in which the target was detected. -/
noncomputable def evaluateObservation {image camera : Type} (w : ExtractorWorld image camera) (flags : ExtractorFlags)
    (cam : camera) (timestamps : List ℝ) (corners : List Corner) (s : ExtractorState) : Py ExtractorState := do
  let r := w.pnp cam s.frame_id corners
  let s' ← writeIfGood w flags timestamps corners r
    { s with number_observation_success := s.number_observation_success + 1 }
  return { s' with files := { s'.files with
    reprojections := s'.files.reprojections ++ reprojectionRows w cam s.frame_id corners r } }

/-- TE:249-348: one round of the loop. -/
noncomputable def extractorStep {image camera : Type} (w : ExtractorWorld image camera) (flags : ExtractorFlags)
    (cam : camera) (timestamps : List ℝ) (s : ExtractorState) (obs : Option (List Corner)) : Py ExtractorState :=
  match obs with
  | none => return { s with frame_id := s.frame_id + 1 }
  | some corners => do
    let s' ← evaluateObservation w flags cam timestamps corners s
    return { s' with frame_id := s'.frame_id + 1 }

/-- TE:108-169, 248-349: all images with a given camera. -/
noncomputable def extractPoses {image camera : Type} (w : ExtractorWorld image camera) (flags : ExtractorFlags)
    (cam : camera) (bag : List (ImageMessage image)) : Py ExtractorState := do
  let timestamps := bag.map ImageMessage.stamp
  let target_observations := bag.map fun m => w.detect m.image
  pyAssert (target_observations.length = timestamps.length)
  target_observations.foldlM (extractorStep w flags cam timestamps) {}

/-- Use of a pointer.  (A null pointer is undefined behaviour in C++, in practice the end of the program.) -/
def derefPointer {α : Type} : Option α → Py α
  | none => .error .type
  | some a => .ok a

/-- TE:193-368: what the program writes, if it ends well; `none` are no files at all.  TE:235 makes the pointer, which is
null, and TE:236 uses it. -/
noncomputable def targetExtractorMain {image camera : Type} (w : ExtractorWorld image camera) (flags : ExtractorFlags)
    (bag : List (ImageMessage image)) : Py (Option ExtractorFiles) :=
  if flags.eval_camera_yaml = [] then return none
  else do
    let camera_ptr : Option camera := none
    let cam ← derefPointer camera_ptr
    let s ← extractPoses w flags (w.deserialize cam flags.eval_camera_yaml) bag
    return some s.files

/-- TE:215-216 `"timestamp, x [m], y[m], z[m], x, y, z, w"`. -/
def headerLine : Text :=
  ['t', 'i', 'm', 'e', 's', 't', 'a', 'm', 'p', ',', ' ', 'x', ' ', '[', 'm', ']', ',', ' '] ++ ['y', '[', 'm', ']', ',', ' ', 'z', '[', 'm', ']', ',', ' ', 'x', ',', ' ', 'y', ',', ' ', 'z', ',', ' ', 'w']

/-- TE:212-217: the first line of the file with the time stamps. -/
def timestampedHeader : Text := headerLine ++ ['\n']

end HandEye
