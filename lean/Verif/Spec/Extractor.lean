import Verif.Model.Extractor
import Verif.Spec.Track

/-!
# What the files with the camera poses should hold
-/

namespace HandEye.Spec

/-- A rotation matrix and a position as a motion: `x ↦ R x + t`. -/
def placed (R : Matrix (Fin 3) (Fin 3) ℝ) (t x : Vec3) : Vec3 :=
  ⟨R 0 0 * x.x + R 0 1 * x.y + R 0 2 * x.z + t.x, R 1 0 * x.x + R 1 1 * x.y + R 1 2 * x.z + t.y,
    R 2 0 * x.x + R 2 1 * x.y + R 2 2 * x.z + t.z⟩

open Quaternion in
/-- The unit quaternion `q` turns vectors as the matrix `R` does. -/
def IsQuaternionOf (q : Quat) (R : Matrix (Fin 3) (Fin 3) ℝ) : Prop :=
  normSq q.toH = 1 ∧ ∀ x : Vec3, imPart (q.toH * x.toH * star q.toH) = placed R ⟨0, 0, 0⟩ x

/-- The image is good enough for a camera pose: the target is found in it, the pose estimation succeeds, and more than the
given part of the corners, of which there are some, agree with the pose. -/
def GoodImage {image camera : Type} (w : ExtractorWorld image camera) (ratio : ℝ) (cam : camera)
    (m : ImageMessage image × ℕ) : Prop :=
  ∃ corners, w.detect m.1.image = some corners ∧ (w.pnp cam m.2 corners).success = true ∧ 0 < corners.length ∧
    ratio * corners.length < (w.pnp cam m.2 corners).inliers.length

open Classical in
/-- The good images with their numbers. -/
noncomputable def goodImages {image camera : Type} (w : ExtractorWorld image camera) (ratio : ℝ) (cam : camera)
    (bag : List (ImageMessage image)) : List (ImageMessage image × ℕ) :=
  bag.zipIdx.filter fun m => decide (GoodImage w ratio cam m)

/-- `p` is the estimated pose of the camera in the frame of the target, with a unit quaternion whose scalar part is not
negative; positions are multiplied by `unit`. -/
def IsCameraPose {image camera : Type} (w : ExtractorWorld image camera) (cam : camera) (unit : ℝ)
    (m : ImageMessage image × ℕ) (p : Pose) : Prop :=
  ∃ corners, w.detect m.1.image = some corners ∧ IsQuaternionOf p.q (w.pnp cam m.2 corners).rotation ∧ 0 ≤ p.q.w ∧
    p.pos = unit • (w.pnp cam m.2 corners).position

/-- For the rotations that are estimated in good images, Eigen finds a quaternion. -/
def EigenWorks {image camera : Type} (w : ExtractorWorld image camera) (ratio : ℝ) (cam : camera)
    (bag : List (ImageMessage image)) : Prop :=
  ∀ m ∈ goodImages w ratio cam bag, ∀ corners, w.detect m.1.image = some corners →
    IsQuaternionOf (w.eigenQuaternion (w.pnp cam m.2 corners).rotation) (w.pnp cam m.2 corners).rotation

/-- The observed corners of all images, with the numbers of the image and of the corner in the image. -/
def observedCorners {image camera : Type} (w : ExtractorWorld image camera) (bag : List (ImageMessage image)) :
    List (ℕ × List Corner × Corner × ℕ) :=
  bag.zipIdx.flatMap fun m =>
    match w.detect m.1.image with
    | none => []
    | some corners => corners.zipIdx.map fun c => (m.2, corners, c.1, c.2)

/-- Whether the pose estimation succeeds in an image, if there is one. -/
def pnpSucceeds {image camera : Type} (w : ExtractorWorld image camera) (cam : camera) (m : ImageMessage image × ℕ) : Bool :=
  match w.detect m.1.image with
  | none => false
  | some corners => (w.pnp cam m.2 corners).success

/-- The rows of the corners: their own numbers and where they were seen, whether they agree with the estimated pose, and
where they should be seen, which is the projection of the point in the frame of the camera. -/
def ReprojectionOf {image camera : Type} (w : ExtractorWorld image camera) (cam : camera) (row : Reprojection)
    (c : ℕ × List Corner × Corner × ℕ) : Prop :=
  row.frame_id = c.1 ∧ row.corner_id = c.2.2.1.id ∧ row.measured = c.2.2.1.measured ∧
    (row.pnp_success = true ↔ (w.pnp cam c.1 c.2.1).success = true) ∧
    (row.pnp_inlier = true ↔ c.2.2.2 ∈ (w.pnp cam c.1 c.2.1).inliers) ∧
    ∃ x, placed (w.pnp cam c.1 c.2.1).rotation (w.pnp cam c.1 c.2.1).position x = c.2.2.1.G ∧
      w.project cam x = (row.reprojected, row.reproj_success)

end HandEye.Spec
