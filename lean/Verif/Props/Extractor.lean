import Verif.Lemmas.Extractor
import Verif.Lemmas.Motion
import Verif.Props.Csv

/-!
# C86: the files of the target extractor
-/

namespace HandEye

open Spec Quaternion

variable {image camera : Type}

theorem isQuaternionOf_neg {q : Quat} {R : Matrix (Fin 3) (Fin 3) ℝ} (h : IsQuaternionOf q R) :
    IsQuaternionOf ⟨-q.x, -q.y, -q.z, -q.w⟩ R := by
  have hq : (⟨-q.x, -q.y, -q.z, -q.w⟩ : Quat).toH = -q.toH := by ext <;> simp
  unfold IsQuaternionOf
  rw [hq]
  refine ⟨by rw [normSq_neg]; exact h.1, fun x => ?_⟩
  rw [star_neg, neg_mul, neg_mul_neg]
  exact h.2 x

theorem withPositiveW_spec {q : Quat} {R : Matrix (Fin 3) (Fin 3) ℝ} (h : IsQuaternionOf q R) :
    IsQuaternionOf (withPositiveW q) R ∧ 0 ≤ (withPositiveW q).w := by
  unfold withPositiveW
  split_ifs with hw
  · exact ⟨isQuaternionOf_neg h, by dsimp only; linarith⟩
  · exact ⟨h, by linarith⟩

theorem mem_goodImages {w : ExtractorWorld image camera} {ratio : ℝ} {cam : camera} {bag : List (ImageMessage image)}
    {m : ImageMessage image × ℕ} : m ∈ goodImages w ratio cam bag ↔ m ∈ bag.zipIdx ∧ GoodImage w ratio cam m := by
  classical
  unfold goodImages
  rw [List.mem_filter, decide_eq_true_eq]

/-- The row of a good image is its camera pose. -/
theorem extractedRow_spec {w : ExtractorWorld image camera} {ratio : ℝ} {cam : camera} {bag : List (ImageMessage image)}
    (hw : EigenWorks w ratio cam bag) {m : ImageMessage image × ℕ} (hm : m ∈ bag.zipIdx) {p : Pose}
    (h : extractedRow w ratio cam m = some p) :
    IsCameraPose w cam 1 m p ∧ IsCameraPose w cam 1000 m (inMillimeters p) := by
  have hg : GoodImage w ratio cam m := by
    rw [← extractedRow_iff, h]; rfl
  obtain ⟨corners, hd, -⟩ := id hg
  have hq := withPositiveW_spec (hw m (mem_goodImages.mpr ⟨hm, hg⟩) corners hd)
  unfold extractedRow at h
  rw [hd] at h
  dsimp only at h
  split_ifs at h
  cases h
  refine ⟨⟨corners, hd, hq.1, hq.2, ?_⟩, ⟨corners, hd, hq.1, hq.2, ?_⟩⟩
  · ext <;> simp
  · rfl

theorem rows_forall₂ {β : Type} (w : ExtractorWorld image camera) (ratio : ℝ) (cam : camera)
    (bag : List (ImageMessage image)) (g : ImageMessage image × ℕ → Pose → β) (R : β → ImageMessage image × ℕ → Prop)
    (h : ∀ m ∈ bag.zipIdx, ∀ p, extractedRow w ratio cam m = some p → R (g m p) m) :
    List.Forall₂ R (bag.zipIdx.filterMap fun m => (extractedRow w ratio cam m).map (g m)) (goodImages w ratio cam bag) := by
  classical
  unfold goodImages
  refine forall₂_filterMap _ _ (fun m => ?_) R _ ?_
  · rw [Option.isSome_map, Bool.eq_iff_iff, extractedRow_iff, decide_eq_true_eq]
  · intro m hm b hb
    rw [Option.map_eq_some_iff] at hb
    obtain ⟨p, hp, rfl⟩ := hb
    exact h m hm p hp

/-- C86: with a camera, the program ends, and its pose files have one row for each good image, in order: the number of the
image or its time stamp, and the pose of the camera in the frame of the target.  The files in millimetres have the same rows
with positions multiplied by a thousand if they are asked for, and are empty otherwise. -/
theorem C86_rows (w : ExtractorWorld image camera) (flags : ExtractorFlags) (cam : camera)
    (bag : List (ImageMessage image)) (hw : EigenWorks w flags.inlier_ratio_for_good_camera_pose cam bag) :
    ∃ s, extractPoses w flags cam bag = .ok s ∧
      List.Forall₂ (fun (row : ℕ × Pose) m => row.1 = m.2 ∧ IsCameraPose w cam 1 m row.2) s.files.camera_pose
        (goodImages w flags.inlier_ratio_for_good_camera_pose cam bag) ∧
      List.Forall₂ (fun (row : StampedPose) m => row.t = m.1.stamp ∧ IsCameraPose w cam 1 m row.pose)
        s.files.camera_pose_timestamped (goodImages w flags.inlier_ratio_for_good_camera_pose cam bag) ∧
      (flags.output_position_in_mm = true →
        List.Forall₂ (fun (row : ℕ × Pose) m => row.1 = m.2 ∧ IsCameraPose w cam 1000 m row.2) s.files.camera_pose_mm
          (goodImages w flags.inlier_ratio_for_good_camera_pose cam bag) ∧
        List.Forall₂ (fun (row : StampedPose) m => row.t = m.1.stamp ∧ IsCameraPose w cam 1000 m row.pose)
          s.files.camera_pose_mm_timestamped (goodImages w flags.inlier_ratio_for_good_camera_pose cam bag)) ∧
      (flags.output_position_in_mm = false → s.files.camera_pose_mm = [] ∧ s.files.camera_pose_mm_timestamped = []) := by
  obtain ⟨h1, h2, h3, h4, -, -, -, -, -⟩ := extract_files w flags cam bag.zipIdx {}
  refine ⟨_, extractPoses_eq w flags cam bag, ?_, ?_, fun hb => ⟨?_, ?_⟩, fun hb => ⟨?_, ?_⟩⟩
  · rw [h1, List.nil_append]
    exact rows_forall₂ w _ cam bag (fun m p => (m.2, p)) _ fun m hm p hp => ⟨rfl, (extractedRow_spec hw hm hp).1⟩
  · rw [h2, List.nil_append]
    exact rows_forall₂ w _ cam bag (fun m p => (⟨m.1.stamp, p⟩ : StampedPose)) _
      fun m hm p hp => ⟨rfl, (extractedRow_spec hw hm hp).1⟩
  · rw [h3, hb, List.nil_append]
    exact rows_forall₂ w _ cam bag (fun m p => (m.2, inMillimeters p)) _
      fun m hm p hp => ⟨rfl, (extractedRow_spec hw hm hp).2⟩
  · rw [h4, hb, List.nil_append]
    exact rows_forall₂ w _ cam bag (fun m p => (⟨m.1.stamp, inMillimeters p⟩ : StampedPose)) _
      fun m hm p hp => ⟨rfl, (extractedRow_spec hw hm hp).2⟩
  · rw [h3, hb]; rfl
  · rw [h4, hb]; rfl

/-- C86, the numbers that are logged: of images, of images with the target, of successful
estimations, and of good images. -/
theorem C86_counts (w : ExtractorWorld image camera) (flags : ExtractorFlags) (cam : camera)
    (bag : List (ImageMessage image)) :
    ∃ s, extractPoses w flags cam bag = .ok s ∧ s.frame_id = bag.length ∧
      s.number_observation_success = (bag.filter fun m => (w.detect m.image).isSome).length ∧
      s.number_pnp_success = (bag.zipIdx.filter (pnpSucceeds w cam)).length ∧
      s.number_of_good_camera_poses = (goodImages w flags.inlier_ratio_for_good_camera_pose cam bag).length := by
  obtain ⟨-, -, -, -, -, h6, h7, h8, h9⟩ := extract_files w flags cam bag.zipIdx {}
  refine ⟨_, extractPoses_eq w flags cam bag, ?_, ?_, ?_, ?_⟩
  · rw [h8, List.length_zipIdx]; exact Nat.zero_add _
  · rw [h7]
    have : ∀ k, ((bag.zipIdx k).filter fun m => (w.detect m.1.image).isSome).length =
        (bag.filter fun m => (w.detect m.image).isSome).length := by
      clear h6 h7 h8 h9
      intro k
      induction bag generalizing k with
      | nil => rfl
      | cons m bag ih =>
        rw [List.zipIdx_cons]
        cases hd : (w.detect m.image).isSome <;> simp [hd, ih]
    rw [this]; exact Nat.zero_add _
  · rw [h9]; exact Nat.zero_add _
  · rw [h6]
    have := rows_forall₂ w flags.inlier_ratio_for_good_camera_pose cam bag (fun _ p => p) (fun _ _ => True)
      fun _ _ _ _ => trivial
    simp only [Option.map_id'] at this
    rw [← this.length_eq]; exact Nat.zero_add _

theorem inCamera_placed (r : PnpResult) (hr : r.rotation * r.rotation.transpose = 1) (p : Vec3) :
    placed r.rotation r.position (inCamera r p) = p := by
  have e : ∀ i j : Fin 3, r.rotation i 0 * r.rotation j 0 + r.rotation i 1 * r.rotation j 1 +
      r.rotation i 2 * r.rotation j 2 = if i = j then 1 else 0 := by
    intro i j
    have := congrFun (congrFun hr i) j
    rw [Matrix.mul_apply, Fin.sum_univ_three, Matrix.one_apply] at this
    simpa using this
  have e00 := e 0 0; have e01 := e 0 1; have e02 := e 0 2; have e11 := e 1 1; have e12 := e 1 2; have e22 := e 2 2
  simp only [Fin.isValue, if_true, if_false, (by decide : ¬ (0 : Fin 3) = 1), (by decide : ¬ (0 : Fin 3) = 2),
    (by decide : ¬ (1 : Fin 3) = 2)] at e00 e01 e02 e11 e12 e22
  unfold placed inCamera
  ext
  · dsimp only
    linear_combination (p.x - r.position.x) * e00 + (p.y - r.position.y) * e01 + (p.z - r.position.z) * e02
  · dsimp only
    linear_combination (p.x - r.position.x) * e01 + (p.y - r.position.y) * e11 + (p.z - r.position.z) * e12
  · dsimp only
    linear_combination (p.x - r.position.x) * e02 + (p.y - r.position.y) * e12 + (p.z - r.position.z) * e22

/-- C86, the file with the reprojected corners: one row for each corner that was seen in any image, good or not. -/
theorem C86_reprojections (w : ExtractorWorld image camera) (flags : ExtractorFlags) (cam : camera)
    (bag : List (ImageMessage image))
    (hr : ∀ m ∈ bag.zipIdx, ∀ corners, w.detect m.1.image = some corners →
      (w.pnp cam m.2 corners).rotation * (w.pnp cam m.2 corners).rotation.transpose = 1) :
    ∃ s, extractPoses w flags cam bag = .ok s ∧
      List.Forall₂ (ReprojectionOf w cam) s.files.reprojections (observedCorners w bag) := by
  obtain ⟨-, -, -, -, h5, -, -, -, -⟩ := extract_files w flags cam bag.zipIdx {}
  refine ⟨_, extractPoses_eq w flags cam bag, ?_⟩
  rw [h5, List.nil_append]
  unfold observedCorners
  generalize bag.zipIdx = L at hr ⊢
  induction L with
  | nil => exact .nil
  | cons m L ih =>
    rw [List.flatMap_cons, List.flatMap_cons]
    refine List.rel_append ?_ (ih fun m hm => hr m (List.mem_cons_of_mem _ hm))
    unfold imageReprojections
    cases hd : w.detect m.1.image with
    | none => exact .nil
    | some corners =>
      dsimp only
      unfold reprojectionRows
      rw [List.forall₂_map_left_iff, List.forall₂_map_right_iff, List.forall₂_same]
      intro c _
      refine ⟨rfl, rfl, rfl, Iff.rfl, ?_, inCamera (w.pnp cam m.2 corners) c.1.G,
        inCamera_placed _ (hr m (List.mem_cons_self ..) corners hd) _, rfl⟩
      exact decide_eq_true_iff

end HandEye
