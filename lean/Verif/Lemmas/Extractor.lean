import Verif.Spec.Extractor
import Verif.Lemmas.Py

/-!
# Lemmas about the loop of the target extractor
-/

namespace HandEye

variable {image camera : Type}

/-- The row of an image, if it gets one. -/
noncomputable def extractedRow (w : ExtractorWorld image camera) (ratio : ℝ) (cam : camera)
    (m : ImageMessage image × ℕ) : Option Pose :=
  match w.detect m.1.image with
  | none => none
  | some corners =>
    if (w.pnp cam m.2 corners).success = true ∧ sufficientInliers ratio (w.pnp cam m.2 corners).inliers corners = true then
      some ⟨(w.pnp cam m.2 corners).position, withPositiveW (w.eigenQuaternion (w.pnp cam m.2 corners).rotation)⟩
    else none

/-- The rows of the reprojected corners of an image. -/
def imageReprojections (w : ExtractorWorld image camera) (cam : camera) (m : ImageMessage image × ℕ) :
    List Reprojection :=
  match w.detect m.1.image with
  | none => []
  | some corners => reprojectionRows w cam m.2 corners (w.pnp cam m.2 corners)

/-- The state after an image. -/
noncomputable def extractedState (w : ExtractorWorld image camera) (flags : ExtractorFlags) (cam : camera)
    (m : ImageMessage image × ℕ) (s : ExtractorState) : ExtractorState :=
  let row := extractedRow w flags.inlier_ratio_for_good_camera_pose cam m
  { files :=
      { reprojections := s.files.reprojections ++ imageReprojections w cam m
        camera_pose := s.files.camera_pose ++ (row.map fun p => (m.2, p)).toList
        camera_pose_timestamped := s.files.camera_pose_timestamped ++ (row.map fun p => (⟨m.1.stamp, p⟩ : StampedPose)).toList
        camera_pose_mm := s.files.camera_pose_mm ++
          if flags.output_position_in_mm then (row.map fun p => (m.2, inMillimeters p)).toList else []
        camera_pose_mm_timestamped := s.files.camera_pose_mm_timestamped ++
          if flags.output_position_in_mm then (row.map fun p => (⟨m.1.stamp, inMillimeters p⟩ : StampedPose)).toList else [] }
    number_observation_success := s.number_observation_success + if (w.detect m.1.image).isSome then 1 else 0
    number_pnp_success := s.number_pnp_success +
      match w.detect m.1.image with
      | none => 0
      | some corners => if (w.pnp cam m.2 corners).success then 1 else 0
    number_of_good_camera_poses := s.number_of_good_camera_poses + row.toList.length
    frame_id := s.frame_id + 1 }

theorem extractorStep_eq (w : ExtractorWorld image camera) (flags : ExtractorFlags) (cam : camera) (timestamps : List ℝ)
    (s : ExtractorState) (m : ImageMessage image × ℕ) (hk : s.frame_id = m.2) (ht : timestamps[m.2]? = some m.1.stamp) :
    extractorStep w flags cam timestamps s (w.detect m.1.image) = .ok (extractedState w flags cam m s) := by
  obtain ⟨m, k⟩ := m
  dsimp only at hk ht
  subst hk
  unfold extractorStep extractedState extractedRow imageReprojections
  cases hd : w.detect m.image with
  | none =>
    simp [Py.pure_eq]
  | some corners =>
    unfold evaluateObservation writeIfGood
    by_cases h1 : (w.pnp cam s.frame_id corners).success = true
    · by_cases h2 : sufficientInliers flags.inlier_ratio_for_good_camera_pose
        (w.pnp cam s.frame_id corners).inliers corners = true
      · unfold writeCameraPose
        have hl : s.frame_id < timestamps.length := (List.getElem?_eq_some_iff.mp ht).1
        have ha : pyAt timestamps s.frame_id = .ok m.stamp := by
          unfold pyAt; rw [ht]
        dsimp only
        rw [if_pos h1, if_pos h2, pyAssert_pos hl, Py.ok_bind, ha, Py.ok_bind]
        cases hb : flags.output_position_in_mm <;> simp [Py.pure_eq, Py.ok_bind, h1, h2]
      · simp [Py.pure_eq, Py.ok_bind, h1, h2]
    · simp [Py.pure_eq, Py.ok_bind, h1]

theorem extract_fold (w : ExtractorWorld image camera) (flags : ExtractorFlags) (cam : camera) (timestamps : List ℝ) :
    ∀ (bag : List (ImageMessage image)) (k : ℕ) (s : ExtractorState), s.frame_id = k →
      (∀ i, (hi : i < bag.length) → timestamps[k + i]? = some bag[i].stamp) →
      (bag.map fun m => w.detect m.image).foldlM (extractorStep w flags cam timestamps) s =
        .ok ((bag.zipIdx k).foldl (fun s m => extractedState w flags cam m s) s) := by
  intro bag
  induction bag with
  | nil => intro k s _ _; rfl
  | cons m bag ih =>
    intro k s hk ht
    have h0 := ht 0 (by simp)
    rw [List.map_cons, List.foldlM_cons, List.zipIdx_cons, List.foldl_cons]
    have := extractorStep_eq w flags cam timestamps s (m, k) hk (by simpa using h0)
    rw [this, Py.ok_bind, ih (k + 1) _ (by simp [extractedState, hk])]
    intro i hi
    have := ht (i + 1) (by simpa using hi)
    rw [show k + 1 + i = k + (i + 1) by omega]
    simpa using this

theorem extractPoses_eq (w : ExtractorWorld image camera) (flags : ExtractorFlags) (cam : camera)
    (bag : List (ImageMessage image)) :
    extractPoses w flags cam bag = .ok (bag.zipIdx.foldl (fun s m => extractedState w flags cam m s) {}) := by
  unfold extractPoses
  dsimp only
  rw [pyAssert_pos (by simp), Py.ok_bind, extract_fold w flags cam _ bag 0 {} rfl]
  intro i hi
  simp [hi]

/-- The files in terms of the rows of the images. -/
theorem extract_files (w : ExtractorWorld image camera) (flags : ExtractorFlags) (cam : camera) :
    ∀ (L : List (ImageMessage image × ℕ)) (s : ExtractorState),
      let e := L.foldl (fun s m => extractedState w flags cam m s) s
      let row := extractedRow w flags.inlier_ratio_for_good_camera_pose cam
      e.files.camera_pose = s.files.camera_pose ++ L.filterMap (fun m => (row m).map fun p => (m.2, p)) ∧
      e.files.camera_pose_timestamped = s.files.camera_pose_timestamped ++
        L.filterMap (fun m => (row m).map fun p => (⟨m.1.stamp, p⟩ : StampedPose)) ∧
      e.files.camera_pose_mm = s.files.camera_pose_mm ++ (if flags.output_position_in_mm then
        L.filterMap (fun m => (row m).map fun p => (m.2, inMillimeters p)) else []) ∧
      e.files.camera_pose_mm_timestamped = s.files.camera_pose_mm_timestamped ++ (if flags.output_position_in_mm then
        L.filterMap (fun m => (row m).map fun p => (⟨m.1.stamp, inMillimeters p⟩ : StampedPose)) else []) ∧
      e.files.reprojections = s.files.reprojections ++ L.flatMap (imageReprojections w cam) ∧
      e.number_of_good_camera_poses = s.number_of_good_camera_poses + (L.filterMap row).length ∧
      e.number_observation_success = s.number_observation_success + (L.filter fun m => (w.detect m.1.image).isSome).length ∧
      e.frame_id = s.frame_id + L.length ∧
      e.number_pnp_success = s.number_pnp_success + (L.filter (Spec.pnpSucceeds w cam)).length := by
  intro L
  induction L with
  | nil => intro s; cases h : flags.output_position_in_mm <;> simp
  | cons m L ih =>
    intro s
    dsimp only
    rw [List.foldl_cons]
    obtain ⟨h1, h2, h3, h4, h5, h6, h7, h8, h9⟩ := ih (extractedState w flags cam m s)
    rw [h1, h2, h3, h4, h5, h6, h7, h8, h9]
    unfold extractedState
    have hp : ((m :: L).filter (Spec.pnpSucceeds w cam)).length =
        (if Spec.pnpSucceeds w cam m then 1 else 0) + (L.filter (Spec.pnpSucceeds w cam)).length := by
      rw [List.filter_cons]; split_ifs <;> simp [Nat.add_comm]
    rw [hp]
    unfold Spec.pnpSucceeds
    cases hr : extractedRow w flags.inlier_ratio_for_good_camera_pose cam m <;>
      cases hb : flags.output_position_in_mm <;> cases hd : w.detect m.1.image <;>
      simp [hr, hd, List.flatMap_cons] <;> omega

theorem extractedRow_iff (w : ExtractorWorld image camera) (ratio : ℝ) (cam : camera) (m : ImageMessage image × ℕ) :
    (extractedRow w ratio cam m).isSome = true ↔ Spec.GoodImage w ratio cam m := by
  unfold extractedRow Spec.GoodImage
  cases hd : w.detect m.1.image with
  | none => simp
  | some corners =>
    have hs : sufficientInliers ratio (w.pnp cam m.2 corners).inliers corners = true ↔
        0 < corners.length ∧ ratio * corners.length < (w.pnp cam m.2 corners).inliers.length := by
      unfold sufficientInliers
      by_cases h0 : corners.length = 0
      · simp [h0]
      · have hp : (0 : ℝ) < corners.length := by exact_mod_cast Nat.pos_of_ne_zero h0
        rw [if_neg h0, decide_eq_true_eq, gt_iff_lt, lt_div_iff₀ hp]
        exact ⟨fun h => ⟨Nat.pos_of_ne_zero h0, h⟩, fun h => h.2⟩
    dsimp only
    constructor
    · intro h
      by_cases hc : (w.pnp cam m.2 corners).success = true ∧
          sufficientInliers ratio (w.pnp cam m.2 corners).inliers corners = true
      · exact ⟨corners, rfl, hc.1, hs.mp hc.2⟩
      · rw [if_neg hc] at h; simp at h
    · rintro ⟨c, hc, h1, h2⟩
      cases hc
      rw [if_pos ⟨h1, hs.mpr h2⟩]; rfl

/-- `filterMap` row by row. -/
theorem forall₂_filterMap {α β : Type} (f : α → Option β) (P : α → Bool) (hP : ∀ a, (f a).isSome = P a)
    (R : β → α → Prop) : ∀ L : List α, (∀ a ∈ L, ∀ b, f a = some b → R b a) →
      List.Forall₂ R (L.filterMap f) (L.filter P) := by
  intro L
  induction L with
  | nil => intro _; exact .nil
  | cons a L ih =>
    intro h
    have ih := ih fun a ha => h a (List.mem_cons_of_mem _ ha)
    cases hf : f a with
    | none =>
      rw [List.filterMap_cons_none hf, List.filter_cons_of_neg (by rw [← hP, hf]; simp)]
      exact ih
    | some b =>
      rw [List.filterMap_cons_some hf, List.filter_cons_of_pos (by rw [← hP, hf]; rfl)]
      exact .cons (h a (List.mem_cons_self ..) b hf) ih

end HandEye
