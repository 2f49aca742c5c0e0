import Verif.Props.Extractor

/-!
# C86: reading the files of the target extractor, and what is wrong with them
-/

namespace HandEye

open Spec Quaternion

variable {image camera : Type}

theorem unit_of_unitMultiple {q r : Quat} (hq : normSq q.toH = 1) (h : UnitMultiple q r) : r = q := by
  obtain ⟨h1, s, hs, hx, hy, hz, hw⟩ := h
  have hn : q.x ^ 2 + q.y ^ 2 + q.z ^ 2 + q.w ^ 2 = 1 := by
    rw [Quat.normSq_toH, Quat.dot] at hq; linarith
  have h2 : s ^ 2 = 1 := by
    rw [hx, hy, hz, hw] at h1
    nlinarith
  have h3 : s = 1 := by nlinarith
  subst h3
  ext <;> simp [hx, hy, hz, hw]

theorem poseMotion_placed {p : Pose} {R : Matrix (Fin 3) (Fin 3) ℝ} (h : IsQuaternionOf p.q R) (x : Vec3) :
    poseMotion p x = placed R p.pos x := by
  unfold poseMotion
  rw [h.2 x]
  unfold placed
  ext <;> simp

/-- A quaternion of a matrix in its components. -/
theorem isQuaternionOf_iff (q : Quat) (R : Matrix (Fin 3) (Fin 3) ℝ) :
    IsQuaternionOf q R ↔ q.x ^ 2 + q.y ^ 2 + q.z ^ 2 + q.w ^ 2 = 1 ∧
      R 0 0 = 1 - 2 * q.y ^ 2 - 2 * q.z ^ 2 ∧ R 0 1 = 2 * (q.x * q.y - q.z * q.w) ∧ R 0 2 = 2 * (q.x * q.z + q.y * q.w) ∧
      R 1 0 = 2 * (q.x * q.y + q.z * q.w) ∧ R 1 1 = 1 - 2 * q.x ^ 2 - 2 * q.z ^ 2 ∧ R 1 2 = 2 * (q.y * q.z - q.x * q.w) ∧
      R 2 0 = 2 * (q.x * q.z - q.y * q.w) ∧ R 2 1 = 2 * (q.y * q.z + q.x * q.w) ∧ R 2 2 = 1 - 2 * q.x ^ 2 - 2 * q.y ^ 2 := by
  unfold IsQuaternionOf
  rw [Quat.normSq_toH, Quat.dot]
  constructor
  · rintro ⟨h1, h⟩
    have hx := h ⟨1, 0, 0⟩
    have hy := h ⟨0, 1, 0⟩
    have hz := h ⟨0, 0, 1⟩
    simp only [imPart, placed, Vec3.mk.injEq, Quaternion.imI_mul, Quaternion.imJ_mul, Quaternion.imK_mul,
      Quaternion.re_mul, Quaternion.re_star, Quaternion.imI_star, Quaternion.imJ_star, Quaternion.imK_star,
      Quat.toH_re, Quat.toH_imI, Quat.toH_imJ, Quat.toH_imK, Vec3.toH_re, Vec3.toH_imI, Vec3.toH_imJ, Vec3.toH_imK] at hx hy hz
    refine ⟨by linarith, ?_, ?_, ?_, ?_, ?_, ?_, ?_, ?_, ?_⟩ <;> linarith [hx.1, hx.2.1, hx.2.2, hy.1, hy.2.1, hy.2.2, hz.1, hz.2.1, hz.2.2]
  · rintro ⟨h0, h1, h2, h3, h4, h5, h6, h7, h8, h9⟩
    refine ⟨by linarith, fun x => ?_⟩
    simp only [imPart, placed, Vec3.mk.injEq, Quaternion.imI_mul, Quaternion.imJ_mul, Quaternion.imK_mul,
      Quaternion.re_mul, Quaternion.re_star, Quaternion.imI_star, Quaternion.imJ_star, Quaternion.imK_star,
      Quat.toH_re, Quat.toH_imI, Quat.toH_imJ, Quat.toH_imK, Vec3.toH_re, Vec3.toH_imI, Vec3.toH_imJ, Vec3.toH_imK]
    rw [h1, h2, h3, h4, h5, h6, h7, h8, h9]
    refine ⟨?_, ?_, ?_⟩
    · linear_combination x.x * h0
    · linear_combination x.y * h0
    · linear_combination x.z * h0

theorem isQuaternionOf_mirrored {q : Quat} {R : Matrix (Fin 3) (Fin 3) ℝ} (h : IsQuaternionOf q R) :
    IsQuaternionOf (mirrored q) R.transpose := by
  rw [isQuaternionOf_iff] at h ⊢
  obtain ⟨h0, h1, h2, h3, h4, h5, h6, h7, h8, h9⟩ := h
  simp only [mirrored, Matrix.transpose_apply]
  refine ⟨by linarith, ?_, ?_, ?_, ?_, ?_, ?_, ?_, ?_, ?_⟩ <;> linarith

/-- Reading the file of the target extractor, with either flag. -/
theorem extracted_read (w : ExtractorWorld image camera) (flags : ExtractorFlags) (cam : camera)
    (bag : List (ImageMessage image)) (hw : EigenWorks w flags.inlier_ratio_for_good_camera_pose cam bag)
    (hg : goodImages w flags.inlier_ratio_for_good_camera_pose cam bag ≠ []) :
    ∃ s, extractPoses w flags cam bag = .ok s ∧ ∃ R : List StampedPose,
      posesFromTable false s.files.camera_pose_timestamped = .ok (R, R.map StampedPose.t, R.map fun r => r.pose.q) ∧
      posesFromTable true s.files.camera_pose_timestamped =
        .ok (R, R.map StampedPose.t, R.map fun r => mirrored r.pose.q) ∧
      List.Forall₂ (fun (row : StampedPose) m => row.t = m.1.stamp ∧ IsCameraPose w cam 1 m row.pose) R
        (goodImages w flags.inlier_ratio_for_good_camera_pose cam bag) := by
  obtain ⟨s, hs, -, h, -⟩ := C86_rows w flags cam bag hw
  refine ⟨s, hs, ?_⟩
  have hne : s.files.camera_pose_timestamped ≠ [] := by
    intro h0
    rw [h0] at h
    exact hg (List.forall₂_nil_left_iff.mp h)
  have hu : ∀ p ∈ s.files.camera_pose_timestamped, normSq p.pose.q.toH = 1 := by
    intro p hp
    obtain ⟨i, hi, rfl⟩ := List.mem_iff_getElem.mp hp
    have hm := (List.forall₂_iff_get.mp h).2 i hi ((List.forall₂_iff_get.mp h).1 ▸ hi)
    obtain ⟨-, c, -, hq, -⟩ := hm
    exact hq.1
  obtain ⟨R, hR, h1, h2⟩ := posesFromTable_ok hne fun p hp h0 => by
    have := hu p hp
    rw [h0, Quat.toH_zero, map_zero] at this
    exact zero_ne_one this
  have hE : R = s.files.camera_pose_timestamped := by
    have : List.Forall₂ (fun a b => a = b) s.files.camera_pose_timestamped R := by
      refine List.forall₂_iff_get.mpr ⟨hR.length_eq, fun i h1 h2 => ?_⟩
      obtain ⟨ht, hp, hq⟩ := (List.forall₂_iff_get.mp hR).2 i h1 h2
      have hq := unit_of_unitMultiple (hu _ (List.get_mem _ _)) hq
      generalize R.get ⟨i, h2⟩ = r at *
      generalize s.files.camera_pose_timestamped.get ⟨i, h1⟩ = p at *
      obtain ⟨t, pos, q⟩ := r
      obtain ⟨t', pos', q'⟩ := p
      dsimp only at *
      rw [ht, hp, hq]
    rw [List.forall₂_eq_eq_eq] at this
    exact this.symm
  exact ⟨R, h1, h2, hE ▸ h⟩

/-- C86, reading: without a header, and not as JPL quaternions, the time-stamped file gives, for each good image, its time
stamp and a pose that takes coordinates of the camera to coordinates of the target (`T_G_C`). -/
theorem C86_read (w : ExtractorWorld image camera) (flags : ExtractorFlags) (cam : camera)
    (bag : List (ImageMessage image)) (hw : EigenWorks w flags.inlier_ratio_for_good_camera_pose cam bag)
    (hg : goodImages w flags.inlier_ratio_for_good_camera_pose cam bag ≠ []) :
    ∃ s, extractPoses w flags cam bag = .ok s ∧ ∃ R : List StampedPose,
      posesFromTable false s.files.camera_pose_timestamped = .ok (R, R.map StampedPose.t, R.map fun r => r.pose.q) ∧
      List.Forall₂ (fun (row : StampedPose) m => row.t = m.1.stamp ∧ ∃ corners, w.detect m.1.image = some corners ∧
        ∀ x, poseMotion row.pose x = placed (w.pnp cam m.2 corners).rotation (w.pnp cam m.2 corners).position x) R
        (goodImages w flags.inlier_ratio_for_good_camera_pose cam bag) := by
  obtain ⟨s, hs, R, h1, -, h⟩ := extracted_read w flags cam bag hw hg
  refine ⟨s, hs, R, h1, h.imp fun row m hm => ⟨hm.1, ?_⟩⟩
  obtain ⟨c, hd, hq, -, hp⟩ := hm.2
  refine ⟨c, hd, fun x => ?_⟩
  rw [poseMotion_placed hq, hp]
  congr 1
  ext <;> simp

/-- C86, reading as JPL quaternions, which is the documented format: the returned quaternions are those of the inverse
rotation (`T_C_G`), while the positions are still those of `T_G_C`. -/
theorem C86_jpl (w : ExtractorWorld image camera) (flags : ExtractorFlags) (cam : camera)
    (bag : List (ImageMessage image)) (hw : EigenWorks w flags.inlier_ratio_for_good_camera_pose cam bag)
    (hg : goodImages w flags.inlier_ratio_for_good_camera_pose cam bag ≠ []) :
    ∃ s, extractPoses w flags cam bag = .ok s ∧ ∃ (R : List StampedPose) (ts : List ℝ) (qs : List Quat),
      posesFromTable true s.files.camera_pose_timestamped = .ok (R, ts, qs) ∧
      List.Forall₂ (fun (row : StampedPose × Quat) m => ∃ corners, w.detect m.1.image = some corners ∧
        ∀ x, poseMotion ⟨row.1.pose.pos, row.2⟩ x =
          placed (w.pnp cam m.2 corners).rotation.transpose (w.pnp cam m.2 corners).position x) (R.zip qs)
        (goodImages w flags.inlier_ratio_for_good_camera_pose cam bag) := by
  obtain ⟨s, hs, R, -, h1, h⟩ := extracted_read w flags cam bag hw hg
  refine ⟨s, hs, R, _, _, h1, ?_⟩
  have hz : R.zip (R.map fun r => mirrored r.pose.q) = R.map fun r => (r, mirrored r.pose.q) := by
    rw [List.zip_map_right]
    induction R with
    | nil => rfl
    | cons r R ih => simp [List.zip]
  rw [hz, List.forall₂_map_left_iff]
  refine h.imp fun row m hm => ?_
  obtain ⟨c, hd, hq, -, hp⟩ := hm.2
  refine ⟨c, hd, fun x => ?_⟩
  rw [poseMotion_placed (p := ⟨row.pose.pos, mirrored row.pose.q⟩) (isQuaternionOf_mirrored hq)]
  dsimp only
  rw [hp]
  congr 1
  ext <;> simp

/-! ## An example -/

/-- A rotation about the third axis with cosine 7/25. -/
noncomputable def exampleRotation : Matrix (Fin 3) (Fin 3) ℝ := !![7 / 25, -24 / 25, 0; 24 / 25, 7 / 25, 0; 0, 0, 1]

/-- A world in which the first image does not show the target, the pose is not found in the second one, and the quaternion has
a negative scalar part. -/
noncomputable def exampleExtractor : ExtractorWorld ℕ Unit where
  detect i := if i = 0 then none else some [⟨7, (320, 240), ⟨0, 0, 0⟩⟩]
  pnp _ k _ := ⟨decide (2 ≤ k), exampleRotation, ⟨1, 0, 0⟩, [0]⟩
  eigenQuaternion _ := ⟨0, 0, -(3 / 5), -(4 / 5)⟩
  project _ p := ((p.x, p.y), true)
  deserialize c _ := c

/-- Three images. -/
noncomputable def exampleBag : List (ImageMessage ℕ) := [⟨10, 0⟩, ⟨11, 1⟩, ⟨12, 2⟩]

theorem example_good : goodImages exampleExtractor 0.4 () exampleBag = [(⟨12, 2⟩, 2)] := by
  classical
  have h0 : ¬ GoodImage exampleExtractor 0.4 () (⟨10, 0⟩, 0) := by
    rintro ⟨c, hc, -⟩; simp [exampleExtractor] at hc
  have h1 : ¬ GoodImage exampleExtractor 0.4 () (⟨11, 1⟩, 1) := by
    rintro ⟨c, -, hc, -⟩; simp [exampleExtractor] at hc
  have h2 : GoodImage exampleExtractor 0.4 () (⟨12, 2⟩, 2) :=
    ⟨_, rfl, by simp [exampleExtractor], by simp, by simp [exampleExtractor]; norm_num⟩
  unfold goodImages exampleBag
  rw [List.zipIdx_cons, List.zipIdx_cons, List.zipIdx_cons, List.zipIdx_nil]
  rw [List.filter_cons_of_neg (by simpa using h0), List.filter_cons_of_neg (by simpa using h1),
    List.filter_cons_of_pos (by simpa using h2), List.filter_nil]

theorem example_eigen : EigenWorks exampleExtractor 0.4 () exampleBag := by
  intro m _ c _
  rw [isQuaternionOf_iff]
  simp [exampleExtractor, exampleRotation]
  norm_num

/-- The row of the third image, with its scalar part made positive. -/
example : ∃ s, extractPoses exampleExtractor { eval_camera_yaml := ['c'] } () exampleBag = .ok s ∧
    (s.files.camera_pose.map Prod.fst = [2]) ∧ s.files.camera_pose_timestamped.map StampedPose.t = [12] := by
  obtain ⟨s, hs, h1, h2, -⟩ := C86_rows exampleExtractor { eval_camera_yaml := ['c'] } () exampleBag example_eigen
  refine ⟨s, hs, ?_, ?_⟩
  · dsimp only at h1
    rw [example_good] at h1
    generalize s.files.camera_pose = l at h1
    cases h1 with
    | cons h h' => cases h'; simp [h.1]
  · dsimp only at h2
    rw [example_good] at h2
    generalize s.files.camera_pose_timestamped = l at h2
    cases h2 with
    | cons h h' => cases h'; simp [h.1]

/-- Three images, two with the target, one good. -/
example : ∃ s, extractPoses exampleExtractor {} () exampleBag = .ok s ∧ s.frame_id = 3 ∧
    s.number_observation_success = 2 ∧ s.number_pnp_success = 1 ∧ s.number_of_good_camera_poses = 1 := by
  obtain ⟨s, hs, h1, h2, h3, h4⟩ := C86_counts exampleExtractor {} () exampleBag
  refine ⟨s, hs, h1, ?_, ?_, ?_⟩
  · rw [h2]; simp [exampleExtractor, exampleBag]
  · rw [h3]; simp [exampleExtractor, exampleBag, pnpSucceeds, List.zipIdx_cons]
  · rw [h4]; dsimp only; rw [example_good]; rfl

/-- The corner is reported for both images that show the target. -/
example : ∃ s, extractPoses exampleExtractor {} () exampleBag = .ok s ∧
    s.files.reprojections.map (fun r => (r.frame_id, r.corner_id)) = [(1, 7), (2, 7)] := by
  obtain ⟨s, hs, h⟩ := C86_reprojections exampleExtractor {} () exampleBag (by
    intro m _ c _
    ext i j
    fin_cases i <;> fin_cases j <;>
      simp [exampleExtractor, exampleRotation, Matrix.mul_apply, Fin.sum_univ_three] <;> norm_num)
  refine ⟨s, hs, ?_⟩
  have hc : observedCorners exampleExtractor exampleBag =
      [(1, [⟨7, (320, 240), ⟨0, 0, 0⟩⟩], ⟨7, (320, 240), ⟨0, 0, 0⟩⟩, 0),
       (2, [⟨7, (320, 240), ⟨0, 0, 0⟩⟩], ⟨7, (320, 240), ⟨0, 0, 0⟩⟩, 0)] := by
    simp [observedCorners, exampleExtractor, exampleBag, List.zipIdx_cons]
  rw [hc] at h
  generalize s.files.reprojections = l at h
  cases h with
  | cons h1 h =>
    cases h with
    | cons h2 h => cases h; simp [h1.1, h1.2.1, h2.1, h2.2.1]

/-! ## What is wrong -/

/-- C86 fails for the documented format: there is a bag whose file, read as JPL quaternions, gives a pose that is neither the
pose of the camera in the frame of the target nor its inverse. -/
theorem C86_jpl_refuted : ∃ (w : ExtractorWorld ℕ Unit) (flags : ExtractorFlags) (bag : List (ImageMessage ℕ))
    (s : ExtractorState) (row : StampedPose) (q : Quat) (ts : List ℝ) (m : ImageMessage ℕ × ℕ) (corners : List Corner),
    extractPoses w flags () bag = .ok s ∧ posesFromTable true s.files.camera_pose_timestamped = .ok ([row], ts, [q]) ∧
    goodImages w flags.inlier_ratio_for_good_camera_pose () bag = [m] ∧ w.detect m.1.image = some corners ∧
    (∃ x, poseMotion ⟨row.pose.pos, q⟩ x ≠ placed (w.pnp () m.2 corners).rotation (w.pnp () m.2 corners).position x) ∧
    ∃ x, poseMotion ⟨row.pose.pos, q⟩ (placed (w.pnp () m.2 corners).rotation (w.pnp () m.2 corners).position x) ≠ x := by
  have hg : goodImages exampleExtractor (0.4 : ℝ) () exampleBag ≠ [] := by rw [example_good]; simp
  obtain ⟨s, hs, R, -, h1, h2⟩ := extracted_read exampleExtractor {} () exampleBag example_eigen hg
  dsimp only at h2
  rw [example_good] at h2
  cases h2 with
  | @cons row _ _ _ h h' =>
    cases h'
    obtain ⟨c, hd, hq, -, hp⟩ := h.2
    have hm := poseMotion_placed (p := ⟨row.pose.pos, mirrored row.pose.q⟩) (isQuaternionOf_mirrored hq)
    refine ⟨exampleExtractor, {}, exampleBag, s, row, mirrored row.pose.q, _, _, c, hs, h1, example_good, hd,
      ⟨⟨1, 0, 0⟩, fun h => ?_⟩, ⟨⟨0, 0, 0⟩, fun h => ?_⟩⟩
    · rw [hm] at h
      have := congrArg Vec3.y h
      simp [placed, exampleExtractor, exampleRotation, hp] at this
      norm_num at this
    · rw [hm] at h
      have := congrArg Vec3.x h
      simp [placed, exampleExtractor, exampleRotation, hp] at this
      norm_num at this

/-- C86 fails with the default flags: the header makes the file unreadable, whatever follows it. -/
theorem C86_header_refuted (rest : Text) (JPL_quaternion_format : Bool) :
    readTimeStampedPoses (timestampedHeader ++ rest) JPL_quaternion_format = .error .value := by
  have hl : splitChar '\n' (timestampedHeader ++ rest) = headerLine :: splitChar '\n' rest := by
    have : timestampedHeader ++ rest = headerLine ++ '\n' :: rest := by
      unfold timestampedHeader; rw [List.append_assoc]; rfl
    rw [this, splitChar_append (by decide)]
  have hf : ∃ ls, fileLines (timestampedHeader ++ rest) = headerLine :: ls := by
    unfold fileLines
    rw [hl]
    dsimp only
    split_ifs with h
    · cases hr : splitChar '\n' rest with
      | nil => exact absurd hr (splitChar_ne_nil _ _)
      | cons a b => exact ⟨_, List.dropLast_cons_of_ne_nil (by simp)⟩
    · exact ⟨_, rfl⟩
  obtain ⟨ls, hf⟩ := hf
  have hp : parseFloat ['t', 'i', 'm', 'e', 's', 't', 'a', 'm', 'p'] = .error .value := by
    unfold parseFloat
    rw [show strip ['t', 'i', 'm', 'e', 's', 't', 'a', 'm', 'p'] = ['t', 'i', 'm', 'e', 's', 't', 'a', 'm', 'p'] by decide]
    show parseUnsigned ['t', 'i', 'm', 'e', 's', 't', 'a', 'm', 'p'] = _
    unfold parseUnsigned
    rw [show parseNat (['t', 'i', 'm', 'e', 's', 't', 'a', 'm', 'p'].takeWhile (· ≠ '.')) = none by decide]
  have hc : ∃ cs, splitChar ',' headerLine = ['t', 'i', 'm', 'e', 's', 't', 'a', 'm', 'p'] :: cs := by
    refine ⟨splitChar ',' (headerLine.drop 10), ?_⟩
    rw [← splitChar_append (by decide) (headerLine.drop 10)]; rfl
  obtain ⟨cs, hc⟩ := hc
  unfold readTimeStampedPoses readTable
  rw [hf, Py.mapM_cons, hc, Py.mapM_cons, hp]
  rfl

/-- C86 fails for the program as a whole: there is no camera when it is loaded, so that the program ends before the first
pose, whatever the images; without a camera file it ends without writing any pose. -/
theorem C86_main_refuted (w : ExtractorWorld image camera) (flags : ExtractorFlags) (bag : List (ImageMessage image))
    (files : ExtractorFiles) : targetExtractorMain w flags bag ≠ .ok (some files) := by
  unfold targetExtractorMain derefPointer
  split_ifs
  · simp [Py.pure_eq]
  · simp

/-- In detail. -/
theorem C86_main (w : ExtractorWorld image camera) (flags : ExtractorFlags) (bag : List (ImageMessage image)) :
    targetExtractorMain w flags bag = if flags.eval_camera_yaml = [] then .ok none else .error .type := by
  unfold targetExtractorMain derefPointer
  split_ifs <;> rfl

/-- The interface asks for no header, but gives a camera file, so that it meets the missing camera. -/
theorem C86_interface (w : ExtractorWorld image camera) (bag_path : Text) (topic calib out : Text) (y : AprilTarget)
    (bag : List (ImageMessage image)) (h : calib ≠ []) :
    (callTargetExtractor bag_path (extractorConfig bag_path topic calib out y)).write_csv_header = false ∧
      targetExtractorMain w (callTargetExtractor bag_path (extractorConfig bag_path topic calib out y)) bag =
        .error .type := by
  refine ⟨rfl, ?_⟩
  rw [C86_main, if_neg]
  exact h

end HandEye
