import Verif.Lemmas.Export

/-!
# C81: the export of bags writes the table of every configured source to a file of its own
-/

namespace HandEye

open Spec

/-- C81, with plain names: every source that the tools can read is in a file of its own, and the script ends without an
exception.  Missing: names that give two sources the same file, see `C81_names_refuted`. -/
theorem C81_exported_partial {τ : Type} (w : ExportWorld τ) (bags : List BagEntry) (fs : FileTable τ)
    (hl : ∀ b ∈ bags, EqualLengths b) (hp : PlainNames bags) :
    ∃ fs', exportScript w (some bags) fs = (fs', none) ∧ ∃ file : PoseSource → Text,
      (∀ s ∈ configured bags, ∀ s' ∈ configured bags, file s = file s' → s = s') ∧
      ∀ s ∈ configured bags, Available w s → ∃ t, IsTable w s t ∧ fs' (file s) = some t := by
  refine ⟨_, by unfold exportScript; dsimp only; rw [exportCalls_ok bags hl], sourceFile, fun s hs s' hs' h => sourceFile_inj hp hs hs' h,
    fun s hs ha => ?_⟩
  obtain ⟨t, hm, ht, hu⟩ := callWrites_available ha
  refine ⟨t, ht, ?_⟩
  rw [foldl_runCall]
  apply writeAll_mem
  · simp only [List.mem_flatMap, List.mem_map]
    exact ⟨_, ⟨s, hs, rfl⟩, hm⟩
  · intro e he hn
    simp only [List.mem_flatMap, List.mem_map] at he
    obtain ⟨c, ⟨s', hs', rfl⟩, hc⟩ := he
    rcases mem_callWrites hc with ⟨h1, _⟩ | h1
    · have : s = s' := sourceFile_inj hp hs hs' (hn.symm.trans h1)
      subst this
      exact hu e hc hn
    · exact absurd (h1.symm.trans hn) (sequenced_ne_sourceFile hp hs _)

/-- Whatever the configuration, the script changes no file whose name does not end with `.csv`. -/
theorem C81_only_tables {τ : Type} (w : ExportWorld τ) (yaml_content : Option (List BagEntry)) (fs : FileTable τ) (n : Text)
    (hn : ¬ ['.', 'c', 's', 'v'] <:+ n) : (exportScript w yaml_content fs).1 n = fs n := by
  cases yaml_content with
  | none => rfl
  | some bags =>
    show List.foldl (runCall w) fs (exportCalls bags).1 n = fs n
    rw [foldl_runCall]
    apply writeAll_other
    intro e he hen
    obtain ⟨c, hc, hm⟩ := List.mem_flatMap.mp he
    obtain ⟨s, rfl⟩ := exportCalls_mem hc
    rcases mem_callWrites hm with ⟨h, _⟩ | h
    · exact hn (hen ▸ h ▸ sourceFile_csv s)
    · exact hn (hen ▸ h ▸ (sourceFile_csv s).trans (List.suffix_append _ _))

/-- Tools that fail are not noticed: if none of them works, nothing is written, and the script ends as if all was well. -/
theorem C81_failures_refuted {τ : Type} (bags : List BagEntry) (hl : ∀ b ∈ bags, EqualLengths b) (fs : FileTable τ) :
    exportScript ⟨fun _ _ _ => none, fun _ => none, fun _ => none⟩ (some bags) fs = (fs, none) := by
  unfold exportScript
  dsimp only
  rw [exportCalls_ok bags hl]
  simp only [foldl_runCall]
  congr 1
  have h : ((configured bags).map sourceCall).flatMap
      (callWrites (τ := τ) ⟨fun _ _ _ => none, fun _ => none, fun _ => none⟩) = [] := by
    rw [List.flatMap_eq_nil_iff]
    intro c hc
    obtain ⟨s, _, rfl⟩ := List.mem_map.mp hc
    cases s <;> rfl
  rw [h]
  rfl

/-- The first bag whose lists of frames have different lengths ends the script.  The bags before it are exported, nothing
else is. -/
theorem C81_unequal_frames {τ : Type} (w : ExportWorld τ) (as cs : List BagEntry) (b : BagEntry) (f : TfFrames)
    (fs : FileTable τ) (ha : ∀ a ∈ as, EqualLengths a) (hf : b.tf_frames = some f)
    (hne : f.source.length ≠ f.target.length) :
    exportScript w (some (as ++ b :: cs)) fs = ((exportScript w (some as) fs).1, some .assertion) := by
  have hb : exportCalls (b :: cs) = ([], some .assertion) := by
    simp only [exportCalls, bagCalls, tfCalls, hf, pyAssert_neg hne, Py.error_bind]
  unfold exportScript
  dsimp only
  rw [exportCalls_append as _ ha, hb, exportCalls_ok as ha, List.append_nil]

/-- Lists of cameras with different lengths are noticed after the frames of the bag are exported. -/
theorem C81_unequal_cameras {τ : Type} (w : ExportWorld τ) (as cs : List BagEntry) (b : BagEntry) (c : Cameras)
    (fs : FileTable τ) (ha : ∀ a ∈ as, EqualLengths a)
    (hf : ∀ f, b.tf_frames = some f → f.source.length = f.target.length) (hc : b.cameras = some c)
    (hne : c.cam_topics.length ≠ c.cam_intrinsics.length) :
    exportScript w (some (as ++ b :: cs)) fs =
      ((exportScript w (some (as ++ [{ b with cameras := none }])) fs).1, some .assertion) := by
  have h1 := tfCalls_ok b hf
  have h2 : tfCalls { b with cameras := none } = tfCalls b := rfl
  generalize hl : ((match b.tf_frames with
      | none => []
      | some f => List.zipWith (fun s t => PoseSource.tf b.bag_path b.name s t) f.source f.target).map sourceCall) = l at h1
  have hb : exportCalls (b :: cs) = (l, some .assertion) := by
    simp only [exportCalls, bagCalls, h1, cameraCalls, hc, pyAssert_neg hne, Py.error_bind]
  have hb' : exportCalls [{ b with cameras := none }] = (l, none) := by
    simp only [exportCalls, bagCalls, h2, h1, cameraCalls, List.append_nil]
  unfold exportScript
  dsimp only
  rw [exportCalls_append as _ ha, hb, exportCalls_append as _ ha, hb']

/-- A configuration that yaml rejects is a NameError. -/
theorem C81_no_yaml {τ : Type} (w : ExportWorld τ) (fs : FileTable τ) : exportScript w none fs = (fs, some .name) := rfl

/-- Of two sources with the same file only the later one is kept. -/
theorem C81_shared_file {τ : Type} (w : ExportWorld τ) (p n s t p' n' s' t' : Text) (ip tp tg : Text) (x x' : τ)
    (hf : tfOutputFile n t s = tfOutputFile n' t' s') (hx : w.tf_to_csv (p ++ n) s t = some x)
    (hx' : w.tf_to_csv (p' ++ n') s' t' = some x') (hne : x ≠ x') (file : Text) :
    (exportScript w (some [⟨n, p, ip, tp, some ⟨[s], [t]⟩, none, tg⟩, ⟨n', p', ip, tp, some ⟨[s'], [t']⟩, none, tg⟩])
      (fun _ => none)).1 file ≠ some x := by
  show List.foldl (runCall w) (fun _ => none) (exportCalls _).1 file ≠ some x
  rw [exportCalls_ok _ (by
    intro b hb
    simp only [List.mem_cons, List.not_mem_nil, or_false] at hb
    rcases hb with rfl | rfl <;>
    · refine ⟨fun f hf => ?_, fun c hc => by simp at hc⟩
      simp only [Option.some.injEq] at hf
      subst hf; rfl), foldl_runCall]
  have : (List.map sourceCall (configured [⟨n, p, ip, tp, some ⟨[s], [t]⟩, none, tg⟩,
      ⟨n', p', ip, tp, some ⟨[s'], [t']⟩, none, tg⟩])).flatMap (callWrites w) =
      [(tfOutputFile n t s, x), (tfOutputFile n' t' s', x')] := by
    simp [configured, sourcesOf, callWrites_tf, hx, hx']
  rw [this, hf]
  show (if file = tfOutputFile n' t' s' then some x' else if file = tfOutputFile n' t' s' then some x else none) ≠ some x
  by_cases h : file = tfOutputFile n' t' s'
  · simp only [if_pos h, ne_eq, Option.some.injEq]; exact hne.symm
  · simp only [if_neg h, ne_eq, reduceCtorEq, not_false_eq_true]

/-- Sources that share a file: bags in different directories with the same name, bags whose names differ after the first
dot only, underscores in the names of frames, topics that differ by `/` and `_` or, without leading `/`, in their first
letter. -/
theorem C81_shared_names :
    (∀ p p' n s t, sourceFile (.tf p n s t) = sourceFile (.tf p' n s t)) ∧
    (∀ s t, tfOutputFile "run.1.bag".toList t s = tfOutputFile "run.2.bag".toList t s) ∧
    (∀ n, tfOutputFile n "map_left".toList "cam".toList = tfOutputFile n "map".toList "left_cam".toList) ∧
    (∀ n, cameraOutputFile n "/cam/left".toList = cameraOutputFile n "/cam_left".toList) ∧
    (∀ n, cameraOutputFile n "cam0".toList = cameraOutputFile n "ram0".toList) ∧
    (∀ n, cameraOutputFile n "/cam".toList = tfOutputFile n "W".toList "cam".toList) := by
  refine ⟨fun _ _ _ _ _ => rfl, fun s t => ?_, fun n => ?_, fun n => ?_, fun n => ?_, fun n => ?_⟩
  · have : stem "run.1.bag".toList = stem "run.2.bag".toList := by decide
    rw [tfOutputFile_eq, tfOutputFile_eq, this]
  all_goals simp [tfOutputFile, cameraOutputFile, topicText]

/-- C81 does not hold in general: two bags with the same name in different directories. -/
theorem C81_names_refuted :
    ¬ ∀ (w : ExportWorld Text) (bags : List BagEntry), (∀ b ∈ bags, EqualLengths b) →
      (∀ s ∈ configured bags, Available w s) → ∀ s ∈ configured bags, ∃ file t, IsTable w s t ∧
        (exportScript w (some bags) fun _ => none).1 file = some t := by
  intro h
  let w : ExportWorld Text := ⟨fun b _ _ => some b, fun _ => none, fun _ => none⟩
  let a : BagEntry := ⟨"run.bag".toList, "/monday/".toList, [], [], some ⟨["cam".toList], ["map".toList]⟩, none, []⟩
  let b : BagEntry := ⟨"run.bag".toList, "/friday/".toList, [], [], some ⟨["cam".toList], ["map".toList]⟩, none, []⟩
  have hl : ∀ c ∈ [a, b], EqualLengths c := by
    intro c hc
    simp only [List.mem_cons, List.not_mem_nil, or_false] at hc
    rcases hc with rfl | rfl <;>
    · refine ⟨fun f hf => ?_, fun c hc => by simp [a, b] at hc⟩
      simp only [a, b, Option.some.injEq] at hf
      subst hf; rfl
  have hc : configured [a, b] = [.tf "/monday/".toList "run.bag".toList "cam".toList "map".toList,
      .tf "/friday/".toList "run.bag".toList "cam".toList "map".toList] := rfl
  obtain ⟨file, t, ht, hfile⟩ := h w [a, b] hl (by rw [hc]; simp [Available, w]) _ (by rw [hc]; exact List.mem_cons_self)
  have ht' : t = "/monday/".toList ++ "run.bag".toList := by
    simp only [IsTable, w, Option.some.injEq] at ht
    exact ht.symm
  subst ht'
  exact C81_shared_file w "/monday/".toList "run.bag".toList "cam".toList "map".toList "/friday/".toList "run.bag".toList
    "cam".toList "map".toList [] [] [] _ _ rfl rfl rfl (by decide) file hfile

/-- The inlier ratio of the configuration has no effect: the target extractor always uses its own default, so that poses
with at most four inliers out of ten are dropped although the configuration accepts all. -/
theorem C81_inlier_ratio_refuted (bag_path : Text) (c : TargetExtractorConfig) (r : ℝ) :
    callTargetExtractor bag_path { c with inlier_ratio_for_good_camera_pose := r } = callTargetExtractor bag_path c ∧
      (callTargetExtractor bag_path c).inlier_ratio_for_good_camera_pose = 0.4 ∧
      ({} : TargetExtractorConfig).inlier_ratio_for_good_camera_pose = 0 :=
  ⟨rfl, rfl, rfl⟩

/-- `call_target_extractor` reads the bag of the global variable, not that of the configuration it is given. -/
theorem C81_global_bag_refuted : ∃ (bag_path : Text) (c : TargetExtractorConfig),
    (callTargetExtractor bag_path c).bag ≠ c.bag_file_name :=
  ⟨['a'], {}, by simp [callTargetExtractor]⟩

/-- Two bags of `configs/falcon.yaml`. -/
def falconBag (name : Text) : BagEntry where
  name := name
  bag_path := "/datasets/".toList
  intrinsics_path := "/calib/".toList
  target_config_path := "/calib/".toList
  tf_frames := some ⟨["vicon".toList, "odom".toList], ["falcon".toList, "imu".toList]⟩
  cameras := some ⟨["/falcon/fisheye/fisheye".toList, "/falcon/color/color".toList],
    ["falcon_fisheye.yaml".toList, "falcon_color.yaml".toList]⟩
  target := "target.yaml".toList

/-- The configuration of the repository has plain names. -/
theorem falcon_plain : PlainNames [falconBag "1_falcon_merged-2017-04-07-12-16-44.bag".toList,
    falconBag "3_falcon_merged-2017-04-07-12-22-23.bag".toList] where
  bags_differ := by decide
  stem_plain := by decide
  frames_plain := by
    intro b hb f hf
    simp only [List.mem_cons, List.not_mem_nil, or_false] at hb
    rcases hb with rfl | rfl <;>
    · simp only [falconBag, Option.some.injEq] at hf
      subst hf
      decide
  topics_plain := by
    intro b hb c hc
    simp only [List.mem_cons, List.not_mem_nil, or_false] at hb
    rcases hb with rfl | rfl <;>
    · simp only [falconBag, Option.some.injEq] at hc
      subst hc
      decide
  topics_differ := by
    intro p n x i g h x' i' g' h' hf
    simp only [configured, falconBag, sourcesOf, List.flatMap_cons, List.flatMap_nil, List.zipWith_cons_cons,
      List.zipWith_nil_left, List.append_nil, List.cons_append, List.nil_append, List.mem_cons, reduceCtorEq,
      PoseSource.camera.injEq, false_or, List.not_mem_nil, or_false] at h h'
    rcases h with h | h | h | h <;> rcases h' with h' | h' | h' | h' <;> obtain ⟨rfl, rfl, rfl, rfl, rfl⟩ := h <;>
      obtain ⟨_, hn, rfl, rfl, rfl⟩ := h' <;>
      first
      | exact absurd (congrArg List.head? hn) (by decide)
      | exact absurd (congrArg List.length hf) (by decide)
      | exact ⟨rfl, rfl, rfl⟩

/-- Both bags are exported: the eight tables are in eight files. -/
example (w : ExportWorld Text) (hw : ∀ s ∈ configured [falconBag "1_falcon_merged-2017-04-07-12-16-44.bag".toList,
      falconBag "3_falcon_merged-2017-04-07-12-22-23.bag".toList], Available w s) :
    ∃ fs', exportScript w (some [falconBag "1_falcon_merged-2017-04-07-12-16-44.bag".toList,
      falconBag "3_falcon_merged-2017-04-07-12-22-23.bag".toList]) (fun _ => none) = (fs', none) ∧
      ∃ file t, w.tf_to_csv ("/datasets/".toList ++ "3_falcon_merged-2017-04-07-12-22-23.bag".toList) "odom".toList
        "imu".toList = some t ∧ fs' file = some t := by
  obtain ⟨fs', h, file, _, ht⟩ := C81_exported_partial w _ (fun _ => none) (by
    intro b hb
    simp only [List.mem_cons, List.not_mem_nil, or_false] at hb
    rcases hb with rfl | rfl <;>
    · refine ⟨fun f hf => ?_, fun c hc => ?_⟩
      · simp only [falconBag, Option.some.injEq] at hf
        subst hf; rfl
      · simp only [falconBag, Option.some.injEq] at hc
        subst hc; rfl) falcon_plain
  have hm : PoseSource.tf "/datasets/".toList "3_falcon_merged-2017-04-07-12-22-23.bag".toList "odom".toList
      "imu".toList ∈ configured [falconBag "1_falcon_merged-2017-04-07-12-16-44.bag".toList,
      falconBag "3_falcon_merged-2017-04-07-12-22-23.bag".toList] := by
    simp [configured, falconBag, sourcesOf]
  obtain ⟨t, h1, h2⟩ := ht _ hm (hw _ hm)
  exact ⟨fs', h, _, t, h1, h2⟩

end HandEye
