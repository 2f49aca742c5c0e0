import Verif.Spec.Export
import Verif.Lemmas.Py
import Verif.Lemmas.Csv

/-!
# Lemmas about the export of bags
-/

namespace HandEye

open Spec

/-! ## Names -/

theorem splitChar_head (c : Char) (s : Text) : (splitChar c s).headD [] = s.takeWhile (· ≠ c) := by
  induction s with
  | nil => rfl
  | cons x xs ih =>
    by_cases h : x = c
    · subst h; simp [splitChar]
    · simp only [splitChar, if_neg h]
      cases h2 : splitChar c xs with
      | nil => simp [h2] at ih; simp [h, ← ih]
      | cons l ls => simp [h2] at ih; simp [h, ih]

theorem bagNameWithoutSuffix_eq (name : Text) : bagNameWithoutSuffix name = stem name :=
  splitChar_head _ _

/-- The last occurrence of a character splits a text in one way only. -/
theorem split_last {c : Char} {a b x y : Text} (h : a ++ c :: x = b ++ c :: y) (hx : c ∉ x) (hy : c ∉ y) :
    a = b ∧ x = y := by
  rcases List.append_eq_append_iff.mp h with ⟨d, hd, he⟩ | ⟨d, hd, he⟩
  · cases d with
    | nil => simp at hd he; exact ⟨hd.symm, he⟩
    | cons k ks =>
      simp at he
      exact absurd (he.2 ▸ by simp) hx
  · cases d with
    | nil => simp at hd he; exact ⟨hd, he.symm⟩
    | cons k ks =>
      simp at he
      exact absurd (he.2 ▸ by simp) hy

theorem tfOutputFile_eq (n t s : Text) :
    tfOutputFile n t s = ((stem n ++ '_' :: t) ++ '_' :: s) ++ ['.', 'c', 's', 'v'] := by
  simp [tfOutputFile, bagNameWithoutSuffix_eq]

theorem cameraOutputFile_eq (n x : Text) :
    cameraOutputFile n x = ((stem n ++ ['_']) ++ 'W' :: ('_' :: topicText x)) ++ ['.', 'c', 's', 'v'] := by
  simp [cameraOutputFile, bagNameWithoutSuffix_eq]

theorem tfOutputFile_inj {n t s n' t' s' : Text} (h : tfOutputFile n t s = tfOutputFile n' t' s')
    (ht : '_' ∉ t) (hs : '_' ∉ s) (ht' : '_' ∉ t') (hs' : '_' ∉ s') : stem n = stem n' ∧ t = t' ∧ s = s' := by
  rw [tfOutputFile_eq, tfOutputFile_eq] at h
  obtain ⟨h1, h2⟩ := split_last (List.append_cancel_right h) hs hs'
  obtain ⟨h3, h4⟩ := split_last h1 ht ht'
  exact ⟨h3, h4, h2⟩

theorem not_mem_topicText {x : Text} (h : 'W' ∉ x) : 'W' ∉ topicText x := by
  intro hm
  have := List.mem_of_mem_drop hm
  obtain ⟨c, hc, he⟩ := List.mem_map.mp this
  by_cases h2 : c = '/'
  · simp [h2] at he
  · simp [h2] at he; exact h (he ▸ hc)

theorem cameraOutputFile_inj {n x n' x' : Text} (h : cameraOutputFile n x = cameraOutputFile n' x')
    (hx : 'W' ∉ x) (hx' : 'W' ∉ x') : stem n = stem n' ∧ topicText x = topicText x' := by
  rw [cameraOutputFile_eq, cameraOutputFile_eq] at h
  have h1 := split_last (List.append_cancel_right h) (by simp [not_mem_topicText hx]) (by simp [not_mem_topicText hx'])
  simpa using h1

theorem topicText_inj {x x' : Text} (h : topicText x = topicText x') (hx : x.head? = some '/')
    (hx' : x'.head? = some '/') : flat x = flat x' := by
  cases x with
  | nil => simp at hx
  | cons a as =>
    cases x' with
    | nil => simp at hx'
    | cons b bs =>
      simp only [List.head?_cons, Option.some.injEq] at hx hx'
      subst hx hx'
      simpa [topicText, flat] using h

theorem tf_ne_camera {n t s n' x : Text} (hn : 'W' ∉ stem n) (ht : 'W' ∉ t) (hs : 'W' ∉ s) :
    tfOutputFile n t s ≠ cameraOutputFile n' x := by
  intro h
  have h1 : 'W' ∈ tfOutputFile n t s := by rw [h, cameraOutputFile_eq]; simp
  rw [tfOutputFile_eq] at h1
  simp [hn, ht, hs] at h1

theorem sequenced_ne {n y z : Text} (hn : ¬ ['s', 'e', 'q', 'u', 'e', 'n', 'c', 'e', 'd'] <+: stem n) :
    sequencedPrefix ++ z ≠ stem n ++ '_' :: y := by
  intro h
  have hp : sequencedPrefix = ['s', 'e', 'q', 'u', 'e', 'n', 'c', 'e', 'd'] ++ ['_'] := rfl
  rw [hp, List.append_assoc] at h
  rcases List.append_eq_append_iff.mp h with ⟨d, hd, _⟩ | ⟨d, hd, he⟩
  · exact hn ⟨d, hd.symm⟩
  · cases d with
    | nil => exact hn ⟨[], by simpa using hd⟩
    | cons k ks =>
      simp only [List.cons_append, List.cons.injEq] at he
      have : '_' ∈ (['s', 'e', 'q', 'u', 'e', 'n', 'c', 'e', 'd'] : Text) := by
        rw [hd, ← he.1]; simp
      revert this; decide

/-! ## Writes -/

/-- What a call writes, in order. -/
noncomputable def callWrites {τ : Type} (w : ExportWorld τ) (c : ToolCall) : List (Text × τ) :=
  match c.tool with
  | .tf_to_csv =>
    match c.arg .bag, c.arg .tf_source_frame, c.arg .tf_target_frame, c.arg .csv_output_file with
    | some b, some s, some t, some o => ((w.tf_to_csv b s t).map fun x => [(o, x)]).getD []
    | _, _, _, _ => []
  | .target_extractor_interface =>
    match c.arg .bag, c.arg .image_topic, c.arg .calib_file_camera, c.arg .calib_file_target, c.arg .output_file with
    | some b, some x, some i, some g, some o =>
      match w.read_target g with
      | none => []
      | some y =>
        ((w.target_extractor (callTargetExtractor b (extractorConfig b x i o y))).map fun t =>
          [(sequencedPrefix ++ o, t.1), (o, t.2)]).getD []
    | _, _, _, _, _ => []

/-- Writing several files. -/
def writeAll {τ : Type} (fs : FileTable τ) (ws : List (Text × τ)) : FileTable τ :=
  ws.foldl (fun f e => f.write e.1 e.2) fs

theorem runCall_eq {τ : Type} (w : ExportWorld τ) (fs : FileTable τ) (c : ToolCall) :
    runCall w fs c = writeAll fs (callWrites w c) := by
  unfold runCall callWrites
  cases c.tool with
  | tf_to_csv =>
    dsimp only
    unfold runTfToCsv
    cases c.arg .bag <;> cases c.arg .tf_source_frame <;> cases c.arg .tf_target_frame <;>
      cases c.arg .csv_output_file <;> simp [writeAll]
    rename_i b s t o
    cases w.tf_to_csv b s t <;> simp
  | target_extractor_interface =>
    dsimp only
    unfold runTargetExtractor
    cases c.arg .bag <;> cases c.arg .image_topic <;> cases c.arg .calib_file_camera <;>
      cases c.arg .calib_file_target <;> cases c.arg .output_file <;> simp [writeAll]
    rename_i b x i g o
    cases w.read_target g with
    | none => simp
    | some y =>
      simp only [Option.bind_some]
      cases w.target_extractor (callTargetExtractor b (extractorConfig b x i o y)) <;>
        simp [callTargetExtractor, extractorConfig]

theorem foldl_runCall {τ : Type} (w : ExportWorld τ) (cs : List ToolCall) (fs : FileTable τ) :
    cs.foldl (runCall w) fs = writeAll fs (cs.flatMap (callWrites w)) := by
  induction cs generalizing fs with
  | nil => rfl
  | cons c cs ih => simp only [List.foldl_cons, ih, runCall_eq, List.flatMap_cons, writeAll, List.foldl_append]

theorem writeAll_append {τ : Type} (fs : FileTable τ) (a b : List (Text × τ)) :
    writeAll fs (a ++ b) = writeAll (writeAll fs a) b := by simp [writeAll]

/-- A file that is not written keeps its content. -/
theorem writeAll_other {τ : Type} (fs : FileTable τ) (ws : List (Text × τ)) (n : Text) (h : ∀ e ∈ ws, e.1 ≠ n) :
    writeAll fs ws n = fs n := by
  induction ws generalizing fs with
  | nil => rfl
  | cons e ws ih =>
    simp only [writeAll, List.foldl_cons]
    have := ih (fs.write e.1 e.2) fun e' he' => h e' (List.mem_cons_of_mem _ he')
    simp only [writeAll] at this
    rw [this, FileTable.write, if_neg (Ne.symm (h e List.mem_cons_self))]

/-- A file whose writes agree has that content. -/
theorem writeAll_mem {τ : Type} (fs : FileTable τ) (ws : List (Text × τ)) (n : Text) (t : τ) (h : (n, t) ∈ ws)
    (ha : ∀ e ∈ ws, e.1 = n → e.2 = t) : writeAll fs ws n = some t := by
  induction ws using List.reverseRecOn with
  | nil => simp at h
  | append_singleton ws e ih =>
    rw [writeAll_append]
    show FileTable.write _ e.1 e.2 n = _
    rw [FileTable.write]
    by_cases he : n = e.1
    · rw [if_pos he, ha e (by simp) he.symm]
    · rw [if_neg he]
      apply ih
      · simp only [List.mem_append, List.mem_singleton] at h
        rcases h with h | h
        · exact h
        · exact absurd (congrArg Prod.fst h) he
      · intro e' he' ; exact ha e' (by simp [he'])

/-- The last write counts. -/
theorem writeAll_last {τ : Type} (fs : FileTable τ) (a b : List (Text × τ)) (n : Text) (t : τ)
    (h : ∀ e ∈ b, e.1 ≠ n) : writeAll fs (a ++ (n, t) :: b) n = some t := by
  rw [writeAll_append]
  show writeAll _ b n = _
  rw [writeAll_other _ _ _ h]
  simp [FileTable.write]

/-! ## The calls -/

/-- The call for a source. -/
def sourceCall : PoseSource → ToolCall
  | .tf path name source target =>
    ⟨.tf_to_csv, [(.bag, path ++ name), (.tf_source_frame, source), (.tf_target_frame, target),
      (.csv_output_file, tfOutputFile name target source)]⟩
  | .camera path name topic camera target =>
    ⟨.target_extractor_interface, [(.bag, path ++ name), (.image_topic, topic), (.calib_file_camera, camera),
      (.calib_file_target, target), (.output_file, cameraOutputFile name topic)]⟩

/-- The file of a source. -/
def sourceFile : PoseSource → Text
  | .tf _ name source target => tfOutputFile name target source
  | .camera _ name topic _ _ => cameraOutputFile name topic

theorem tfCalls_ok (b : BagEntry) (h : ∀ f, b.tf_frames = some f → f.source.length = f.target.length) :
    tfCalls b = .ok ((match b.tf_frames with
      | none => []
      | some f => List.zipWith (fun s t => PoseSource.tf b.bag_path b.name s t) f.source f.target).map sourceCall) := by
  unfold tfCalls
  cases hf : b.tf_frames with
  | none => rfl
  | some f =>
    simp only [pyAssert_pos (h f hf), Py.ok_bind, Py.pure_eq]
    congr 1
    rw [List.map_zipWith, List.zip, List.map_zipWith]
    rfl

theorem cameraCalls_ok (b : BagEntry) (h : ∀ c, b.cameras = some c → c.cam_topics.length = c.cam_intrinsics.length) :
    cameraCalls b = .ok ((match b.cameras with
      | none => []
      | some c => List.zipWith (fun x i => PoseSource.camera b.bag_path b.name x (b.intrinsics_path ++ i)
        (b.target_config_path ++ b.target)) c.cam_topics c.cam_intrinsics).map sourceCall) := by
  unfold cameraCalls
  cases hf : b.cameras with
  | none => rfl
  | some c =>
    simp only [pyAssert_pos (h c hf), Py.ok_bind, Py.pure_eq]
    congr 1
    rw [List.map_zipWith, List.zip, List.map_zipWith]
    rfl

theorem bagCalls_ok (b : BagEntry) (h : EqualLengths b) : bagCalls b = ((sourcesOf b).map sourceCall, none) := by
  unfold bagCalls
  rw [tfCalls_ok b h.1, cameraCalls_ok b h.2]
  simp only [sourcesOf, List.map_append]
  rcases b with ⟨_, _, _, _, f, c, _⟩
  cases f <;> cases c <;> rfl

theorem exportCalls_append (as bs : List BagEntry) (h : ∀ b ∈ as, EqualLengths b) :
    exportCalls (as ++ bs) = ((configured as).map sourceCall ++ (exportCalls bs).1, (exportCalls bs).2) := by
  induction as with
  | nil => simp [configured]
  | cons a as ih =>
    simp only [List.cons_append, exportCalls, bagCalls_ok a (h a List.mem_cons_self),
      ih fun b hb => h b (List.mem_cons_of_mem _ hb), configured, List.flatMap_cons, List.map_append, List.append_assoc]

theorem exportCalls_ok (bags : List BagEntry) (h : ∀ b ∈ bags, EqualLengths b) :
    exportCalls bags = ((configured bags).map sourceCall, none) := by
  have := exportCalls_append bags [] h
  simpa [exportCalls] using this

theorem callWrites_tf {τ : Type} (w : ExportWorld τ) (path name source target : Text) :
    callWrites w (sourceCall (.tf path name source target)) =
      ((w.tf_to_csv (path ++ name) source target).map fun x => [(tfOutputFile name target source, x)]).getD [] := by
  rfl

theorem callWrites_camera {τ : Type} (w : ExportWorld τ) (path name topic camera target : Text) :
    callWrites w (sourceCall (.camera path name topic camera target)) =
      match w.read_target target with
      | none => []
      | some y =>
        ((w.target_extractor (callTargetExtractor (path ++ name)
          (extractorConfig (path ++ name) topic camera (cameraOutputFile name topic) y))).map fun t =>
          [(sequencedPrefix ++ cameraOutputFile name topic, t.1), (cameraOutputFile name topic, t.2)]).getD [] := by
  rfl

theorem asksFor_config {τ : Type} (w : ExportWorld τ) (bag topic camera target o : Text) (y : AprilTarget)
    (hy : w.read_target target = some y) :
    AsksFor w bag topic camera target (callTargetExtractor bag (extractorConfig bag topic camera o y)) :=
  ⟨rfl, rfl, rfl, hy, rfl, rfl⟩

theorem mem_tf_sources {b : BagEntry} {p n s t : Text} (h : PoseSource.tf p n s t ∈ sourcesOf b) :
    p = b.bag_path ∧ n = b.name ∧ ∃ f, b.tf_frames = some f ∧ s ∈ f.source ∧ t ∈ f.target := by
  unfold sourcesOf at h
  rcases List.mem_append.mp h with h | h
  · cases hf : b.tf_frames with
    | none => simp [hf] at h
    | some f =>
      simp only [hf, List.mem_iff_getElem, List.length_zipWith, List.getElem_zipWith,
        PoseSource.tf.injEq] at h
      obtain ⟨i, hi, h1, h2, h3, h4⟩ := h
      exact ⟨h1.symm, h2.symm, f, rfl, h3 ▸ List.getElem_mem _, h4 ▸ List.getElem_mem _⟩
  · cases hc : b.cameras with
    | none => simp [hc] at h
    | some c => simp [hc, List.mem_iff_getElem] at h

theorem mem_camera_sources {b : BagEntry} {p n x i g : Text} (h : PoseSource.camera p n x i g ∈ sourcesOf b) :
    p = b.bag_path ∧ n = b.name ∧ ∃ c, b.cameras = some c ∧ x ∈ c.cam_topics := by
  unfold sourcesOf at h
  rcases List.mem_append.mp h with h | h
  · cases hf : b.tf_frames with
    | none => simp [hf] at h
    | some f => simp [hf, List.mem_iff_getElem] at h
  · cases hc : b.cameras with
    | none => simp [hc] at h
    | some c =>
      simp only [hc, List.mem_iff_getElem, List.length_zipWith, List.getElem_zipWith, PoseSource.camera.injEq] at h
      obtain ⟨k, hk, h1, h2, h3, _, _⟩ := h
      exact ⟨h1.symm, h2.symm, c, rfl, h3 ▸ List.getElem_mem _⟩

theorem mem_configured {bags : List BagEntry} {s : PoseSource} (h : s ∈ configured bags) :
    ∃ b ∈ bags, s ∈ sourcesOf b := by
  simpa [configured] using h

/-- Plain names give different sources different files. -/
theorem sourceFile_inj {bags : List BagEntry} (hp : PlainNames bags) {s s' : PoseSource} (hs : s ∈ configured bags)
    (hs' : s' ∈ configured bags) (h : sourceFile s = sourceFile s') : s = s' := by
  obtain ⟨b, hb, hsb⟩ := mem_configured hs
  obtain ⟨b', hb', hsb'⟩ := mem_configured hs'
  cases s with
  | tf p n x y =>
    obtain ⟨rfl, rfl, f, hf, hx, hy⟩ := mem_tf_sources hsb
    have px := hp.frames_plain b hb f hf x (by simp [hx])
    have py := hp.frames_plain b hb f hf y (by simp [hy])
    cases s' with
    | tf p' n' x' y' =>
      obtain ⟨rfl, rfl, f', hf', hx', hy'⟩ := mem_tf_sources hsb'
      have px' := hp.frames_plain b' hb' f' hf' x' (by simp [hx'])
      have py' := hp.frames_plain b' hb' f' hf' y' (by simp [hy'])
      obtain ⟨h1, h2, h3⟩ := tfOutputFile_inj h py.1 px.1 py'.1 px'.1
      obtain ⟨h4, h5⟩ := hp.bags_differ b hb b' hb' h1
      rw [h2, h3, h4, h5]
    | camera p' n' x' i' g' => exact absurd h (tf_ne_camera (hp.stem_plain b hb).1 py.2 px.2)
  | camera p n x i g =>
    obtain ⟨rfl, rfl, c, hc, hx⟩ := mem_camera_sources hsb
    have px := hp.topics_plain b hb c hc x hx
    cases s' with
    | tf p' n' x' y' =>
      obtain ⟨rfl, rfl, f', hf', hx', hy'⟩ := mem_tf_sources hsb'
      have px' := hp.frames_plain b' hb' f' hf' x' (by simp [hx'])
      have py' := hp.frames_plain b' hb' f' hf' y' (by simp [hy'])
      exact absurd h.symm (tf_ne_camera (hp.stem_plain b' hb').1 py'.2 px'.2)
    | camera p' n' x' i' g' =>
      obtain ⟨rfl, rfl, c', hc', hx'⟩ := mem_camera_sources hsb'
      have px' := hp.topics_plain b' hb' c' hc' x' hx'
      obtain ⟨h1, h2⟩ := cameraOutputFile_inj h px.2 px'.2
      obtain ⟨h4, h5⟩ := hp.bags_differ b hb b' hb' h1
      rw [← h4, ← h5] at hs' ⊢
      obtain ⟨h6, h7, h8⟩ := hp.topics_differ _ _ _ _ _ hs _ _ _ hs' (topicText_inj h2 px.1 px'.1)
      rw [h6, h7, h8]

/-- No file of a source is a file with sequence numbers. -/
theorem sequenced_ne_sourceFile {bags : List BagEntry} (hp : PlainNames bags) {s : PoseSource} (hs : s ∈ configured bags)
    (z : Text) : sequencedPrefix ++ z ≠ sourceFile s := by
  obtain ⟨b, hb, hsb⟩ := mem_configured hs
  cases s with
  | tf p n x y =>
    obtain ⟨rfl, rfl, _⟩ := mem_tf_sources hsb
    have := sequenced_ne (n := b.name) (y := y ++ '_' :: x ++ ['.', 'c', 's', 'v']) (z := z) (hp.stem_plain b hb).2
    simpa [sourceFile, tfOutputFile_eq] using this
  | camera p n x i g =>
    obtain ⟨rfl, rfl, _⟩ := mem_camera_sources hsb
    have := sequenced_ne (n := b.name) (y := ['W', '_'] ++ topicText x ++ ['.', 'c', 's', 'v']) (z := z)
      (hp.stem_plain b hb).2
    simpa [sourceFile, cameraOutputFile_eq] using this

/-- What the call of a source writes. -/
theorem mem_callWrites {τ : Type} {w : ExportWorld τ} {s : PoseSource} {e : Text × τ}
    (h : e ∈ callWrites w (sourceCall s)) :
    (e.1 = sourceFile s ∧ IsTable w s e.2) ∨ e.1 = sequencedPrefix ++ sourceFile s := by
  cases s with
  | tf p n x y =>
    rw [callWrites_tf] at h
    cases ht : w.tf_to_csv (p ++ n) x y with
    | none => simp [ht] at h
    | some t =>
      simp [ht] at h
      subst h
      exact Or.inl ⟨rfl, ht⟩
  | camera p n x i g =>
    rw [callWrites_camera] at h
    cases hy : w.read_target g with
    | none => simp [hy] at h
    | some y =>
      rw [hy] at h
      dsimp only at h
      cases ht : w.target_extractor (callTargetExtractor (p ++ n)
          (extractorConfig (p ++ n) x i (cameraOutputFile n x) y)) with
      | none => simp [ht] at h
      | some t =>
        simp only [ht, Option.map_some, Option.getD_some, List.mem_cons, List.not_mem_nil, or_false] at h
        rcases h with rfl | rfl
        · exact Or.inr rfl
        · exact Or.inl ⟨rfl, _, t.1, asksFor_config w _ _ _ _ _ y hy, ht⟩

/-- An available source is written, and nothing else is written to its file by its call. -/
theorem callWrites_available {τ : Type} {w : ExportWorld τ} {s : PoseSource} (h : Available w s) :
    ∃ t, (sourceFile s, t) ∈ callWrites w (sourceCall s) ∧ IsTable w s t ∧
      ∀ e ∈ callWrites w (sourceCall s), e.1 = sourceFile s → e.2 = t := by
  cases s with
  | tf p n x y =>
    rw [callWrites_tf]
    obtain ⟨t, ht⟩ := Option.isSome_iff_exists.mp h
    exact ⟨t, by simp [ht, sourceFile], ht, by simp [ht]⟩
  | camera p n x i g =>
    rw [callWrites_camera]
    obtain ⟨y, hy⟩ := Option.isSome_iff_exists.mp h.1
    have ha := asksFor_config w (p ++ n) x i g (cameraOutputFile n x) y hy
    obtain ⟨t, ht⟩ := Option.isSome_iff_exists.mp (h.2 _ ha)
    refine ⟨t.2, by simp [hy, ht, sourceFile], ⟨_, t.1, ha, ht⟩, ?_⟩
    simp only [hy, ht, Option.map_some, Option.getD_some, List.mem_cons, List.not_mem_nil, or_false]
    rintro e (rfl | rfl) he
    · have := congrArg List.length he
      simp [sourceFile, sequencedPrefix] at this
      omega
    · rfl

theorem tfCalls_mem {b : BagEntry} {cs : List ToolCall} (h : tfCalls b = .ok cs) {c : ToolCall} (hc : c ∈ cs) :
    ∃ s, c = sourceCall s := by
  unfold tfCalls at h
  cases hf : b.tf_frames with
  | none => simp [hf] at h; subst h; simp at hc
  | some f =>
    simp only [hf] at h
    obtain ⟨_, _, h2⟩ := Py.bind_eq_ok.mp h
    simp only [Py.pure_eq, Except.ok.injEq] at h2
    subst h2
    obtain ⟨x, _, rfl⟩ := List.mem_map.mp hc
    exact ⟨.tf b.bag_path b.name x.1 x.2, rfl⟩

theorem cameraCalls_mem {b : BagEntry} {cs : List ToolCall} (h : cameraCalls b = .ok cs) {c : ToolCall} (hc : c ∈ cs) :
    ∃ s, c = sourceCall s := by
  unfold cameraCalls at h
  cases hf : b.cameras with
  | none => simp [hf] at h; subst h; simp at hc
  | some f =>
    simp only [hf] at h
    obtain ⟨_, _, h2⟩ := Py.bind_eq_ok.mp h
    simp only [Py.pure_eq, Except.ok.injEq] at h2
    subst h2
    obtain ⟨x, _, rfl⟩ := List.mem_map.mp hc
    exact ⟨.camera b.bag_path b.name x.1 (b.intrinsics_path ++ x.2) (b.target_config_path ++ b.target), rfl⟩

theorem bagCalls_mem {b : BagEntry} {c : ToolCall} (hc : c ∈ (bagCalls b).1) : ∃ s, c = sourceCall s := by
  unfold bagCalls at hc
  cases h1 : tfCalls b with
  | error e => simp [h1] at hc
  | ok cs =>
    cases h2 : cameraCalls b with
    | error e => simp [h1, h2] at hc; exact tfCalls_mem h1 hc
    | ok ds =>
      simp only [h1, h2, List.mem_append] at hc
      rcases hc with hc | hc
      · exact tfCalls_mem h1 hc
      · exact cameraCalls_mem h2 hc

/-- Every call is the call of some source. -/
theorem exportCalls_mem {bags : List BagEntry} {c : ToolCall} (hc : c ∈ (exportCalls bags).1) : ∃ s, c = sourceCall s := by
  induction bags with
  | nil => simp [exportCalls] at hc
  | cons b bs ih =>
    unfold exportCalls at hc
    have hb := @bagCalls_mem b c
    rcases h : bagCalls b with ⟨cs, _ | e⟩
    · rw [h] at hb hc
      simp only [List.mem_append] at hc
      rcases hc with hc | hc
      · exact hb hc
      · exact ih hc
    · rw [h] at hb hc
      exact hb hc

theorem sourceFile_csv (s : PoseSource) : ['.', 'c', 's', 'v'] <:+ sourceFile s := by
  cases s with
  | tf p n x y => exact ⟨_, (tfOutputFile_eq n y x).symm⟩
  | camera p n x i g => exact ⟨_, (cameraOutputFile_eq n x).symm⟩

end HandEye
