import Verif.Model.TfExport
import Verif.Lemmas.Py
import Verif.Spec.TfExport

/-!
# C57: the tf export reports the number of exported poses, and C66: its warnings

The rows are right; the number that is reported also counts failed lookups after the first success.
-/

namespace HandEye

open Spec

theorem checkDrop_ok {s s' : TfState} {t : ℝ} (h : checkDrop s t = .ok s') :
    s'.rows = s.rows ∧ s'.tf_counter = s.tf_counter ∧ s'.start_time = s.start_time ∧ s'.end_time = s.end_time ∧
    s'.init = s.init ∧ s'.tf_previous_timestamp = some t := by
  unfold checkDrop at h
  obtain ⟨w, _, h⟩ := Py.bind_eq_ok.mp h
  rw [Py.pure_eq] at h
  cases h
  exact ⟨rfl, rfl, rfl, rfl, rfl, rfl⟩

theorem exportLoop_counting {lookup : ℝ → Option Pose} (l : List ℝ) {s s' : TfState} (hs : 0 < s.tf_counter)
    (h : exportLoop lookup l s = .ok s') : s'.tf_counter = s.tf_counter + l.length := by
  induction l generalizing s with
  | nil => cases h; rfl
  | cons t l ih =>
    obtain ⟨s1, h1, h2⟩ := Py.bind_eq_ok.mp h
    unfold exportTf at h1
    cases hl : lookup t with
    | none =>
      rw [hl] at h1
      cases h1
      have := ih (by simp [hs]) h2
      simp only [if_pos hs] at this
      rw [this, List.length_cons]; omega
    | some p =>
      rw [hl] at h1
      have hc := (checkDrop_ok h1).2.1
      have := ih (by rw [hc]; simp) h2
      rw [this, hc, List.length_cons]
      simp only
      omega

theorem exportLoop_counter {lookup : ℝ → Option Pose} (l : List ℝ) {s s' : TfState} (hs : s.tf_counter = 0)
    (h : exportLoop lookup l s = .ok s') : s'.tf_counter = (l.dropWhile fun t => lookup t = none).length := by
  induction l generalizing s with
  | nil => cases h; simpa using hs
  | cons t l ih =>
    have h0 := h
    obtain ⟨s1, h1, h2⟩ := Py.bind_eq_ok.mp h
    unfold exportTf at h1
    cases hl : lookup t with
    | none =>
      rw [hl] at h1
      cases h1
      rw [ih (by simp [hs]) h2, List.dropWhile_cons_of_pos (by simp [hl])]
    | some p =>
      rw [hl] at h1
      have hc := (checkDrop_ok h1).2.1
      rw [List.dropWhile_cons_of_neg (by simp [hl]), exportLoop_counting l (by rw [hc]; simp) h2, hc,
        List.length_cons]
      simp only [hs]
      omega

theorem exportLoop_rows {lookup : ℝ → Option Pose} (l : List ℝ) {s s' : TfState}
    (h : exportLoop lookup l s = .ok s') : s'.rows = s.rows ++ foundPoses lookup l := by
  induction l generalizing s with
  | nil => cases h; simp [foundPoses]
  | cons t l ih =>
    obtain ⟨s1, h1, h2⟩ := Py.bind_eq_ok.mp h
    rw [ih h2]
    unfold exportTf at h1
    cases hl : lookup t with
    | none => rw [hl] at h1; cases h1; simp [foundPoses, hl]
    | some p => rw [hl] at h1; rw [(checkDrop_ok h1).1]; simp [foundPoses, hl]

theorem foundPoses_length (lookup : ℝ → Option Pose) (l : List ℝ) :
    (foundPoses lookup l).length + (lateFailures lookup l).length =
      (l.dropWhile fun t => lookup t = none).length := by
  have split : ∀ m : List ℝ, (foundPoses lookup m).length + (m.filter fun t => lookup t = none).length = m.length := by
    intro m
    induction m with
    | nil => simp [foundPoses]
    | cons t m ih =>
      unfold foundPoses at ih ⊢
      cases hl : lookup t with
      | none =>
        rw [List.filterMap_cons_none (by simp [hl]), List.filter_cons_of_pos (by simp [hl]), List.length_cons,
          List.length_cons]
        omega
      | some p =>
        rw [List.filterMap_cons_some (by simp [hl]; rfl), List.filter_cons_of_neg (by simp [hl]), List.length_cons,
          List.length_cons]
        omega
  rw [← split (l.dropWhile fun t => lookup t = none)]
  unfold lateFailures
  congr 1
  induction l with
  | nil => simp
  | cons t l ih =>
    cases hl : lookup t with
    | none =>
      rw [List.dropWhile_cons_of_pos (by simp [hl]), ← ih]
      simp [foundPoses, hl]
    | some p => rw [List.dropWhile_cons_of_neg (by simp [hl])]

/-- The stamps that are looked up are those of the transforms of the source frame in the tf messages. -/
theorem lookedUp_eq (source_frame : String) (messages : List BagMessage) :
    lookedUp source_frame messages =
      stampsOf source_frame (messages.map fun m => (m.topic, m.transforms.map fun tf => (tf.child_frame_id, tf.stamp))) := by
  unfold lookedUp stampsOf
  induction messages with
  | nil => simp
  | cons m l ih =>
    rw [List.flatMap_cons, ih, List.map_cons]
    have inner : (m.transforms.filterMap fun tf => if tf.child_frame_id = source_frame then some tf.stamp else none) =
        ((m.transforms.map fun tf => (tf.child_frame_id, tf.stamp)).filter fun tf => tf.1 = source_frame).map
          Prod.snd := by
      generalize m.transforms = ts
      induction ts with
      | nil => simp
      | cons tf ts ih => by_cases h : tf.child_frame_id = source_frame <;> simp [h, ih]
    by_cases ht : m.topic = "/tf"
    · rw [List.filter_cons_of_pos (by simpa using ht), List.flatMap_cons, List.map_append]
      congr 1
      by_cases hn : m.transforms = []
      · simp [hn]
      · rw [if_pos ⟨ht, hn⟩, inner]
    · rw [List.filter_cons_of_neg (by simpa using ht), if_neg (fun h => ht h.1), List.nil_append]

/-- One row for each successful lookup of the source frame, in the order of the bag. -/
theorem C57_rows (lookup : ℝ → Option Pose) (source_frame : String) (messages : List BagMessage) (s : TfState)
    (h : writeTransformationToCsv lookup source_frame messages = .ok s) :
    s.rows = foundPoses lookup (stampsOf source_frame
      (messages.map fun m => (m.topic, m.transforms.map fun tf => (tf.child_frame_id, tf.stamp)))) := by
  obtain ⟨s1, h1, h2⟩ := Py.bind_eq_ok.mp h
  obtain ⟨_, _, h3⟩ := Py.bind_eq_ok.mp h2
  cases h3
  rw [exportLoop_rows _ h1, lookedUp_eq]
  rfl

/-- The number that is reported: the rows and the failed lookups after the first success.  (What is missing for
the property: that there are none of the latter.) -/
theorem C57_count_partial (lookup : ℝ → Option Pose) (source_frame : String) (messages : List BagMessage)
    (s : TfState) (h : writeTransformationToCsv lookup source_frame messages = .ok s) :
    s.tf_counter = s.rows.length + (lateFailures lookup (stampsOf source_frame
      (messages.map fun m => (m.topic, m.transforms.map fun tf => (tf.child_frame_id, tf.stamp))))).length := by
  rw [C57_rows lookup source_frame messages s h, foundPoses_length, ← lookedUp_eq]
  obtain ⟨s1, h1, h2⟩ := Py.bind_eq_ok.mp h
  obtain ⟨_, _, h3⟩ := Py.bind_eq_ok.mp h2
  cases h3
  exact exportLoop_counter _ rfl h1

/-- After the first success: the loop goes on without exception as long as no lookup at the stamp of the first
success comes again. -/
theorem exportLoop_returns {lookup : ℝ → Option Pose} (l : List ℝ) (s : TfState) (hinit : s.init = false)
    (hc : 0 < s.tf_counter) (hp : s.tf_previous_timestamp ≠ none)
    (hl : ∀ t ∈ l, lookup t ≠ none → t ≠ s.start_time) :
    ∃ s', exportLoop lookup l s = .ok s' ∧ s'.start_time = s.start_time ∧
      ((∃ t ∈ l, lookup t ≠ none) → s'.end_time ≠ s.start_time) ∧
      ((∀ t ∈ l, lookup t = none) → s'.end_time = s.end_time) := by
  induction l generalizing s with
  | nil => exact ⟨s, rfl, rfl, by simp, by simp⟩
  | cons t l ih =>
    cases hlt : lookup t with
    | none =>
      obtain ⟨s', h1, h2, h3, h4⟩ := ih { s with tf_counter := if s.tf_counter > 0 then s.tf_counter + 1 else s.tf_counter }
        hinit (by simp [hc]) hp (fun u hu => hl u (List.mem_cons_of_mem _ hu))
      refine ⟨s', ?_, h2, ?_, ?_⟩
      · unfold exportLoop
        rw [exportTf, hlt]
        exact h1
      · rintro ⟨u, hu, hu'⟩
        rcases List.mem_cons.mp hu with rfl | hu
        · exact absurd hlt hu'
        · exact h3 ⟨u, hu, hu'⟩
      · intro h
        exact h4 fun u hu => h u (List.mem_cons_of_mem _ hu)
    | some p =>
      have hne : t ≠ s.start_time := hl t List.mem_cons_self (by simp [hlt])
      obtain ⟨q, hq⟩ := Option.ne_none_iff_exists'.mp hp
      have hstep : ∃ s1, exportTf lookup s t = .ok s1 ∧ s1.start_time = s.start_time := by
        rw [exportTf, hlt]
        simp only [hinit, Bool.false_eq_true, if_false]
        have hw : ∃ w, dropWarns { s with
            init := false, rows := s.rows ++ [⟨t, p⟩], end_time := t, tf_counter := s.tf_counter + 1 } t = .ok w := by
          unfold dropWarns
          dsimp only
          split_ifs with h3
          · have hd : t - s.start_time ≠ 0 := sub_ne_zero.mpr hne
            have hn : ((s.tf_counter + 1 : ℕ) : ℝ) ≠ 0 := by positivity
            rw [floatDiv, if_neg hd, Py.ok_bind, floatDiv, if_neg (div_ne_zero hn hd), Py.ok_bind, hq]
            simp only [intervalWarns]
            split_ifs
            · exact ⟨_, rfl⟩
            · rw [floatDiv, if_neg (one_div_ne_zero (div_ne_zero hn hd))]
              exact ⟨_, rfl⟩
          · exact ⟨_, rfl⟩
        obtain ⟨w, hw⟩ := hw
        rw [checkDrop, hw]
        exact ⟨_, rfl, rfl⟩
      obtain ⟨s1, hs1, hst⟩ := hstep
      have hs1' := hs1
      unfold exportTf at hs1'
      rw [hlt] at hs1'
      obtain ⟨_, c2, c3, c4, c5, c6⟩ := checkDrop_ok hs1'
      obtain ⟨s', h1, h2, h3, h4⟩ := ih s1 c5 (by rw [c2]; simp) (by rw [c6]; simp)
        (fun u hu => by rw [hst]; exact hl u (List.mem_cons_of_mem _ hu))
      refine ⟨s', ?_, by rw [h2, hst], ?_, ?_⟩
      · unfold exportLoop
        rw [hs1]
        exact h1
      · intro _
        by_cases hall : ∀ u ∈ l, lookup u = none
        · rw [h4 hall, c4]; exact hne
        · push Not at hall
          rw [← hst]
          exact h3 hall
      · intro h
        rw [h t List.mem_cons_self] at hlt
        cases hlt

/-- The export returns if no later lookup has the stamp of the first success, and, should only one lookup
succeed, at most two failures follow. -/
theorem C57_returns_partial (lookup : ℝ → Option Pose) (source_frame : String) (messages : List BagMessage)
    (pre post : List ℝ) (t : ℝ) (hst : stampsOf source_frame
      (messages.map fun m => (m.topic, m.transforms.map fun tf => (tf.child_frame_id, tf.stamp))) = pre ++ t :: post)
    (hpre : ∀ u ∈ pre, lookup u = none) (ht : lookup t ≠ none)
    (hpost : ∀ u ∈ post, lookup u ≠ none → u ≠ t)
    (hfew : (∀ u ∈ post, lookup u = none) → post.length ≤ 2) :
    ∃ s, writeTransformationToCsv lookup source_frame messages = .ok s := by
  obtain ⟨p, hp⟩ := Option.ne_none_iff_exists'.mp ht
  have hskip : ∀ (l m : List ℝ), (∀ u ∈ l, lookup u = none) → exportLoop lookup (l ++ m) {} = exportLoop lookup m {} := by
    intro l m hl
    induction l with
    | nil => rfl
    | cons u l ih =>
      rw [List.cons_append, exportLoop, exportTf, hl u List.mem_cons_self]
      exact ih fun v hv => hl v (List.mem_cons_of_mem _ hv)
  have h1 : exportTf lookup {} t = .ok ⟨false, 1, t, t, some t, [⟨t, p⟩], []⟩ := by
    rw [exportTf, hp]
    rfl
  obtain ⟨s', g1, g2, g3, g4⟩ := exportLoop_returns (lookup := lookup) post ⟨false, 1, t, t, some t, [⟨t, p⟩], []⟩
      rfl (by norm_num) (by simp) hpost
  have hloop : exportLoop lookup (lookedUp source_frame messages) {} = .ok s' := by
    rw [lookedUp_eq, hst, hskip pre _ hpre, exportLoop, h1]
    exact g1
  have hcount : s'.tf_counter = 1 + post.length := exportLoop_counting post (by norm_num) g1
  unfold writeTransformationToCsv
  rw [hloop, Py.ok_bind, finalFrequency]
  by_cases hall : ∀ u ∈ post, lookup u = none
  · have := hfew hall
    rw [if_neg (by omega)]
    exact ⟨_, rfl⟩
  · push Not at hall
    have hne := g3 hall
    split_ifs
    · rw [floatDiv, if_neg (by rw [g2]; exact sub_ne_zero.mpr hne)]
      exact ⟨_, rfl⟩
    · exact ⟨_, rfl⟩

/-- The export fails with a division by zero if exactly one lookup succeeds and more than two fail after it. -/
theorem C57_crash_refuted (lookup : ℝ → Option Pose) (source_frame : String) (messages : List BagMessage)
    (pre post : List ℝ) (t : ℝ) (hst : stampsOf source_frame
      (messages.map fun m => (m.topic, m.transforms.map fun tf => (tf.child_frame_id, tf.stamp))) = pre ++ t :: post)
    (hpre : ∀ u ∈ pre, lookup u = none) (ht : lookup t ≠ none) (hpost : ∀ u ∈ post, lookup u = none)
    (hmany : 2 < post.length) :
    writeTransformationToCsv lookup source_frame messages = .error .zeroDivision := by
  obtain ⟨p, hp⟩ := Option.ne_none_iff_exists'.mp ht
  have hskip : ∀ (l m : List ℝ), (∀ u ∈ l, lookup u = none) → exportLoop lookup (l ++ m) {} = exportLoop lookup m {} := by
    intro l m hl
    induction l with
    | nil => rfl
    | cons u l ih =>
      rw [List.cons_append, exportLoop, exportTf, hl u List.mem_cons_self]
      exact ih fun v hv => hl v (List.mem_cons_of_mem _ hv)
  have h1 : exportTf lookup {} t = .ok ⟨false, 1, t, t, some t, [⟨t, p⟩], []⟩ := by
    rw [exportTf, hp]
    rfl
  obtain ⟨s', g1, g2, g3, g4⟩ := exportLoop_returns (lookup := lookup) post ⟨false, 1, t, t, some t, [⟨t, p⟩], []⟩
      rfl (by norm_num) (by simp) (fun u hu h => absurd (hpost u hu) h)
  have hloop : exportLoop lookup (lookedUp source_frame messages) {} = .ok s' := by
    rw [lookedUp_eq, hst, hskip pre _ hpre, exportLoop, h1]
    exact g1
  have hcount : s'.tf_counter = 1 + post.length := exportLoop_counting post (by norm_num) g1
  unfold writeTransformationToCsv
  rw [hloop, Py.ok_bind, finalFrequency, if_pos (by omega), floatDiv, if_pos (by rw [g2, g4 hpost, sub_self])]
  rfl

/-- A bag with transforms at the given times, one per message. -/
def simpleBag (stamps : List ℝ) : List BagMessage := stamps.map fun t => ⟨"/tf", [⟨"hand", t⟩]⟩

theorem stampsOf_simpleBag (stamps : List ℝ) : stampsOf "hand"
    ((simpleBag stamps).map fun m => (m.topic, m.transforms.map fun tf => (tf.child_frame_id, tf.stamp))) =
    stamps := by
  unfold stampsOf simpleBag
  induction stamps with
  | nil => rfl
  | cons t l ih =>
    simp only [List.map_cons, List.map_nil] at ih ⊢
    rw [List.filter_cons_of_pos (by simp), List.flatMap_cons, List.map_append, ih]
    simp

/-- One failed lookup between two successes: three poses are reported, two are written. -/
theorem C57_count_refuted : ∃ (lookup : ℝ → Option Pose) (messages : List BagMessage) (s : TfState),
    writeTransformationToCsv lookup "hand" messages = .ok s ∧ s.tf_counter = 3 ∧ s.rows.length = 2 := by
  classical
  let lookup : ℝ → Option Pose := fun t => if t = 1 then none else some ⟨⟨t, 0, 0⟩, ⟨0, 0, 0, 1⟩⟩
  have h := C57_returns_partial lookup "hand" (simpleBag [0, 1, 2]) [] [1, 2] 0 (stampsOf_simpleBag _) (by simp)
    (by simp [lookup]) (by simp [lookup]) (by simp)
  obtain ⟨s, hs⟩ := h
  have hr := C57_rows _ _ _ _ hs
  have hc := C57_count_partial _ _ _ _ hs
  rw [stampsOf_simpleBag] at hr hc
  have hlen : s.rows.length = 2 := by rw [hr]; simp [foundPoses, lookup]
  refine ⟨lookup, simpleBag [0, 1, 2], s, hs, ?_, hlen⟩
  rw [hc, hlen]
  simp [lateFailures, lookup, List.dropWhile, List.filter]

example : writeTransformationToCsv (fun t => if t = 0 then some ⟨⟨0, 0, 0⟩, ⟨0, 0, 0, 1⟩⟩ else none) "hand"
    (simpleBag [0, 1, 2, 3]) = .error .zeroDivision := by
  refine C57_crash_refuted _ _ _ [] [1, 2, 3] 0 (stampsOf_simpleBag _) (by simp) (by simp) (by simp) (by simp)

end HandEye
