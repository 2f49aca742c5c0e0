import Verif.Lemmas.Interp

/-! # C70: the content of aligned pose tables -/

namespace HandEye

/-- What the interpolation gives: positions on the segments; orientations as recorded later or on the arcs. -/
theorem interpolate_content {poses rows : List StampedPose} {first last : ℝ} {samples : List ℝ}
    (h : (poses.map StampedPose.t).Pairwise (· < ·)) (hu : ∀ p ∈ poses, p.pose.q.norm = 1)
    (hf : (poses.map StampedPose.t).head? = some first) (hl : (poses.map StampedPose.t).getLast? = some last)
    (hs : ∀ s ∈ samples, first ≤ s ∧ s ≤ last) (hrows : interpolatePosesFromSamples poses samples = .ok rows) :
    ∀ r ∈ rows, Spec.LinearAt (poses.map StampedPose.t) (poses.map fun p => p.pose.pos) r.t r.pose.pos ∧
      (Spec.Snapped (poses.map StampedPose.t) (poses.map fun p => p.pose.q) r.t r.pose.q ∨
        Spec.Interpolated (poses.map StampedPose.t) (poses.map fun p => p.pose.q) r.t r.pose.q ∧
        ∀ (k : ℕ) (tl tr : ℝ), (poses.map StampedPose.t)[k]? = some tl →
          (poses.map StampedPose.t)[k + 1]? = some tr → tl < r.t → r.t < tr → 1e-16 + 1e-5 * |tr| < tr - r.t) := by
  obtain ⟨rows', e1, e2, e3⟩ := interpolate_outcome h hu hf hl hs
  obtain rfl : rows' = rows := Except.ok.inj (e1.symm.trans hrows)
  intro r hr
  obtain ⟨hq, hp⟩ := e3 r hr
  refine ⟨?_, hq⟩
  have hrs : r.t ∈ samples := e2 ▸ List.mem_map_of_mem hr
  obtain ⟨g1, g2⟩ := hs _ hrs
  rcases locate h hf hl g1 g2 with ⟨k, hk, hkt⟩ | ⟨k, hk, h1, h2⟩
  · left
    refine ⟨k, by rw [List.getElem?_eq_getElem hk, hkt], ?_⟩
    have hk' : k < poses.length := by simpa using hk
    rw [List.getElem?_map, List.getElem?_eq_getElem hk', Option.map_some, hp, ← hkt,
      npInterp_recorded h (by simp) hk, npInterp_recorded h (by simp) hk, npInterp_recorded h (by simp) hk]
    simp only [List.getElem_map]
  · right
    have hk' : k + 1 < poses.length := by simpa using hk
    refine ⟨k, _, _, (poses[k]).pose.pos, (poses[k + 1]).pose.pos, List.getElem?_eq_getElem (by omega),
      List.getElem?_eq_getElem hk, ?_, ?_, h1, h2, ?_⟩
    · rw [List.getElem?_map, List.getElem?_eq_getElem (by omega), Option.map_some]
    · rw [List.getElem?_map, List.getElem?_eq_getElem hk', Option.map_some]
    · rw [hp]
      dsimp only
      rw [npInterp_between h (by simp) hk h1.le h2, npInterp_between h (by simp) hk h1.le h2,
        npInterp_between h (by simp) hk h1.le h2]
      simp only [List.getElem_map]
      exact ⟨trivial, trivial, trivial⟩

theorem shiftTimes_pos (c : ℝ) (poses : List StampedPose) :
    ((shiftTimes c poses).map fun p => p.pose.pos) = poses.map fun p => p.pose.pos := by
  simp [shiftTimes, Function.comp_def]

theorem shiftTimes_q (c : ℝ) (poses : List StampedPose) :
    ((shiftTimes c poses).map fun p => p.pose.q) = poses.map fun p => p.pose.q := by
  simp [shiftTimes, Function.comp_def]

/-- Both tables at once. -/
theorem aligned_content {A B RA RB : List StampedPose} {c : ℝ}
    (hA : (A.map StampedPose.t).Pairwise (· < ·)) (hB : (B.map StampedPose.t).Pairwise (· < ·))
    (hA2 : 2 ≤ A.length) (hB2 : 2 ≤ B.length)
    (hAu : ∀ p ∈ A, p.pose.q.norm = 1) (hBu : ∀ p ∈ B, p.pose.q.norm = 1)
    (h : computeAlignedPoses A B c = .ok (RA, RB)) :
    (∀ r ∈ RA, Spec.LinearAt ((A.map StampedPose.t).map (· + c)) (A.map fun p => p.pose.pos) r.t r.pose.pos ∧
      (Spec.Snapped ((A.map StampedPose.t).map (· + c)) (A.map fun p => p.pose.q) r.t r.pose.q ∨
        Spec.Interpolated ((A.map StampedPose.t).map (· + c)) (A.map fun p => p.pose.q) r.t r.pose.q ∧
        ∀ (k : ℕ) (tl tr : ℝ), ((A.map StampedPose.t).map (· + c))[k]? = some tl →
          ((A.map StampedPose.t).map (· + c))[k + 1]? = some tr → tl < r.t → r.t < tr →
            1e-16 + 1e-5 * |tr| < tr - r.t)) ∧
    ∀ r ∈ RB, Spec.LinearAt (B.map StampedPose.t) (B.map fun p => p.pose.pos) r.t r.pose.pos ∧
      (Spec.Snapped (B.map StampedPose.t) (B.map fun p => p.pose.q) r.t r.pose.q ∨
        Spec.Interpolated (B.map StampedPose.t) (B.map fun p => p.pose.q) r.t r.pose.q ∧
        ∀ (k : ℕ) (tl tr : ℝ), (B.map StampedPose.t)[k]? = some tl →
          (B.map StampedPose.t)[k + 1]? = some tr → tl < r.t → r.t < tr → 1e-16 + 1e-5 * |tr| < tr - r.t) := by
  have hnA : (A.map StampedPose.t).map (· + c) ≠ [] := by
    intro e
    have := congrArg List.length e
    simp at this
    subst this
    simp at hA2
  have hnB : B.map StampedPose.t ≠ [] := by
    intro e
    have := congrArg List.length e
    simp at this
    subst this
    simp at hB2
  have eA0 := List.head?_eq_some_head hnA
  have eA1 := List.getLast?_eq_some_getLast hnA
  have eB0 := List.head?_eq_some_head hnB
  have eB1 := List.getLast?_eq_some_getLast hnB
  obtain ⟨RA', RB', low, high, mlow, mhigh, h1, -, -, -, -, h6, h7, h8, h9, h10⟩ :=
    aligned_outcome hA hB hA2 hB2 hAu hBu eA0 eA1 eB0 eB1
  have he := Except.ok.inj (h1.symm.trans h)
  obtain ⟨rfl, rfl⟩ := Prod.mk.inj he
  constructor
  · have := interpolate_content (poses := shiftTimes c A) (by
        rw [shiftTimes_t]; exact hA.map _ fun a b h => by simpa using h)
      (by intro p hp; obtain ⟨p', hp', rfl⟩ := List.mem_map.mp hp; exact hAu p' hp')
      (by rw [shiftTimes_t]; exact eA0) (by rw [shiftTimes_t]; exact eA1)
      (fun s hs => ⟨(h10 s hs).1, (h10 s hs).2.1⟩) h8
    simpa only [shiftTimes_t, shiftTimes_pos, shiftTimes_q] using this
  · exact interpolate_content hB hBu eB0 eB1 (fun s hs => (h10 s hs).2.2) h9

/-- The positions of all rows lie on the recorded tracks, which are linear between the stamps. -/
theorem C70_positions (A B RA RB : List StampedPose) (c : ℝ)
    (hA : (A.map StampedPose.t).Pairwise (· < ·)) (hB : (B.map StampedPose.t).Pairwise (· < ·))
    (hA2 : 2 ≤ A.length) (hB2 : 2 ≤ B.length)
    (hAu : ∀ p ∈ A, p.pose.q.norm = 1) (hBu : ∀ p ∈ B, p.pose.q.norm = 1)
    (h : computeAlignedPoses A B c = .ok (RA, RB)) :
    (∀ r ∈ RA, Spec.LinearAt ((A.map StampedPose.t).map (· + c)) (A.map fun p => p.pose.pos) r.t r.pose.pos) ∧
    ∀ r ∈ RB, Spec.LinearAt (B.map StampedPose.t) (B.map fun p => p.pose.pos) r.t r.pose.pos := by
  obtain ⟨h1, h2⟩ := aligned_content hA hB hA2 hB2 hAu hBu h
  exact ⟨fun r hr => (h1 r hr).1, fun r hr => (h2 r hr).1⟩

theorem recorded_content {times : List ℝ} {qs : List Quat} {ps : List Vec3} {s : ℝ} {q : Quat} {p : Vec3}
    (h : times.Pairwise (· < ·)) {k : ℕ} (hk : times[k]? = some s) (hp : Spec.LinearAt times ps s p)
    (hq : Spec.Snapped times qs s q ∨ Spec.Interpolated times qs s q) : ps[k]? = some p ∧ qs[k]? = some q := by
  obtain ⟨hk', hks⟩ := List.getElem?_eq_some_iff.mp hk
  have same : ∀ j : ℕ, times[j]? = some s → j = k := by
    intro j hj
    obtain ⟨hj', hjs⟩ := List.getElem?_eq_some_iff.mp hj
    rcases lt_trichotomy j k with hjk | hjk | hjk
    · have := (sorted_lt_iff h hj' hk').mpr hjk
      rw [hjs, hks] at this
      exact absurd this (lt_irrefl _)
    · exact hjk
    · have := (sorted_lt_iff h hk' hj').mpr hjk
      rw [hjs, hks] at this
      exact absurd this (lt_irrefl _)
  have between : ∀ (j : ℕ) (tl tr : ℝ), times[j]? = some tl → times[j + 1]? = some tr → tl < s → s < tr → False := by
    intro j tl tr h1 h2 h3 h4
    obtain ⟨h1', rfl⟩ := List.getElem?_eq_some_iff.mp h1
    obtain ⟨h2', rfl⟩ := List.getElem?_eq_some_iff.mp h2
    rw [← hks] at h3 h4
    have := (sorted_lt_iff h h1' hk').mp h3
    have := (sorted_lt_iff h hk' h2').mp h4
    omega
  constructor
  · rcases hp with ⟨j, h1, h2⟩ | ⟨j, tl, tr, -, -, h1, h2, -, -, h3, h4, -⟩
    · rw [← same j h1]; exact h2
    · exact (between j tl tr h1 h2 h3 h4).elim
  · rcases hq with ⟨j, tl, tr, h1, h2, h3, h4, -⟩ | ⟨j, h1, h2⟩ | ⟨j, tl, tr, -, -, h1, h2, -, -, h3, h4, -⟩
    · exact (between j tl tr h1 h2 h3 h4).elim
    · rw [← same j h1]; exact h2
    · exact (between j tl tr h1 h2 h3 h4).elim

theorem pose_ext {a b : Pose} (h1 : a.pos = b.pos) (h2 : a.q = b.q) : a = b := by
  cases a; cases b; cases h1; cases h2; rfl

/-- The rows at the time of a recorded pose are that pose. -/
theorem C70_recorded (A B RA RB : List StampedPose) (c : ℝ)
    (hA : (A.map StampedPose.t).Pairwise (· < ·)) (hB : (B.map StampedPose.t).Pairwise (· < ·))
    (hA2 : 2 ≤ A.length) (hB2 : 2 ≤ B.length)
    (hAu : ∀ p ∈ A, p.pose.q.norm = 1) (hBu : ∀ p ∈ B, p.pose.q.norm = 1)
    (h : computeAlignedPoses A B c = .ok (RA, RB)) :
    (∀ r ∈ RA, ∀ p ∈ A, r.t = p.t + c → r.pose = p.pose) ∧ ∀ r ∈ RB, ∀ p ∈ B, r.t = p.t → r.pose = p.pose := by
  obtain ⟨h1, h2⟩ := aligned_content hA hB hA2 hB2 hAu hBu h
  constructor
  · intro r hr p hp ht
    obtain ⟨k, hk, rfl⟩ := List.mem_iff_getElem.mp hp
    obtain ⟨e1, e2⟩ := recorded_content (k := k) (hA.map _ fun a b h => by simpa using h)
      (by rw [ht]; simp [hk]) (h1 r hr).1 ((h1 r hr).2.imp_right And.left)
    simp only [List.getElem?_map, List.getElem?_eq_getElem hk, Option.map_some, Option.some.injEq] at e1 e2
    exact pose_ext e1.symm e2.symm
  · intro r hr p hp ht
    obtain ⟨k, hk, rfl⟩ := List.mem_iff_getElem.mp hp
    obtain ⟨e1, e2⟩ := recorded_content (k := k) hB (by rw [ht]; simp [hk]) (h2 r hr).1 ((h2 r hr).2.imp_right And.left)
    simp only [List.getElem?_map, List.getElem?_eq_getElem hk, Option.map_some, Option.some.injEq] at e1 e2
    exact pose_ext e1.symm e2.symm

/-- A row at a recorded time, at Unix times (for a table with such rows see the example at the end). -/
example (RA RB : List StampedPose) (h : computeAlignedPoses
    [⟨1e9, ⟨⟨0, 0, 0⟩, ⟨0, 0, 0, 1⟩⟩⟩, ⟨1e9 + 0.08, ⟨⟨1, 0, 0⟩, ⟨0, 0.6, 0, 0.8⟩⟩⟩, ⟨1e9 + 0.16, ⟨⟨2, 0, 0⟩, ⟨0, 0, 0, 1⟩⟩⟩]
    [⟨1e9, ⟨⟨0, 0, 0⟩, ⟨0, 0, 0, 1⟩⟩⟩, ⟨1e9 + 0.06, ⟨⟨1, 0, 0⟩, ⟨0, 0, 0, 1⟩⟩⟩, ⟨1e9 + 0.12, ⟨⟨2, 0, 0⟩, ⟨0, 0, 1, 0⟩⟩⟩] 0 =
    .ok (RA, RB)) (r : StampedPose) (hr : r ∈ RA) (ht : r.t = 1e9 + 0.08) : r.pose = ⟨⟨1, 0, 0⟩, ⟨0, 0.6, 0, 0.8⟩⟩ := by
  have n1 : (⟨0, 0, 0, 1⟩ : Quat).norm = 1 := Quat.norm_eq_one.mpr (by norm_num [Quat.dot])
  have n2 : (⟨0, 0, 1, 0⟩ : Quat).norm = 1 := Quat.norm_eq_one.mpr (by norm_num [Quat.dot])
  have n3 : (⟨0, 0.6, 0, 0.8⟩ : Quat).norm = 1 := Quat.norm_eq_one.mpr (by norm_num [Quat.dot])
  refine (C70_recorded _ _ RA RB 0 (by norm_num) (by norm_num) (by simp) (by simp) ?_ ?_ h).1 r hr
    ⟨1e9 + 0.08, ⟨⟨1, 0, 0⟩, ⟨0, 0.6, 0, 0.8⟩⟩⟩ (by simp) (by rw [ht, add_zero])
  · simp [n1, n3]
  · simp [n1, n2]

/-- The orientations lie on the arcs between the recorded ones, for rows which are further from the next stamp than
1e-5 of its value (see `C70_recorded` for the rows which are recorded).  `_partial`: for the other rows see
`C70_unix_refuted`. -/
theorem C70_orientations_partial (A B RA RB : List StampedPose) (c : ℝ)
    (hA : (A.map StampedPose.t).Pairwise (· < ·)) (hB : (B.map StampedPose.t).Pairwise (· < ·))
    (hA2 : 2 ≤ A.length) (hB2 : 2 ≤ B.length)
    (hAu : ∀ p ∈ A, p.pose.q.norm = 1) (hBu : ∀ p ∈ B, p.pose.q.norm = 1)
    (h : computeAlignedPoses A B c = .ok (RA, RB)) :
    (∀ r ∈ RA, (∀ p ∈ A, r.t < p.t + c → 1e-16 + 1e-5 * |p.t + c| < p.t + c - r.t) →
      Spec.Interpolated ((A.map StampedPose.t).map (· + c)) (A.map fun p => p.pose.q) r.t r.pose.q) ∧
    ∀ r ∈ RB, (∀ p ∈ B, r.t < p.t → 1e-16 + 1e-5 * |p.t| < p.t - r.t) →
      Spec.Interpolated (B.map StampedPose.t) (B.map fun p => p.pose.q) r.t r.pose.q := by
  obtain ⟨h1, h2⟩ := aligned_content hA hB hA2 hB2 hAu hBu h
  constructor
  · intro r hr hfar
    rcases (h1 r hr).2 with ⟨k, tl, tr, -, e2, -, e4, e5, -⟩ | e
    · obtain ⟨t, ht, rfl⟩ := List.mem_map.mp (List.mem_of_getElem? e2)
      obtain ⟨p, hp, rfl⟩ := List.mem_map.mp ht
      have := hfar p hp e4
      linarith
    · exact e.1
  · intro r hr hfar
    rcases (h2 r hr).2 with ⟨k, tl, tr, -, e2, -, e4, e5, -⟩ | e
    · obtain ⟨p, hp, rfl⟩ := List.mem_map.mp (List.mem_of_getElem? e2)
      have := hfar p hp e4
      linarith
    · exact e.1

/-- At Unix times every row of the second result between two stamps has the orientation of the later one, while its
position is in between. -/
theorem C70_unix_refuted (A B RA RB : List StampedPose) (c : ℝ)
    (hA : (A.map StampedPose.t).Pairwise (· < ·)) (hB : (B.map StampedPose.t).Pairwise (· < ·))
    (hA2 : 2 ≤ A.length) (hB2 : 2 ≤ B.length)
    (hAu : ∀ p ∈ A, p.pose.q.norm = 1) (hBu : ∀ p ∈ B, p.pose.q.norm = 1)
    (h : computeAlignedPoses A B c = .ok (RA, RB)) (r : StampedPose) (hr : r ∈ RB) (k : ℕ) (p q : StampedPose)
    (hp : B[k]? = some p) (hq : B[k + 1]? = some q) (h1 : p.t < r.t) (h2 : r.t < q.t) (hunix : 1e9 ≤ q.t)
    (hgap : q.t - p.t ≤ 10000) :
    r.pose.q = q.pose.q ∧ r.pose.pos.x = p.pose.pos.x + (r.t - p.t) / (q.t - p.t) * (q.pose.pos.x - p.pose.pos.x) := by
  obtain ⟨-, h3⟩ := aligned_content hA hB hA2 hB2 hAu hBu h
  obtain ⟨g1, g2⟩ := h3 r hr
  have hp' : (B.map StampedPose.t)[k]? = some p.t := by rw [List.getElem?_map, hp]; rfl
  have hq' : (B.map StampedPose.t)[k + 1]? = some q.t := by rw [List.getElem?_map, hq]; rfl
  -- the neighbours of `r.t` are unique
  have huniq : ∀ (j : ℕ) (tl tr : ℝ), (B.map StampedPose.t)[j]? = some tl → (B.map StampedPose.t)[j + 1]? = some tr →
      tl < r.t → r.t < tr → j = k := by
    intro j tl tr e1 e2 e3 e4
    obtain ⟨i1, rfl⟩ := List.getElem?_eq_some_iff.mp e1
    obtain ⟨i2, rfl⟩ := List.getElem?_eq_some_iff.mp e2
    obtain ⟨i3, e5⟩ := List.getElem?_eq_some_iff.mp hp'
    obtain ⟨i4, e6⟩ := List.getElem?_eq_some_iff.mp hq'
    have a1 := (sorted_lt_iff hB i1 i4).mp (by rw [e6]; linarith)
    have a2 := (sorted_lt_iff hB i3 i2).mp (by rw [e5]; linarith)
    omega
  have hrec : ∀ j : ℕ, (B.map StampedPose.t)[j]? ≠ some r.t := by
    intro j e1
    obtain ⟨i1, e2⟩ := List.getElem?_eq_some_iff.mp e1
    obtain ⟨i3, e5⟩ := List.getElem?_eq_some_iff.mp hp'
    obtain ⟨i4, e6⟩ := List.getElem?_eq_some_iff.mp hq'
    have a1 := (sorted_lt_iff hB i1 i4).mp (by rw [e6, e2]; linarith)
    have a2 := (sorted_lt_iff hB i3 i1).mp (by rw [e5, e2]; linarith)
    omega
  constructor
  · rcases g2 with ⟨j, tl, tr, e1, e2, e3, e4, -, e6⟩ | ⟨-, e⟩
    · obtain rfl := huniq j tl tr e1 e2 e3 e4
      rw [List.getElem?_map, hq] at e6
      exact (Option.some.inj e6).symm
    · have := e k p.t q.t hp' hq' h1 h2
      rw [abs_of_pos (by linarith)] at this
      linarith
  · rcases g1 with ⟨j, e1, -⟩ | ⟨j, tl, tr, pl, pr, e1, e2, e3, e4, e5, e6, e7, -, -⟩
    · exact absurd e1 (hrec j)
    · obtain rfl := huniq j tl tr e1 e2 e5 e6
      rw [hp'] at e1
      rw [hq'] at e2
      rw [List.getElem?_map, hp] at e3
      rw [List.getElem?_map, hq] at e4
      cases e1; cases e2; cases e3; cases e4
      exact e7

theorem median_const {l : List ℝ} {d m : ℝ} (h : Spec.IsMedian l m) (hl : ∀ x ∈ l, x = d) : m = d := by
  obtain ⟨s, a, b, hp, -, ha, hb, rfl⟩ := h
  rw [hl a (hp.mem_iff.mp (List.mem_of_getElem? ha)), hl b (hp.mem_iff.mp (List.mem_of_getElem? hb))]
  ring

/-- Two tables at Unix times, 0.08 s and 0.06 s apart: the row at 0.08 s of the second table has the position
a third of the way between its neighbours, but the orientation of the later one, half a turn away from the earlier. -/
example : ∃ RA RB, computeAlignedPoses
    [⟨1e9, ⟨⟨0, 0, 0⟩, ⟨0, 0, 0, 1⟩⟩⟩, ⟨1e9 + 0.08, ⟨⟨1, 0, 0⟩, ⟨0, 0, 0, 1⟩⟩⟩, ⟨1e9 + 0.16, ⟨⟨2, 0, 0⟩, ⟨0, 0, 0, 1⟩⟩⟩]
    [⟨1e9, ⟨⟨0, 0, 0⟩, ⟨0, 0, 0, 1⟩⟩⟩, ⟨1e9 + 0.06, ⟨⟨1, 0, 0⟩, ⟨0, 0, 0, 1⟩⟩⟩,
      ⟨1e9 + 0.12, ⟨⟨2, 0, 0⟩, ⟨0, 0, 1, 0⟩⟩⟩, ⟨1e9 + 0.18, ⟨⟨3, 0, 0⟩, ⟨0, 0, 0, 1⟩⟩⟩] 0 = .ok (RA, RB) ∧
    ∃ r ∈ RB, r.t = 1e9 + 0.08 ∧ r.pose.q = ⟨0, 0, 1, 0⟩ ∧ r.pose.pos.x = 4 / 3 := by
  have hq : (⟨0, 0, 0, 1⟩ : Quat).norm = 1 ∧ (⟨0, 0, 1, 0⟩ : Quat).norm = 1 := by
    constructor <;> simp [Quat.norm, Quat.dot]
  have hA : (([⟨1e9, ⟨⟨0, 0, 0⟩, ⟨0, 0, 0, 1⟩⟩⟩, ⟨1e9 + 0.08, ⟨⟨1, 0, 0⟩, ⟨0, 0, 0, 1⟩⟩⟩,
      ⟨1e9 + 0.16, ⟨⟨2, 0, 0⟩, ⟨0, 0, 0, 1⟩⟩⟩] : List StampedPose).map StampedPose.t).Pairwise (· < ·) := by norm_num
  have hB : (([⟨1e9, ⟨⟨0, 0, 0⟩, ⟨0, 0, 0, 1⟩⟩⟩, ⟨1e9 + 0.06, ⟨⟨1, 0, 0⟩, ⟨0, 0, 0, 1⟩⟩⟩,
      ⟨1e9 + 0.12, ⟨⟨2, 0, 0⟩, ⟨0, 0, 1, 0⟩⟩⟩, ⟨1e9 + 0.18, ⟨⟨3, 0, 0⟩, ⟨0, 0, 0, 1⟩⟩⟩] :
      List StampedPose).map StampedPose.t).Pairwise (· < ·) := by norm_num
  obtain ⟨RA, RB, low, high, mlow, mhigh, h1, h2, -, h4, h5, h6, h7, h8, -⟩ := C47_rows
    [⟨1e9, ⟨⟨0, 0, 0⟩, ⟨0, 0, 0, 1⟩⟩⟩, ⟨1e9 + 0.08, ⟨⟨1, 0, 0⟩, ⟨0, 0, 0, 1⟩⟩⟩, ⟨1e9 + 0.16, ⟨⟨2, 0, 0⟩, ⟨0, 0, 0, 1⟩⟩⟩]
    [⟨1e9, ⟨⟨0, 0, 0⟩, ⟨0, 0, 0, 1⟩⟩⟩, ⟨1e9 + 0.06, ⟨⟨1, 0, 0⟩, ⟨0, 0, 0, 1⟩⟩⟩,
      ⟨1e9 + 0.12, ⟨⟨2, 0, 0⟩, ⟨0, 0, 1, 0⟩⟩⟩, ⟨1e9 + 0.18, ⟨⟨3, 0, 0⟩, ⟨0, 0, 0, 1⟩⟩⟩] 0
    1e9 (1e9 + 0.16) 1e9 (1e9 + 0.18) hA hB (by simp) (by simp) (by simp [hq]) (by simp [hq])
    (by norm_num) (by norm_num) (by norm_num) (by norm_num)
  have hlow : low = [1e9, 1e9 + 0.08, 1e9 + 0.16] ∧ high = [1e9, 1e9 + 0.06, 1e9 + 0.12, 1e9 + 0.18] := by
    rcases h4 with ⟨rfl, rfl⟩ | ⟨rfl, rfl, hlt⟩
    · simp
    · have e1 := median_const (d := 0.06) h5 (by norm_num [Spec.steps])
      have e2 := median_const (d := 0.08) h6 (by norm_num [Spec.steps])
      rw [e1, e2] at hlt
      norm_num at hlt
  obtain ⟨rfl, rfl⟩ := hlow
  refine ⟨RA, RB, h1, ?_⟩
  have hm : (1e9 + 0.08 : ℝ) ∈ RB.map StampedPose.t := by
    rw [← h2, h8]
    refine ⟨by simp, by norm_num, by norm_num, Or.inr ⟨1, 1e9 + 0.06, 1e9 + 0.12, rfl, rfl, by simp, ?_⟩⟩
    norm_num
  obtain ⟨r, hr, hrt⟩ := List.mem_map.mp hm
  obtain ⟨e1, e2⟩ := C70_unix_refuted _ _ RA RB 0 hA hB (by simp) (by simp) (by simp [hq]) (by simp [hq]) h1 r hr 1
    _ _ rfl rfl (by rw [hrt]; norm_num) (by rw [hrt]; norm_num) (by norm_num) (by norm_num)
  refine ⟨r, hr, hrt, e1, ?_⟩
  rw [e2, hrt]
  norm_num

end HandEye
