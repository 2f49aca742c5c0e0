import Verif.Model.AlignScript
import Verif.Props.Csv
import Verif.Props.AlignedContent
import Verif.Props.AlignedRegular
import Verif.Props.ClockFrames

/-! # Property C74: the script that aligns two recordings -/

namespace HandEye

/-- Reading a table of unit quaternions. -/
theorem posesFromTable_unit {T : List StampedPose} (h0 : T ≠ []) (h : ∀ p ∈ T, p.pose.q.norm = 1) :
    posesFromTable false T = .ok (T, T.map StampedPose.t, T.map fun p => p.pose.q) ∧
    posesFromTable true T = .ok (T, T.map StampedPose.t, T.map fun p => Spec.mirrored p.pose.q) := by
  have hm : T.mapM StampedPose.normalized = .ok T := by
    rw [Py.mapM_eq_ok]
    refine List.forall₂_same.mpr fun p hp => ?_
    unfold StampedPose.normalized Quat.divScalar
    rw [h p hp]
    simp
  constructor
  · unfold posesFromTable
    rw [pyRequire_pos h0, Py.ok_bind, hm, Py.ok_bind]
    simp
  · unfold posesFromTable
    rw [pyRequire_pos h0, Py.ok_bind, hm, Py.ok_bind]
    simp [Spec.mirrored]

theorem unitMultiple_norm {q r : Quat} (h : Spec.UnitMultiple q r) : r.norm = 1 := by
  rw [Quat.norm_eq_one]
  simp only [Quat.dot]
  have := h.1
  linarith

/-- The script on two regular recordings of unit quaternions, if the offset is a multiple of the longer period. -/
theorem alignScript_regular {dt ta tb : ℝ} (hdt : 0 < dt) {n rA rB : ℕ} (hn : 0 < n) (hrA : 1 ≤ rA) (hrB : 1 ≤ rB)
    (hr : rA = 1 ∨ rB = 1) {m : ℤ} {PA PB : ℕ → Pose} (hA : ∀ i, (PA i).q.norm = 1) (hB : ∀ i, (PB i).q.norm = 1)
    {fmt : String} {jpl : Bool} (hf : fmt = if jpl then "JPL" else "Hamilton")
    (hoff : calculateTimeOffset (Spec.regular ta (dt / rA) (rA * n))
      ((List.range (rA * n + 1)).map fun i => if jpl then Spec.mirrored (PA i).q else (PA i).q)
      (Spec.regular tb (dt / rB) (rB * n))
      ((List.range (rB * n + 1)).map fun i => if jpl then Spec.mirrored (PB i).q else (PB i).q) {} = .ok (dt * m + tb - ta)) :
    ∃ idx : List ℤ, alignScript ⟨Spec.recording ta (dt / rA) (rA * n) PA, Spec.recording tb (dt / rB) (rB * n) PB, true, fmt⟩ =
        .ok ⟨idx.map fun (i : ℤ) => ⟨tb + (i + m) * dt, PA (rA * i.toNat)⟩,
          idx.map fun (i : ℤ) => ⟨tb + (i + m) * dt, PB (rB * (i + m).toNat)⟩, some (dt * m + tb - ta)⟩ ∧
      (∀ i ∈ idx, (0 ≤ i ∧ i ≤ n) ∧ 0 ≤ i + m ∧ i + m ≤ n) ∧
      (∀ i : ℤ, 0 ≤ i → i < n → 0 ≤ i + m → i + m < n → i ∈ idx) ∧ idx.Pairwise (· < ·) := by
  obtain ⟨idx, hal, h⟩ := aligned_regular (ta := ta) (tb := tb) hdt hn hrA hrB hr (m := m) hA hB
  refine ⟨idx, ?_, h⟩
  have ne : ∀ {t d : ℝ} {N : ℕ} {P : ℕ → Pose}, Spec.recording t d N P ≠ [] := by
    intro t d N P h
    have := congrArg List.length h
    rw [recording_length] at this
    cases this
  have un : ∀ {t d : ℝ} {N : ℕ} {P : ℕ → Pose}, (∀ i, (P i).q.norm = 1) →
      ∀ p ∈ Spec.recording t d N P, p.pose.q.norm = 1 := by
    intro t d N P h p hp
    obtain ⟨i, -, rfl⟩ := mem_recording.mp hp
    exact h i
  have rd : ∀ {t d : ℝ} {N : ℕ} {P : ℕ → Pose}, (∀ i, (P i).q.norm = 1) → posesFromTable jpl (Spec.recording t d N P) =
      .ok (Spec.recording t d N P, Spec.regular t d N,
        (List.range (N + 1)).map fun i => if jpl then Spec.mirrored (P i).q else (P i).q) := by
    intro t d N P h
    cases jpl
    · rw [(posesFromTable_unit ne (un h)).1, recording_t, recording_q]
      rfl
    · rw [(posesFromTable_unit ne (un h)).2, recording_t, Spec.recording, List.map_map]
      rfl
  have hj : useJPLQuaternion fmt = .ok jpl := by
    rw [hf]
    unfold useJPLQuaternion
    cases jpl <;> simp
  unfold alignScript
  rw [hj, Py.ok_bind, rd hA, Py.ok_bind]
  dsimp only
  rw [rd hB, Py.ok_bind]
  dsimp only
  rw [hoff, Py.ok_bind, hal, Py.ok_bind]
  rfl

/-- The script, step by step. -/
theorem alignScript_ok {args : AlignArgs} {jpl : Bool} (hf : args.quaternion_format = if jpl then "JPL" else "Hamilton")
    (hA : ∀ p ∈ args.poses_B_H, p.pose.q ≠ 0) (hB : ∀ p ∈ args.poses_W_E, p.pose.q ≠ 0)
    (hA0 : args.poses_B_H ≠ []) (hB0 : args.poses_W_E ≠ []) {out : AlignOutput} (h : alignScript args = .ok out) :
    ∃ (A B : List StampedPose) (c : ℝ), Spec.ReadAs args.poses_B_H A ∧ Spec.ReadAs args.poses_W_E B ∧
      (∀ p ∈ A, p.pose.q.norm = 1) ∧ (∀ p ∈ B, p.pose.q.norm = 1) ∧
      calculateTimeOffset (A.map StampedPose.t) (A.map fun p => if jpl then Spec.mirrored p.pose.q else p.pose.q)
        (B.map StampedPose.t) (B.map fun p => if jpl then Spec.mirrored p.pose.q else p.pose.q) {} = .ok c ∧
      computeAlignedPoses A B c = .ok (out.aligned_poses_B_H, out.aligned_poses_W_E) ∧
      out.time_offset = if args.time_offset_output then some c else none := by
  obtain ⟨A, fA, rA, rA'⟩ := posesFromTable_ok hA0 hA
  obtain ⟨B, fB, rB, rB'⟩ := posesFromTable_ok hB0 hB
  have hj : useJPLQuaternion args.quaternion_format = .ok jpl := by
    rw [hf]
    unfold useJPLQuaternion
    cases jpl <;> simp
  have hr : ∀ {T R : List StampedPose}, posesFromTable false T = .ok (R, R.map StampedPose.t, R.map fun r => r.pose.q) →
      posesFromTable true T = .ok (R, R.map StampedPose.t, R.map fun r => Spec.mirrored r.pose.q) →
      posesFromTable jpl T = .ok (R, R.map StampedPose.t, R.map fun p => if jpl then Spec.mirrored p.pose.q else p.pose.q) := by
    intro T R h1 h2
    cases jpl
    · exact h1
    · exact h2
  unfold alignScript at h
  rw [hj, Py.ok_bind, hr rA rA', Py.ok_bind] at h
  dsimp only at h
  rw [hr rB rB', Py.ok_bind] at h
  dsimp only at h
  obtain ⟨c, hc, h⟩ := Py.bind_eq_ok.mp h
  obtain ⟨⟨RA, RB⟩, hR, h⟩ := Py.bind_eq_ok.mp h
  cases h
  have unit : ∀ {T R : List StampedPose}, List.Forall₂ (fun p r => r.t = p.t ∧ r.pose.pos = p.pose.pos ∧
      Spec.UnitMultiple p.pose.q r.pose.q) T R → ∀ r ∈ R, r.pose.q.norm = 1 := by
    intro T R hF r hr
    obtain ⟨i, hi, rfl⟩ := List.mem_iff_getElem.mp hr
    exact unitMultiple_norm ((List.forall₂_iff_get.mp hF).2 i (by rw [hF.length_eq]; exact hi) hi).2.2
  exact ⟨A, B, c, fA, fB, unit fA, unit fB, hc, hR, rfl⟩

/-- **C74**: only two formats of quaternions are accepted. -/
theorem C74_format (args : AlignArgs) (h1 : args.quaternion_format ≠ "JPL") (h2 : args.quaternion_format ≠ "Hamilton") :
    alignScript args = .error .assertion := by
  unfold alignScript useJPLQuaternion
  rw [if_neg h1, if_neg h2]
  rfl

example (A B : List StampedPose) : alignScript ⟨A, B, true, "hamilton"⟩ = .error .assertion :=
  C74_format _ (by simp) (by simp)

theorem readAs_times {T R : List StampedPose} (h : Spec.ReadAs T R) : R.map StampedPose.t = T.map StampedPose.t := by
  have : List.Forall₂ (fun a b => a = b) (R.map StampedPose.t) (T.map StampedPose.t) := by
    rw [List.forall₂_map_left_iff, List.forall₂_map_right_iff]
    exact (h.imp fun a b hab => hab.1).flip
  exact List.forall₂_eq_eq_eq ▸ this

/-- **C74**, for quaternions in Hamilton's convention: the two files that are written have the same stamps; the rows are
the poses of the two inputs at these times, those of the first after its stamps have been moved by the offset that is
written to the third file.  `_partial`: like C70, the orientations are only right for rows that are not close to the
next stamp without being recorded; and for JPL quaternions see `C74_jpl_refuted`. -/
theorem C74_hamilton_partial (args : AlignArgs) (hf : args.quaternion_format = "Hamilton")
    (hA : ∀ p ∈ args.poses_B_H, p.pose.q ≠ 0) (hB : ∀ p ∈ args.poses_W_E, p.pose.q ≠ 0)
    (hA2 : 2 ≤ args.poses_B_H.length) (hB2 : 2 ≤ args.poses_W_E.length)
    (sA : (args.poses_B_H.map StampedPose.t).Pairwise (· < ·)) (sB : (args.poses_W_E.map StampedPose.t).Pairwise (· < ·))
    (out : AlignOutput) (h : alignScript args = .ok out) :
    ∃ (A B : List StampedPose) (c : ℝ), Spec.ReadAs args.poses_B_H A ∧ Spec.ReadAs args.poses_W_E B ∧
      (args.time_offset_output = true → out.time_offset = some c) ∧
      out.aligned_poses_B_H.map StampedPose.t = out.aligned_poses_W_E.map StampedPose.t ∧
      (∀ r ∈ out.aligned_poses_B_H,
        Spec.LinearAt ((A.map StampedPose.t).map (· + c)) (A.map fun p => p.pose.pos) r.t r.pose.pos ∧
        (∀ p ∈ A, r.t = p.t + c → r.pose = p.pose) ∧
        ((∀ p ∈ A, r.t < p.t + c → 1e-16 + 1e-5 * |p.t + c| < p.t + c - r.t) →
          Spec.Interpolated ((A.map StampedPose.t).map (· + c)) (A.map fun p => p.pose.q) r.t r.pose.q)) ∧
      (∀ r ∈ out.aligned_poses_W_E,
        Spec.LinearAt (B.map StampedPose.t) (B.map fun p => p.pose.pos) r.t r.pose.pos ∧
        (∀ p ∈ B, r.t = p.t → r.pose = p.pose) ∧
        ((∀ p ∈ B, r.t < p.t → 1e-16 + 1e-5 * |p.t| < p.t - r.t) →
          Spec.Interpolated (B.map StampedPose.t) (B.map fun p => p.pose.q) r.t r.pose.q)) := by
  obtain ⟨A, B, c, fA, fB, uA, uB, -, hR, ho⟩ := alignScript_ok (jpl := false) hf hA hB
    (by rintro e; rw [e] at hA2; simp at hA2) (by rintro e; rw [e] at hB2; simp at hB2) h
  rw [← readAs_times fA] at sA
  rw [← readAs_times fB] at sB
  have lA : 2 ≤ A.length := by rw [← fA.length_eq]; exact hA2
  have lB : 2 ≤ B.length := by rw [← fB.length_eq]; exact hB2
  obtain ⟨p1, p2⟩ := C70_positions A B _ _ c sA sB lA lB uA uB hR
  obtain ⟨r1, r2⟩ := C70_recorded A B _ _ c sA sB lA lB uA uB hR
  obtain ⟨o1, o2⟩ := C70_orientations_partial A B _ _ c sA sB lA lB uA uB hR
  refine ⟨A, B, c, fA, fB, fun hw => by rw [ho, hw]; rfl, ?_, fun r hr => ⟨p1 r hr, r1 r hr, o1 r hr⟩,
    fun r hr => ⟨p2 r hr, r2 r hr, o2 r hr⟩⟩
  obtain ⟨RA, RB, _, _, _, _, e, -, -, -, -, e6, e7, -⟩ := aligned_outcome (c := c) sA sB lA lB uA uB
    (List.head?_eq_some_head (by intro e; simp at e; rw [e] at lA; simp at lA))
    (List.getLast?_eq_some_getLast (by intro e; simp at e; rw [e] at lA; simp at lA))
    (List.head?_eq_some_head (by intro e; simp at e; rw [e] at lB; simp at lB))
    (List.getLast?_eq_some_getLast (by intro e; simp at e; rw [e] at lB; simp at lB))
  rw [hR] at e
  obtain ⟨rfl, rfl⟩ := Prod.mk.inj (Except.ok.inj e)
  rw [e6, e7]

/-- The recordings of the example of C73: a row is the middle one of the turns, seen from the second frame. -/
noncomputable def demoA (i : ℕ) : Pose := ⟨⟨0, 0, 0⟩, demo i⟩
noncomputable def demoB (j : ℕ) : Pose := ⟨⟨0, 0, 0⟩, demoFrame * demo (j / 2 - 5) * ⟨0, 0, 0.6, 0.8⟩⟩

theorem demoB_unit (j : ℕ) : (demoB j).q.norm = 1 := by
  unfold demoB
  rw [Quat.norm_eq_one, Quat.dot_mul_right, Quat.dot_mul_left, Quat.norm_eq_one.mp (demo_unit _)]
  norm_num [Quat.dot, demoFrame]

theorem demo_offset_poses : calculateTimeOffset (Spec.regular 100 (1 / (1 : ℕ)) (1 * 70)) ((List.range (1 * 70 + 1)).map fun i => (demoA i).q)
    (Spec.regular 7 (1 / (2 : ℕ)) (2 * 70)) ((List.range (2 * 70 + 1)).map fun i => (demoB i).q) {} =
      .ok (1 * (5 : ℤ) + 7 - 100) := by
  refine demo_offset _ _ (fun i _ => Or.inl (by rw [one_mul]; rfl)) (fun i _ => Or.inl ?_)
  simp only [demoB]
  rw [show ((2 * i : ℕ) : ℤ) / 2 = i from by omega]

/-- The script ends normally for the two recordings, and writes a row for the middle of the movement. -/
example : ∃ out, alignScript ⟨Spec.recording 100 (1 / (1 : ℕ)) (1 * 70) demoA, Spec.recording 7 (1 / (2 : ℕ)) (2 * 70) demoB, true,
      "Hamilton"⟩ = .ok out ∧ out.time_offset = some (-88) ∧
    (⟨44, demoA 32⟩ : StampedPose) ∈ out.aligned_poses_B_H ∧ (⟨44, demoB 74⟩ : StampedPose) ∈ out.aligned_poses_W_E := by
  obtain ⟨idx, h, -, hex, -⟩ := alignScript_regular (fmt := "Hamilton") (jpl := false) one_pos (by norm_num : 0 < 70) le_rfl one_le_two (Or.inl rfl)
    (fun i => demo_unit i) demoB_unit rfl demo_offset_poses
  have hm := hex 32 (by norm_num) (by norm_num) (by norm_num) (by norm_num)
  refine ⟨_, h, congrArg some (by norm_num), List.mem_map.mpr ⟨32, hm, ?_⟩, List.mem_map.mpr ⟨32, hm, ?_⟩⟩
  · rw [show (32 : ℤ).toNat = 32 from rfl]
    norm_num
  · rw [show ((32 : ℤ) + 5).toNat = 37 from rfl]
    norm_num

/-- **C74** fails for JPL quaternions: the rows at recorded times are written with the quaternions of the input, not
with the converted ones as the help text says.  They are the converted ones for rows without rotation only. -/
theorem C74_jpl_refuted (args : AlignArgs) (hf : args.quaternion_format = "JPL")
    (hA : ∀ p ∈ args.poses_B_H, p.pose.q ≠ 0) (hB : ∀ p ∈ args.poses_W_E, p.pose.q ≠ 0)
    (hA2 : 2 ≤ args.poses_B_H.length) (hB2 : 2 ≤ args.poses_W_E.length)
    (sA : (args.poses_B_H.map StampedPose.t).Pairwise (· < ·)) (sB : (args.poses_W_E.map StampedPose.t).Pairwise (· < ·))
    (out : AlignOutput) (h : alignScript args = .ok out) (r p : StampedPose) (hr : r ∈ out.aligned_poses_W_E)
    (hp : p ∈ args.poses_W_E) (ht : r.t = p.t) :
    Spec.UnitMultiple p.pose.q r.pose.q ∧
    (¬(p.pose.q.x = 0 ∧ p.pose.q.y = 0 ∧ p.pose.q.z = 0) → ¬ Spec.UnitMultiple (Spec.mirrored p.pose.q) r.pose.q) := by
  obtain ⟨A, B, c, fA, fB, uA, uB, -, hR, ho⟩ := alignScript_ok (jpl := true) hf hA hB
    (by rintro e; rw [e] at hA2; simp at hA2) (by rintro e; rw [e] at hB2; simp at hB2) h
  rw [← readAs_times fA] at sA
  rw [← readAs_times fB] at sB
  have lA : 2 ≤ A.length := by rw [← fA.length_eq]; exact hA2
  have lB : 2 ≤ B.length := by rw [← fB.length_eq]; exact hB2
  obtain ⟨-, r2⟩ := C70_recorded A B _ _ c sA sB lA lB uA uB hR
  obtain ⟨i, hi, rfl⟩ := List.mem_iff_getElem.mp hp
  obtain ⟨e1, e2, e3⟩ := (List.forall₂_iff_get.mp fB).2 i hi (by rw [← fB.length_eq]; exact hi)
  simp only [List.get_eq_getElem] at e1 e2 e3
  have key := r2 r hr _ (List.getElem_mem _) (ht.trans e1.symm)
  rw [← key] at e3
  refine ⟨e3, fun hv hm => hv ?_⟩
  obtain ⟨-, s, hs, hx, hy, hz, -⟩ := e3
  obtain ⟨-, s', hs', hx', hy', hz', -⟩ := hm
  simp only [Spec.mirrored] at hx' hy' hz'
  have zero : ∀ a b : ℝ, b = s * a → b = s' * -a → a = 0 := by
    intro a b h1 h2
    have : (s + s') * a = 0 := by linarith
    rcases mul_eq_zero.mp this with h | h
    · linarith
    · exact h
  exact ⟨zero _ _ hx hx', zero _ _ hy hy', zero _ _ hz hz'⟩

/-- The same recordings with JPL quaternions: the rows of the output are the rows of the input, although the offset is
that of the converted quaternions. -/
example : ∃ out, alignScript ⟨Spec.recording 100 (1 / (1 : ℕ)) (1 * 70) (fun i => ⟨(demoA i).pos, Spec.mirrored (demoA i).q⟩),
      Spec.recording 7 (1 / (2 : ℕ)) (2 * 70) (fun i => ⟨(demoB i).pos, Spec.mirrored (demoB i).q⟩), true, "JPL"⟩ = .ok out ∧
    out.time_offset = some (-88) ∧
    (⟨44, ⟨⟨0, 0, 0⟩, Spec.mirrored (demo 32)⟩⟩ : StampedPose) ∈ out.aligned_poses_B_H := by
  have um : ∀ q : Quat, q.norm = 1 → (Spec.mirrored q).norm = 1 := by
    intro q h
    rw [Quat.norm_eq_one] at h ⊢
    simpa [Spec.mirrored, Quat.dot] using h
  have mm : ∀ q : Quat, Spec.mirrored (Spec.mirrored q) = q := fun q => by ext <;> simp [Spec.mirrored]
  obtain ⟨idx, h, -, hex, -⟩ := alignScript_regular (fmt := "JPL") (jpl := true) one_pos (by norm_num : 0 < 70) le_rfl one_le_two (Or.inl rfl)
    (PA := fun i => ⟨(demoA i).pos, Spec.mirrored (demoA i).q⟩) (PB := fun i => ⟨(demoB i).pos, Spec.mirrored (demoB i).q⟩)
    (fun i => um _ (demo_unit i)) (fun i => um _ (demoB_unit i)) rfl (by simp only [mm, if_true]; exact demo_offset_poses)
  have hm := hex 32 (by norm_num) (by norm_num) (by norm_num) (by norm_num)
  refine ⟨_, h, congrArg some (by norm_num), List.mem_map.mpr ⟨32, hm, ?_⟩⟩
  rw [show (32 : ℤ).toNat = 32 from rfl]
  norm_num [demoA]

end HandEye
