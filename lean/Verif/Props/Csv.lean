import Verif.Lemmas.Csv
import Verif.Spec.Csv

/-! # C49 and C50: reading and writing pose tables -/

namespace HandEye

theorem normalized_ok {p : StampedPose} (h : p.pose.q ≠ 0) :
    ∃ r, p.normalized = .ok r ∧ r.t = p.t ∧ r.pose.pos = p.pose.pos ∧ Spec.UnitMultiple p.pose.q r.pose.q := by
  have h0 : 0 < p.pose.q.dot p.pose.q := by
    rcases lt_or_eq_of_le (Quat.dot_self_nonneg p.pose.q) with h' | h'
    · exact h'
    · exact absurd (Quat.dot_self_eq_zero.mp h'.symm) h
  have hn : 0 < p.pose.q.norm := Real.sqrt_pos.mpr h0
  have hs : p.pose.q.norm ^ 2 = p.pose.q.dot p.pose.q := Real.sq_sqrt h0.le
  refine ⟨⟨p.t, ⟨p.pose.pos, ⟨p.pose.q.x / p.pose.q.norm, p.pose.q.y / p.pose.q.norm, p.pose.q.z / p.pose.q.norm,
    p.pose.q.w / p.pose.q.norm⟩⟩⟩, ?_, rfl, rfl, ?_, 1 / p.pose.q.norm, by positivity, ?_, ?_, ?_, ?_⟩
  · unfold StampedPose.normalized Quat.divScalar
    rw [if_neg hn.ne', Py.ok_bind]
    rfl
  · dsimp only
    field_simp
    rw [hs]
    simp only [Quat.dot]
    ring
  all_goals dsimp only; ring

/-- Normalising a table whose quaternions are not zero. -/
theorem posesFromTable_ok {T : List StampedPose} (h0 : T ≠ []) (h : ∀ p ∈ T, p.pose.q ≠ 0) :
    ∃ R : List StampedPose, List.Forall₂ (fun p r => r.t = p.t ∧ r.pose.pos = p.pose.pos ∧
        Spec.UnitMultiple p.pose.q r.pose.q) T R ∧
      posesFromTable false T = .ok (R, R.map StampedPose.t, R.map fun r => r.pose.q) ∧
      posesFromTable true T = .ok (R, R.map StampedPose.t, R.map fun r => Spec.mirrored r.pose.q) := by
  have hg : ∀ p : StampedPose, ∃ r, p ∈ T → p.normalized = .ok r ∧ r.t = p.t ∧ r.pose.pos = p.pose.pos ∧
      Spec.UnitMultiple p.pose.q r.pose.q := by
    intro p
    by_cases hp : p ∈ T
    · obtain ⟨r, hr⟩ := normalized_ok (h p hp)
      exact ⟨r, fun _ => hr⟩
    · exact ⟨p, fun h => absurd h hp⟩
  choose g hg using hg
  have hm : T.mapM StampedPose.normalized = .ok (T.map g) := Py.mapM_ok fun p hp => (hg p hp).1
  have ht : T.map StampedPose.t = (T.map g).map StampedPose.t := by
    rw [List.map_map]
    exact List.map_congr_left fun p hp => (hg p hp).2.1.symm
  refine ⟨T.map g, ?_, ?_, ?_⟩
  · rw [List.forall₂_map_right_iff, List.forall₂_same]
    exact fun p hp => (hg p hp).2
  · unfold posesFromTable
    rw [pyRequire_pos h0, Py.ok_bind, hm, Py.ok_bind, ht]
    rfl
  · unfold posesFromTable
    rw [pyRequire_pos h0, Py.ok_bind, hm, Py.ok_bind, ht]
    rfl

/-- **C49**, partial: when a table without zero quaternions is read as JPL, the returned quaternions are the
conjugates of the stored ones, normalised, in order.  The returned pose array has the same times and positions,
but its quaternions are the stored ones, normalised: see `C49_refuted`. -/
theorem C49_quaternions_partial {T : List StampedPose} (h0 : T ≠ []) (h : ∀ p ∈ T, p.pose.q ≠ 0) :
    ∃ (R : List StampedPose) (qs : List Quat), posesFromTable true T = .ok (R, T.map StampedPose.t, qs) ∧
      List.Forall₂ (fun p q => Spec.UnitMultiple (Spec.mirrored p.pose.q) q) T qs ∧
      List.Forall₂ (fun p r => r.t = p.t ∧ r.pose.pos = p.pose.pos ∧ Spec.UnitMultiple p.pose.q r.pose.q) T R := by
  obtain ⟨R, h1, _, h2⟩ := posesFromTable_ok h0 h
  refine ⟨R, R.map fun r => Spec.mirrored r.pose.q, ?_, ?_, h1⟩
  · rw [h2]
    congr 3
    have : List.Forall₂ (fun a b => a = b) (R.map StampedPose.t) (T.map StampedPose.t) := by
      rw [List.forall₂_map_left_iff, List.forall₂_map_right_iff]
      exact (h1.imp fun a b hab => hab.1).flip
    exact List.forall₂_eq_eq_eq ▸ this
  · rw [List.forall₂_map_right_iff]
    refine h1.imp fun p r hr => ?_
    obtain ⟨_, _, hu, s, hs, hx, hy, hz, hw⟩ := hr
    refine ⟨?_, s, hs, ?_, ?_, ?_, hw⟩
    · simp only [Spec.mirrored]; linarith
    all_goals simp only [Spec.mirrored]; linarith

/-- Two poses. -/
example : ∃ (R : List StampedPose) (qs : List Quat),
    posesFromTable true [⟨1, ⟨⟨1, 2, 3⟩, ⟨3, 0, 0, 4⟩⟩⟩, ⟨2, ⟨⟨1, 2, 3⟩, ⟨0, 1, 0, 0⟩⟩⟩] = .ok (R, [1, 2], qs) ∧
      List.Forall₂ (fun p q => Spec.UnitMultiple (Spec.mirrored p.pose.q) q)
        [(⟨1, ⟨⟨1, 2, 3⟩, ⟨3, 0, 0, 4⟩⟩⟩ : StampedPose), ⟨2, ⟨⟨1, 2, 3⟩, ⟨0, 1, 0, 0⟩⟩⟩] qs := by
  obtain ⟨R, qs, h1, h2, _⟩ := C49_quaternions_partial
    (T := [(⟨1, ⟨⟨1, 2, 3⟩, ⟨3, 0, 0, 4⟩⟩⟩ : StampedPose), ⟨2, ⟨⟨1, 2, 3⟩, ⟨0, 1, 0, 0⟩⟩⟩]) (by simp) (by
      intro p hp h
      simp only [List.mem_cons, List.not_mem_nil, or_false] at hp
      rcases hp with rfl | rfl
      · have := congrArg Quat.w h
        norm_num at this
      · have := congrArg Quat.y h
        norm_num at this)
  exact ⟨R, qs, h1, h2⟩

/-- **C49** fails for the returned pose array: whenever some stored quaternion has a vector part, that array
does not have the converted quaternions. -/
theorem C49_refuted {T : List StampedPose} (h : ∀ p ∈ T, p.pose.q ≠ 0) {p : StampedPose} (hp : p ∈ T)
    (hv : ¬(p.pose.q.x = 0 ∧ p.pose.q.y = 0 ∧ p.pose.q.z = 0)) :
    ∃ (R : List StampedPose) (ts : List ℝ) (qs : List Quat), posesFromTable true T = .ok (R, ts, qs) ∧
      ¬ List.Forall₂ (fun p r => Spec.UnitMultiple (Spec.mirrored p.pose.q) r.pose.q) T R := by
  obtain ⟨R, h1, _, h2⟩ := posesFromTable_ok (List.ne_nil_of_mem hp) h
  refine ⟨R, _, _, h2, fun hF => hv ?_⟩
  obtain ⟨i, hi, rfl⟩ := List.getElem_of_mem hp
  have hl := h1.length_eq
  obtain ⟨_, _, _, s, hs, hx, hy, hz, _⟩ := (List.forall₂_iff_get.mp h1).2 i hi (hl ▸ hi)
  obtain ⟨_, s', hs', hx', hy', hz', _⟩ := (List.forall₂_iff_get.mp hF).2 i hi (hl ▸ hi)
  simp only [Spec.mirrored, List.get_eq_getElem] at hx hy hz hx' hy' hz'
  have key : ∀ a : ℝ, s * a = s' * -a → a = 0 := by
    intro a ha
    have : (s + s') * a = 0 := by linear_combination ha
    rcases mul_eq_zero.mp this with h | h
    · linarith
    · exact h
  exact ⟨key _ (hx.symm.trans hx'), key _ (hy.symm.trans hy'), key _ (hz.symm.trans hz')⟩

/-- A table with one pose, a half turn about an axis between `x` and `w`. -/
example : ∃ (R : List StampedPose) (ts : List ℝ) (qs : List Quat),
    posesFromTable true [⟨1, ⟨⟨1, 2, 3⟩, ⟨3, 0, 0, 4⟩⟩⟩] = .ok (R, ts, qs) ∧
      ¬ List.Forall₂ (fun p r => Spec.UnitMultiple (Spec.mirrored p.pose.q) r.pose.q)
        [(⟨1, ⟨⟨1, 2, 3⟩, ⟨3, 0, 0, 4⟩⟩⟩ : StampedPose)] R := by
  refine C49_refuted (p := ⟨1, ⟨⟨1, 2, 3⟩, ⟨3, 0, 0, 4⟩⟩⟩) ?_ List.mem_cons_self (by norm_num)
  intro p hp
  rw [List.mem_singleton.mp hp]
  intro h
  have := congrArg Quat.w h
  norm_num at this

/-! ## C50 -/

theorem close_rounded (x : ℝ) : Spec.Close18 x (rounded18 x) := by
  unfold Spec.Close18
  rw [abs_sub_comm]
  exact rounded18_close x

/-- The pose as printed. -/
noncomputable def StampedPose.printed (p : StampedPose) : StampedPose :=
  ⟨rounded18 p.t, ⟨⟨rounded18 p.pose.pos.x, rounded18 p.pose.pos.y, rounded18 p.pose.pos.z⟩,
    ⟨rounded18 p.pose.q.x, rounded18 p.pose.q.y, rounded18 p.pose.q.z, rounded18 p.pose.q.w⟩⟩⟩

theorem read_written (b : Bool) (T : List StampedPose) :
    readTimeStampedPoses (writeTable (T.map StampedPose.toRow)) b = posesFromTable b (T.map StampedPose.printed) := by
  unfold readTimeStampedPoses
  rw [readTable_write (n := 8) (by norm_num), Py.ok_bind]
  · have : ((T.map StampedPose.toRow).map fun r => r.map rounded18).mapM StampedPose.ofRow =
        .ok (T.map StampedPose.printed) := by
      rw [List.map_map, List.mapM_map]
      exact Py.mapM_ok fun p _ => rfl
    rw [this, Py.ok_bind]
  · intro r hr
    obtain ⟨p, _, rfl⟩ := List.mem_map.mp hr
    rfl

theorem printed_ne {p : StampedPose} (h : 1 / 2 * 1e-18 < |p.pose.q.x| ∨ 1 / 2 * 1e-18 < |p.pose.q.y| ∨
    1 / 2 * 1e-18 < |p.pose.q.z| ∨ 1 / 2 * 1e-18 < |p.pose.q.w|) : p.printed.pose.q ≠ 0 := by
  intro h0
  have hx := congrArg Quat.x h0
  have hy := congrArg Quat.y h0
  have hz := congrArg Quat.z h0
  have hw := congrArg Quat.w h0
  have key : ∀ a : ℝ, rounded18 a = 0 → ¬ (1 / 2 * 1e-18 < |a|) := by
    intro a ha h
    have := rounded18_close a
    rw [ha, zero_sub, abs_neg] at this
    linarith
  rcases h with h | h | h | h
  · exact key _ hx h
  · exact key _ hy h
  · exact key _ hz h
  · exact key _ hw h

/-- **C50**: a non-empty table in which every quaternion has a component above half a unit of the eighteenth
digit can be written and read back: the result has the same number of rows, in order; times and positions are
within `0.5e-18`; the quaternions are within `0.5e-18` and then normalised.  The other two returned lists are
the columns of the array.  Missing: an empty table, see `C50_empty_refuted`, and quaternions that are printed
as zero, whose normalisation is not a number. -/
theorem C50_round_trip_partial {T : List StampedPose} (h0 : T ≠ [])
    (h : ∀ p ∈ T, 1 / 2 * 1e-18 < |p.pose.q.x| ∨ 1 / 2 * 1e-18 < |p.pose.q.y| ∨ 1 / 2 * 1e-18 < |p.pose.q.z| ∨
      1 / 2 * 1e-18 < |p.pose.q.w|) :
    ∃ R : List StampedPose, readTimeStampedPoses (writeTable (T.map StampedPose.toRow)) false =
        .ok (R, R.map StampedPose.t, R.map fun r => r.pose.q) ∧ List.Forall₂ Spec.ReadBack T R := by
  obtain ⟨R, h1, h2, _⟩ := posesFromTable_ok (T := T.map StampedPose.printed) (by simpa using h0) (by
    intro p hp
    obtain ⟨a, ha, rfl⟩ := List.mem_map.mp hp
    exact printed_ne (h a ha))
  refine ⟨R, (read_written false T).trans h2, ?_⟩
  rw [List.forall₂_map_left_iff] at h1
  refine h1.imp fun a r hr => ?_
  obtain ⟨e1, e2, e3⟩ := hr
  unfold Spec.ReadBack
  rw [e1, e2]
  exact ⟨close_rounded _, close_rounded _, close_rounded _, close_rounded _, _, close_rounded _, close_rounded _,
    close_rounded _, close_rounded _, e3⟩

/-- **C50**, quaternions: if the stored quaternion has length one, each component that is read back is within
`1.5e-18` of it. -/
theorem C50_unit_quaternion {a b : StampedPose} (h : Spec.ReadBack a b)
    (hu : a.pose.q.x ^ 2 + a.pose.q.y ^ 2 + a.pose.q.z ^ 2 + a.pose.q.w ^ 2 = 1) :
    |a.pose.q.x - b.pose.q.x| ≤ 3 / 2 * 1e-18 ∧ |a.pose.q.y - b.pose.q.y| ≤ 3 / 2 * 1e-18 ∧
      |a.pose.q.z - b.pose.q.z| ≤ 3 / 2 * 1e-18 ∧ |a.pose.q.w - b.pose.q.w| ≤ 3 / 2 * 1e-18 := by
  obtain ⟨_, _, _, _, p, hx, hy, hz, hw, h1, s, hs, ex, ey, ez, ew⟩ := h
  unfold Spec.Close18 at hx hy hz hw
  generalize a.pose.q = q at *
  generalize b.pose.q = r at *
  have hε : (0 : ℝ) < 1 / 2 * 1e-18 := by norm_num
  have e3 : (3 : ℝ) / 2 * 1e-18 = 3 * (1 / 2 * 1e-18) := by ring
  have hε1 : (2 : ℝ) * (1 / 2 * 1e-18) < 1 := by norm_num
  rw [e3]
  generalize (1 : ℝ) / 2 * 1e-18 = ε at *
  -- the differences
  have sq : ∀ x y : ℝ, |x - y| ≤ ε → (x - y) ^ 2 ≤ ε ^ 2 := fun x y h => by
    rw [← sq_abs]
    exact pow_le_pow_left₀ (abs_nonneg _) h 2
  have hd : (q.x - p.x) ^ 2 + (q.y - p.y) ^ 2 + (q.z - p.z) ^ 2 + (q.w - p.w) ^ 2 ≤ (2 * ε) ^ 2 := by
    have := sq _ _ hx; have := sq _ _ hy; have := sq _ _ hz; have := sq _ _ hw
    linarith
  -- the norm of `p` is `1 / s`
  have hn : (1 / s) ^ 2 = p.x ^ 2 + p.y ^ 2 + p.z ^ 2 + p.w ^ 2 := by
    rw [ex, ey, ez, ew] at h1
    field_simp
    linarith
  have hn0 : 0 < 1 / s := by positivity
  generalize hN : 1 / s = n at *
  have hdot : q.x * p.x + q.y * p.y + q.z * p.z + q.w * p.w ≤ n := by
    have : (q.x * p.x + q.y * p.y + q.z * p.z + q.w * p.w) ^ 2 ≤ n ^ 2 := by
      rw [hn]
      nlinarith [sq_nonneg (q.x * p.y - q.y * p.x), sq_nonneg (q.x * p.z - q.z * p.x), sq_nonneg (q.x * p.w - q.w * p.x),
        sq_nonneg (q.y * p.z - q.z * p.y), sq_nonneg (q.y * p.w - q.w * p.y), sq_nonneg (q.z * p.w - q.w * p.z)]
    exact abs_le_of_sq_le_sq' this hn0.le |>.2
  have hn1 : |1 - n| ≤ 2 * ε := by
    refine abs_le_of_sq_le_sq ?_ (by linarith)
    linarith
  have hrp : ∀ r p : ℝ, r = s * p → p = n * r := by
    intro r p h
    rw [h, ← hN]
    field_simp
  have hx' := hrp _ _ ex
  have hy' := hrp _ _ ey
  have hz' := hrp _ _ ez
  have hw' := hrp _ _ ew
  have key : ∀ q r p : ℝ, |q - p| ≤ ε → p = n * r → r ^ 2 ≤ 1 → |q - r| ≤ 3 * ε := by
    intro q r p h e hr
    have hr1 : |r| ≤ 1 := abs_le_one_iff_mul_self_le_one.mpr (by rw [← pow_two]; exact hr)
    have e2 : q - r = (q - p) - (1 - n) * r := by rw [e]; ring
    rw [e2]
    calc |q - p - (1 - n) * r| ≤ |q - p| + |(1 - n) * r| := abs_sub _ _
      _ ≤ ε + 2 * ε * 1 := by
        rw [abs_mul]
        gcongr
      _ = 3 * ε := by ring
  refine ⟨key _ _ _ hx hx' ?_, key _ _ _ hy hy' ?_, key _ _ _ hz hz' ?_, key _ _ _ hw hw' ?_⟩ <;>
    linarith [sq_nonneg r.x, sq_nonneg r.y, sq_nonneg r.z, sq_nonneg r.w]

/-- A pose whose printed digits are cut off after the eighteenth is read back with such an error. -/
example : |(3 / 5 : ℝ) - 3 / 5| ≤ 3 / 2 * 1e-18 :=
  (C50_unit_quaternion (a := ⟨1 + 1 / 4 * 1e-18, ⟨⟨1, 2, 3⟩, ⟨3 / 5, 0, 0, 4 / 5⟩⟩⟩)
    (b := ⟨1, ⟨⟨1, 2, 3⟩, ⟨3 / 5, 0, 0, 4 / 5⟩⟩⟩)
    ⟨by unfold Spec.Close18; norm_num, by unfold Spec.Close18; norm_num, by unfold Spec.Close18; norm_num,
      by unfold Spec.Close18; norm_num, ⟨3 / 5, 0, 0, 4 / 5⟩, by unfold Spec.Close18; norm_num,
      by unfold Spec.Close18; norm_num, by unfold Spec.Close18; norm_num, by unfold Spec.Close18; norm_num,
      by norm_num, 1, by norm_num, by norm_num, by norm_num, by norm_num, by norm_num⟩ (by norm_num)).1

/-- **C50** fails for the empty table: the file written for it cannot be read back. -/
theorem C50_empty_refuted (b : Bool) :
    readTimeStampedPoses (writeTable (([] : List StampedPose).map StampedPose.toRow)) b = .error .index := by
  rw [read_written]
  rfl

/-- Two poses, one of which is not a multiple of `1e-18`. -/
example : ∃ R : List StampedPose, readTimeStampedPoses (writeTable
    ([⟨1 / 3, ⟨⟨-1, 2, 3⟩, ⟨3, 0, 0, 4⟩⟩⟩, ⟨2, ⟨⟨1, 2 / 7, 3⟩, ⟨0, 0, 0, 1⟩⟩⟩].map StampedPose.toRow)) false =
        .ok (R, R.map StampedPose.t, R.map fun r => r.pose.q) ∧
      List.Forall₂ Spec.ReadBack [⟨1 / 3, ⟨⟨-1, 2, 3⟩, ⟨3, 0, 0, 4⟩⟩⟩, ⟨2, ⟨⟨1, 2 / 7, 3⟩, ⟨0, 0, 0, 1⟩⟩⟩] R := by
  refine C50_round_trip_partial (by simp) ?_
  intro p hp
  simp only [List.mem_cons, List.not_mem_nil, or_false] at hp
  rcases hp with rfl | rfl <;> norm_num

/-- The text of a line. -/
example : writeTable [[-1.5, 20]] = "-1.500000000000000000, 20.000000000000000000\n".toList := by
  have h1 : roundHalfEven (|(-1.5 : ℝ)| * 10 ^ 18) = 1500000000000000000 := by
    have e : |(-1.5 : ℝ)| * 10 ^ 18 = ((1500000000000000000 : ℕ) : ℝ) := by norm_num [abs_of_neg]
    unfold roundHalfEven
    rw [e, Nat.floor_natCast, if_pos (by norm_num)]
  have h2 : roundHalfEven (|(20 : ℝ)| * 10 ^ 18) = 20000000000000000000 := by
    have e : |(20 : ℝ)| * 10 ^ 18 = ((20000000000000000000 : ℕ) : ℝ) := by norm_num
    unfold roundHalfEven
    rw [e, Nat.floor_natCast, if_pos (by norm_num)]
  simp only [writeTable, rowText, formatF18, List.flatMap_cons, List.flatMap_nil, h1, h2]
  rw [if_pos (by norm_num), if_neg (by norm_num)]
  norm_num [natText, fixedText, Nat.digitChar]
  rfl

end HandEye
