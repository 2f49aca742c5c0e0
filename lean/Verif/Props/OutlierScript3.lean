import Verif.Props.OutlierScript2

/-! # C96: outliers at the beginning of the tables -/

namespace HandEye

/-- Only good measurements become candidates. -/
theorem candidate_fits {svd : Svd} (hsvd : ∀ T s V, svd T = .ok (s, V) → Spec.IsSVD T s V)
    {cfg : HandEyeConfig} (hmode : cfg.ransac_inlier_classification = .scalarPartEquality) {tol : ℝ}
    (ht : cfg.ransac_sample_rejection_scalar_part_equality_tolerance = tol) (htol : 0 ≤ tol)
    {g X : DQuat} (hg : Spec.IsUnit g) (hX : Spec.IsUnit X) (hXw : X.rot.w ≠ 0)
    {V W : List DQuat} (hl : W.length = V.length) (hV : ∀ a ∈ V, Spec.IsUnit a) (hW : ∀ a ∈ W, Spec.IsUnit a)
    (hnW : Spec.NoHalfTurns W)
    (hvis : ∀ p ∈ V.zip W, Spec.FitsMotion g X p → ∀ q ∈ V.zip W, Spec.Corresponds tol p q → Spec.FitsMotion g X q)
    (hfew : ∀ p ∈ V.zip W, ¬ Spec.FitsMotion g X p → Spec.number (Spec.Corresponds tol p) (V.zip W) < cfg.min_num_inliers)
    (h2 : Spec.TurnsAboutTwoAxes (Spec.handsOf (Spec.FitsMotion g X) (V.zip W)))
    {bs ws bf wf : List DQuat} (eb : ∀ i : ℕ, alignPathsAtIndex bs (i : ℤ) = alignPathsAtIndex V (i : ℤ))
    (ew : ∀ i : ℕ, alignPathsAtIndex ws (i : ℤ) = alignPathsAtIndex W (i : ℤ)) {s : List ℕ} {c : Candidate}
    (h : evaluateSample svd cfg bs ws bf wf s = .ok (.candidate c)) :
    ∃ i m, s[0]? = some i ∧ (V.zip W)[i]? = some m ∧ Spec.FitsMotion g X m := by
  obtain ⟨sB, sW, i0, aB, aW, k, -, a0, a1, a2, a3, a4⟩ := evaluateSample_candidate h
  rw [eb] at a1
  rw [ew] at a2
  have hi0 : i0 < V.length := by
    by_contra hcon
    rw [align_index_error] at a1
    · cases a1
    · unfold pyPos
      rw [if_pos (by omega), if_neg (by simpa using hcon)]
  obtain ⟨p, hp⟩ : ∃ p, (V.zip W)[i0]? = some p := ⟨_, List.getElem?_eq_getElem (by rw [List.length_zip]; omega)⟩
  obtain ⟨aB', aW', k', oc, b1, b2, b3, b4, b5, -⟩ := outcome_at hsvd hmode ht htol hg hX hXw hl hV hW hnW hvis hfew h2 hp sB sW s
  rw [a1] at b1
  rw [a2] at b2
  cases b1
  cases b2
  rw [a3] at b3
  cases b3
  rw [a4] at b4
  cases b4
  exact ⟨i0, p, a0, hp, (b5 c rfl).1⟩

/-! ## The tables: two rows with a wrong position of the eye, and ten exact ones -/

/-- The good rows: turns about x by two angles, and about y. -/
noncomputable def exactRows : List Pose :=
  ⟨⟨0, 0, 0⟩, ⟨0.6, 0, 0, 0.8⟩⟩ :: ⟨⟨0, 0, 0⟩, ⟨0.28, 0, 0, 0.96⟩⟩ :: List.replicate 8 ⟨⟨0, 0, 0⟩, ⟨0, 0.6, 0, 0.8⟩⟩

/-- The hand: at rest in the first two rows. -/
noncomputable def badStartA : List Pose := ⟨⟨0, 0, 0⟩, ⟨0, 0, 0, 1⟩⟩ :: ⟨⟨0, 0, 0⟩, ⟨0, 0, 0, 1⟩⟩ :: exactRows

/-- The eye: displaced in the first two rows. -/
noncomputable def badStartB : List Pose := ⟨⟨5, 5, 0⟩, ⟨0, 0, 0, 1⟩⟩ :: ⟨⟨5, 5, 0⟩, ⟨0, 0, 0, 1⟩⟩ :: exactRows

theorem exactRows_cases {P : Pose → Prop} (h1 : P ⟨⟨0, 0, 0⟩, ⟨0.6, 0, 0, 0.8⟩⟩) (h2 : P ⟨⟨0, 0, 0⟩, ⟨0.28, 0, 0, 0.96⟩⟩)
    (h3 : P ⟨⟨0, 0, 0⟩, ⟨0, 0.6, 0, 0.8⟩⟩) : ∀ p ∈ exactRows, P p := by
  intro a ha
  simp only [exactRows, List.mem_cons, List.mem_replicate] at ha
  rcases ha with rfl | rfl | ⟨-, rfl⟩
  · exact h1
  · exact h2
  · exact h3

theorem badStartA_cases {P : Pose → Prop} (h0 : P ⟨⟨0, 0, 0⟩, ⟨0, 0, 0, 1⟩⟩) (h1 : ∀ p ∈ exactRows, P p) : ∀ p ∈ badStartA, P p := by
  intro a ha
  simp only [badStartA, List.mem_cons] at ha
  rcases ha with rfl | rfl | h
  · exact h0
  · exact h0
  · exact h1 a h

theorem badStartB_cases {P : Pose → Prop} (h0 : P ⟨⟨5, 5, 0⟩, ⟨0, 0, 0, 1⟩⟩) (h1 : ∀ p ∈ exactRows, P p) : ∀ p ∈ badStartB, P p := by
  intro a ha
  simp only [badStartB, List.mem_cons] at ha
  rcases ha with rfl | rfl | h
  · exact h0
  · exact h0
  · exact h1 a h

theorem exactRows_norm : ∀ p ∈ exactRows, p.q.norm = 1 := by
  apply exactRows_cases <;> rw [Quat.norm_eq_one] <;> norm_num [Quat.dot]

theorem badStartA_norm : ∀ p ∈ badStartA, p.q.norm = 1 :=
  badStartA_cases (by rw [Quat.norm_eq_one]; norm_num [Quat.dot]) exactRows_norm

theorem badStartB_norm : ∀ p ∈ badStartB, p.q.norm = 1 :=
  badStartB_cases (by rw [Quat.norm_eq_one]; norm_num [Quat.dot]) exactRows_norm

theorem halfTurn_iff (p q : Pose) : Spec.HalfTurn p q ↔ (p.q.conj * q.q).w = 0 := by
  unfold Spec.HalfTurn
  rw [← Quat.toH_conj, ← Quat.toH_mul]
  rfl

theorem turn_eq (p q : Pose) : Spec.turn p q = (p.q.conj * q.q).vec := by
  unfold Spec.turn
  rw [← Quat.toH_conj, ← Quat.toH_mul]
  rfl

theorem exactRows_turns : ∀ p ∈ exactRows, ∀ q ∈ exactRows, ¬ Spec.HalfTurn p q := by
  apply exactRows_cases <;> apply exactRows_cases <;> rw [halfTurn_iff] <;> norm_num [Quat.conj]

theorem badStartA_turns : ∀ p ∈ badStartA, ∀ q ∈ badStartA, ¬ Spec.HalfTurn p q := by
  refine badStartA_cases (badStartA_cases ?_ ?_) fun p hp => badStartA_cases ?_ fun q hq => exactRows_turns p hp q hq
  · rw [halfTurn_iff]; norm_num [Quat.conj]
  · apply exactRows_cases <;> rw [halfTurn_iff] <;> norm_num [Quat.conj]
  · revert p
    apply exactRows_cases <;> rw [halfTurn_iff] <;> norm_num [Quat.conj]

theorem badStartB_turns : ∀ p ∈ badStartB, ∀ q ∈ badStartB, ¬ Spec.HalfTurn p q := by
  refine badStartB_cases (badStartB_cases ?_ ?_) fun p hp => badStartB_cases ?_ fun q hq => exactRows_turns p hp q hq
  · rw [halfTurn_iff]; norm_num [Quat.conj]
  · apply exactRows_cases <;> rw [halfTurn_iff] <;> norm_num [Quat.conj]
  · revert p
    apply exactRows_cases <;> rw [halfTurn_iff] <;> norm_num [Quat.conj]

/-- The outlier as a pair of dual quaternions. -/
noncomputable def badMeasurement : DQuat × DQuat := (⟨⟨0, 0, 0, 1⟩, ⟨0, 0, 0, 0⟩⟩, ⟨⟨0, 0, 0, 1⟩, ⟨2.5, 2.5, 0, 0⟩⟩)

theorem poseDual_at (v : Vec3) (q : Quat) : Spec.poseDual ⟨v, q⟩ = ⟨q, (1 / 2 : ℝ) • ((⟨v.x, v.y, v.z, 0⟩ : Quat) * q)⟩ := by
  unfold Spec.poseDual
  have e : v.toH * q.toH = ((⟨v.x, v.y, v.z, 0⟩ : Quat) * q).toH := by
    rw [Quat.toH_mul]
    rfl
  dsimp only
  rw [e]
  rfl

theorem badStart_measurements : Spec.measurements badStartA badStartB =
    badMeasurement :: badMeasurement :: exactRows.map fun p => ((⟨p.q, 0⟩, ⟨p.q, 0⟩) : DQuat × DQuat) := by
  have hg : exactRows.map Spec.poseDual = exactRows.map fun p => (⟨p.q, 0⟩ : DQuat) := by
    apply List.map_congr_left
    apply exactRows_cases <;> rw [poseDual_at] <;> ext <;> norm_num
  have hb : (Spec.poseDual ⟨⟨0, 0, 0⟩, ⟨0, 0, 0, 1⟩⟩, Spec.poseDual ⟨⟨5, 5, 0⟩, ⟨0, 0, 0, 1⟩⟩) = badMeasurement := by
    rw [poseDual_at, poseDual_at]
    unfold badMeasurement
    refine Prod.ext ?_ ?_ <;> ext <;> norm_num
  unfold Spec.measurements badStartA badStartB
  rw [List.map_cons, List.map_cons, List.map_cons, List.map_cons, List.zip_cons_cons, List.zip_cons_cons, hb, hg, List.zip_map']

theorem badStart_cases {P : DQuat × DQuat → Prop} (h0 : P badMeasurement) (h1 : ∀ p ∈ exactRows, P (⟨p.q, 0⟩, ⟨p.q, 0⟩)) :
    ∀ m ∈ Spec.measurements badStartA badStartB, P m := by
  rw [badStart_measurements]
  intro m hm
  simp only [List.mem_cons, List.mem_map] at hm
  rcases hm with rfl | rfl | ⟨p, hp, rfl⟩
  · exact h0
  · exact h0
  · exact h1 p hp

theorem bad_not_fits : ¬ Spec.FitsMotion 1 1 badMeasurement := by
  have u : ∀ a : DQuat, a.rot.dot a.rot = 1 → a.rot.dot a.dual = 0 → Spec.IsUnit a := fun a h1 h2 => DQuat.isUnit_iff.mpr ⟨h1, h2⟩
  rw [fitsMotion_iff DQuat.isUnit_one DQuat.isUnit_one (u _ (by norm_num [badMeasurement, Quat.dot])
    (by norm_num [badMeasurement, Quat.dot])) (u _ (by norm_num [badMeasurement, Quat.dot]) (by norm_num [badMeasurement, Quat.dot])),
    one_mul, mul_one]
  rintro (h | h)
  · have := congrArg (fun d : DQuat => d.dual.x) h
    norm_num [badMeasurement] at this
  · have := congrArg (fun d : DQuat => d.dual.x) h
    norm_num [badMeasurement] at this

theorem same_fits (a : DQuat) : Spec.FitsMotion 1 1 (a, a) := by
  intro x
  have e : ∀ y, Spec.motion 1 y = y := fun y => by
    have := DQuat.motion_conj_motion DQuat.isUnit_one y
    have hc1 : (1 : DQuat).conj = 1 := DQuat.ext' (by ext <;> simp) (by ext <;> simp)
    rw [hc1, ← DQuat.motion_mul DQuat.isUnit_one DQuat.isUnit_one, one_mul] at this
    exact this
  rw [e, e]

theorem bad_sees_good : ∀ p ∈ exactRows, ¬ Spec.Corresponds 0.01 badMeasurement (⟨p.q, 0⟩, ⟨p.q, 0⟩) := by
  apply exactRows_cases <;> rintro ⟨-, h⟩ <;> norm_num [Spec.scalarParts, badMeasurement, DQuat.conj, Quat.conj] at h

theorem good_sees_bad : ∀ p ∈ exactRows, ¬ Spec.Corresponds 0.01 (⟨p.q, 0⟩, ⟨p.q, 0⟩) badMeasurement := by
  apply exactRows_cases <;> rintro ⟨-, h⟩ <;> norm_num [Spec.scalarParts, badMeasurement, DQuat.conj, Quat.conj] at h

theorem badStart_good : Spec.number (Spec.FitsMotion 1 1) (Spec.measurements badStartA badStartB) = 10 := by
  classical
  unfold Spec.number
  rw [badStart_measurements, List.countP_cons_of_neg (by simpa using bad_not_fits), List.countP_cons_of_neg (by simpa using bad_not_fits),
    List.countP_eq_length.mpr]
  · simp [exactRows]
  · intro m hm
    obtain ⟨p, -, rfl⟩ := List.mem_map.mp hm
    simpa using same_fits _

theorem badStart_few : Spec.number (Spec.Corresponds 0.01 badMeasurement) (Spec.measurements badStartA badStartB) < 10 := by
  classical
  unfold Spec.number
  have h0 : (exactRows.map fun p => ((⟨p.q, 0⟩, ⟨p.q, 0⟩) : DQuat × DQuat)).countP
      (fun m => decide (Spec.Corresponds 0.01 badMeasurement m)) = 0 := by
    rw [List.countP_eq_zero]
    intro m hm
    obtain ⟨p, hp, rfl⟩ := List.mem_map.mp hm
    simpa using bad_sees_good p hp
  rw [badStart_measurements, List.countP_cons, List.countP_cons, h0]
  split <;> omega

theorem badStart_axes : Spec.TurnsAboutTwoAxes (Spec.handsOf (Spec.FitsMotion 1 1) (Spec.measurements badStartA badStartB)) := by
  classical
  have hm : ∀ p ∈ exactRows, (⟨p.q, 0⟩ : DQuat) ∈ Spec.handsOf (Spec.FitsMotion 1 1) (Spec.measurements badStartA badStartB) := by
    intro p hp
    refine List.mem_map.mpr ⟨(⟨p.q, 0⟩, ⟨p.q, 0⟩), List.mem_filter.mpr ⟨?_, by simpa using same_fits _⟩, rfl⟩
    rw [badStart_measurements]
    exact List.mem_cons_of_mem _ (List.mem_cons_of_mem _ (List.mem_map_of_mem hp))
  refine ⟨_, hm ⟨⟨0, 0, 0⟩, ⟨0.6, 0, 0, 0.8⟩⟩ (by simp [exactRows]), _, hm ⟨⟨0, 0, 0⟩, ⟨0.28, 0, 0, 0.96⟩⟩ (by simp [exactRows]), _,
    hm ⟨⟨0, 0, 0⟩, ⟨0, 0.6, 0, 0.8⟩⟩ (by simp [exactRows]), ?_⟩
  norm_num [DQuat.conj, Quat.conj, Spec.cross, Quat.vec]

theorem badStart_turning : Spec.BothStartTurning badStartA badStartB := by
  refine ⟨_, _, [(⟨⟨0, 0, 0⟩, ⟨0, 0, 0, 1⟩⟩, ⟨⟨5, 5, 0⟩, ⟨0, 0, 0, 1⟩⟩)], ⟨⟨0, 0, 0⟩, ⟨0.6, 0, 0, 0.8⟩⟩, ⟨⟨0, 0, 0⟩, ⟨0.6, 0, 0, 0.8⟩⟩,
    (exactRows.drop 1).zip (exactRows.drop 1), ⟨⟨0, 0, 0⟩, ⟨0, 0.6, 0, 0.8⟩⟩, ⟨⟨0, 0, 0⟩, ⟨0, 0.6, 0, 0.8⟩⟩, rfl, ?_, ?_, ?_, ?_⟩
  · intro m hm
    rw [List.mem_singleton.mp hm]
    exact fun _ => rfl
  · simp [exactRows]
  · refine ⟨0.6, 0.6, by norm_num, by norm_num, ?_⟩
    simp only [turn_eq]
    norm_num [Quat.conj, Quat.vec]
  · refine ⟨0.6, 0.6, by norm_num, by norm_num, ?_⟩
    simp only [turn_eq]
    norm_num [Quat.conj, Quat.vec]

/-- The axis of a good row, seen from a pose that is not turned. -/
theorem displaced_axis {r p : Pose} (hr : r.q = ⟨0, 0, 0, 1⟩) (hp : p.q.norm = 1) (hw : 0 ≤ p.q.w) {s : ℝ} (h0 : 1e-12 < s)
    (hs : p.q.x ^ 2 + p.q.y ^ 2 + p.q.z ^ 2 = s ^ 2) :
    Spec.HasAxis (rebase (DQuat.fromPose r).conj true (DQuat.fromPose p)) ⟨p.q.x / s, p.q.y / s, p.q.z / s⟩ := by
  have hrn : r.q.norm = 1 := by rw [hr, Quat.norm_eq_one]; norm_num [Quat.dot]
  have hpr : (DQuat.fromPose p).rot = p.q := Quat.normalize_unit (Quat.norm_eq_one.mp hp)
  have hrr : (DQuat.fromPose r).rot = ⟨0, 0, 0, 1⟩ := by rw [← hr]; exact Quat.normalize_unit (Quat.norm_eq_one.mp hrn)
  have hrot : ((DQuat.fromPose r).conj * DQuat.fromPose p).rot = p.q := by
    rw [DQuat.mul_rot, DQuat.conj_rot, hrr, hpr]
    ext <;> simp
  rw [rebase_true, posW_of_nonneg (by rw [hrot]; exact hw), ← hrot]
  exact hasAxis_rotation (DQuat.isUnit_mul (DQuat.isUnit_conj (fromPose_isUnit hrn)) (fromPose_isUnit hp)) h0 (by rw [hrot]; exact hs)

/-- The prefilter leaves two of the poses. -/
theorem badStart_prefilter : ∃ bf wf, prefilterUsingScrewAxis
      (badStartA.map fun p => rebase (DQuat.fromPose ⟨⟨0, 0, 0⟩, ⟨0, 0, 0, 1⟩⟩).conj true (DQuat.fromPose p))
      (badStartB.map fun p => rebase (DQuat.fromPose ⟨⟨5, 5, 0⟩, ⟨0, 0, 0, 1⟩⟩).conj true (DQuat.fromPose p)) 0.95 = .ok (bf, wf) ∧
      bf.length = 2 ∧ wf.length = 2 := by
  set f : Pose → DQuat := fun p => rebase (DQuat.fromPose ⟨⟨0, 0, 0⟩, ⟨0, 0, 0, 1⟩⟩).conj true (DQuat.fromPose p) with hf
  set h : Pose → DQuat := fun p => rebase (DQuat.fromPose ⟨⟨5, 5, 0⟩, ⟨0, 0, 0, 1⟩⟩).conj true (DQuat.fromPose p) with hh
  have n0 : ∀ v : Vec3, (⟨v, ⟨0, 0, 0, 1⟩⟩ : Pose).q.norm = 1 := fun v => by rw [Quat.norm_eq_one]; norm_num [Quat.dot]
  set L := (badStartA.map f).zip (badStartB.map h) with hL
  have hlen : badStartA.length = badStartB.length := rfl
  have e1 : L.map Prod.fst = badStartA.map f := List.map_fst_zip (by rw [List.length_map, List.length_map, hlen])
  have e2 : L.map Prod.snd = badStartB.map h := List.map_snd_zip (by rw [List.length_map, List.length_map, hlen])
  have hax : ∀ a, Spec.IsUnit a → ∃ r, a.screwAxis = .ok r := fun a ha => by
    obtain ⟨_, _, _, h, _⟩ := C18_parameters a ha
    exact ⟨_, h⟩
  have unitOf : ∀ (v : Vec3) {l : List Pose}, (∀ p ∈ l, p.q.norm = 1) →
      ∀ a ∈ l.map (fun p => rebase (DQuat.fromPose ⟨v, ⟨0, 0, 0, 1⟩⟩).conj true (DQuat.fromPose p)), Spec.IsUnit a := by
    intro v l hl a ha
    obtain ⟨p, hp, rfl⟩ := List.mem_map.mp ha
    have hu := DQuat.isUnit_mul (DQuat.isUnit_conj (fromPose_isUnit (n0 v))) (fromPose_isUnit (hl p hp))
    rcases rebase_eq_or (DQuat.fromPose ⟨v, ⟨0, 0, 0, 1⟩⟩).conj (DQuat.fromPose p) true with h | h <;> rw [h]
    · exact hu
    · exact DQuat.isUnit_neg hu
  have hpre := prefilter_eq 0.95 L (by
    intro p hp
    obtain ⟨h1, h2⟩ := List.of_mem_zip hp
    exact pairAxes_ok (hax _ (unitOf _ badStartA_norm _ h1)) (hax _ (unitOf _ badStartB_norm _ h2)))
  rw [e1, e2] at hpre
  have hLe : L = (f ⟨⟨0, 0, 0⟩, ⟨0, 0, 0, 1⟩⟩, h ⟨⟨5, 5, 0⟩, ⟨0, 0, 0, 1⟩⟩) :: (f ⟨⟨0, 0, 0⟩, ⟨0, 0, 0, 1⟩⟩, h ⟨⟨5, 5, 0⟩, ⟨0, 0, 0, 1⟩⟩) ::
      (f ⟨⟨0, 0, 0⟩, ⟨0.6, 0, 0, 0.8⟩⟩, h ⟨⟨0, 0, 0⟩, ⟨0.6, 0, 0, 0.8⟩⟩) ::
      (f ⟨⟨0, 0, 0⟩, ⟨0.28, 0, 0, 0.96⟩⟩, h ⟨⟨0, 0, 0⟩, ⟨0.28, 0, 0, 0.96⟩⟩) ::
      List.replicate 8 (f ⟨⟨0, 0, 0⟩, ⟨0, 0.6, 0, 0.8⟩⟩, h ⟨⟨0, 0, 0⟩, ⟨0, 0.6, 0, 0.8⟩⟩) := rfl
  have a0 : axesOf (f ⟨⟨0, 0, 0⟩, ⟨0, 0, 0, 1⟩⟩, h ⟨⟨5, 5, 0⟩, ⟨0, 0, 0, 1⟩⟩) = none := by
    cases hx : axesOf (f ⟨⟨0, 0, 0⟩, ⟨0, 0, 0, 1⟩⟩, h ⟨⟨5, 5, 0⟩, ⟨0, 0, 0, 1⟩⟩) with
    | none => rfl
    | some a =>
      have := (axesOf_some hx).1
      simp only [hf, rebase_self (fromPose_isUnit (n0 _))] at this
      exact absurd noAxis_identity (hasAxis_not_noAxis this)
  have ax : ∀ p ∈ exactRows, ∀ s : ℝ, 1e-12 < s → 0 ≤ p.q.w → p.q.x ^ 2 + p.q.y ^ 2 + p.q.z ^ 2 = s ^ 2 →
      axesOf (f p, h p) = some (⟨p.q.x / s, p.q.y / s, p.q.z / s⟩, ⟨p.q.x / s, p.q.y / s, p.q.z / s⟩) := by
    intro p hp s h1 h2 h3
    exact axesOf_eq (displaced_axis rfl (exactRows_norm p hp) h2 h1 h3) (displaced_axis rfl (exactRows_norm p hp) h2 h1 h3)
  have ax1 := ax ⟨⟨0, 0, 0⟩, ⟨0.6, 0, 0, 0.8⟩⟩ (by simp [exactRows]) 0.6 (by norm_num) (by norm_num) (by norm_num)
  have ax2 := ax ⟨⟨0, 0, 0⟩, ⟨0.28, 0, 0, 0.96⟩⟩ (by simp [exactRows]) 0.28 (by norm_num) (by norm_num) (by norm_num)
  have ax3 := ax ⟨⟨0, 0, 0⟩, ⟨0, 0.6, 0, 0.8⟩⟩ (by simp [exactRows]) 0.6 (by norm_num) (by norm_num) (by norm_num)
  have hg : (greedy axesOf (nearBy 0.95) L).length = 2 := by
    rw [hLe, greedy_none _ _ a0, greedy_none _ _ a0, greedy_some _ _ ax1]
    have s2 : survives axesOf (nearBy 0.95) (⟨0.6 / 0.6, 0 / 0.6, 0 / 0.6⟩, ⟨0.6 / 0.6, 0 / 0.6, 0 / 0.6⟩)
        (f ⟨⟨0, 0, 0⟩, ⟨0.28, 0, 0, 0.96⟩⟩, h ⟨⟨0, 0, 0⟩, ⟨0.28, 0, 0, 0.96⟩⟩) = false := by
      rw [survives, ax2]
      norm_num [nearBy, Vec3.dot]
    have s3 : survives axesOf (nearBy 0.95) (⟨0.6 / 0.6, 0 / 0.6, 0 / 0.6⟩, ⟨0.6 / 0.6, 0 / 0.6, 0 / 0.6⟩)
        (f ⟨⟨0, 0, 0⟩, ⟨0, 0.6, 0, 0.8⟩⟩, h ⟨⟨0, 0, 0⟩, ⟨0, 0.6, 0, 0.8⟩⟩) = true := by
      rw [survives, ax3]
      norm_num [nearBy, Vec3.dot]
    have s4 : survives axesOf (nearBy 0.95) (⟨0 / 0.6, 0.6 / 0.6, 0 / 0.6⟩, ⟨0 / 0.6, 0.6 / 0.6, 0 / 0.6⟩)
        (f ⟨⟨0, 0, 0⟩, ⟨0, 0.6, 0, 0.8⟩⟩, h ⟨⟨0, 0, 0⟩, ⟨0, 0.6, 0, 0.8⟩⟩) = false := by
      rw [survives, ax3]
      norm_num [nearBy, Vec3.dot]
    rw [List.filter_cons_of_neg (by rw [s2]; simp), List.filter_replicate, if_pos s3, List.replicate_succ, greedy_some _ _ ax3,
      List.filter_replicate, if_neg (by rw [s4]; simp), greedy]
    rfl
  rw [if_pos (by rw [hg])] at hpre
  exact ⟨_, _, hpre, by rw [List.length_map, hg], by rw [List.length_map, hg]⟩

/-- C96 fails if the tables begin with outliers: ten of twelve measurements are exact, both outliers are visible, and the prefilter leaves
enough poses, but the script tries only the measurements 0 and 1, because it uses the numbers of the two poses that are left by
the prefilter as indices of the whole tables (see C42); without a result the output is an `AttributeError`.  With
the ten exact rows alone it ends normally. -/
theorem C96_first_refuted : ∃ A B : List Pose, (∀ p ∈ A, p.q.norm = 1) ∧ (∀ p ∈ B, p.q.norm = 1) ∧ B.length = A.length ∧
    (∀ p ∈ Spec.measurements A B, Spec.FitsMotion 1 1 p → ∀ q ∈ Spec.measurements A B, Spec.Corresponds 0.01 p q →
      Spec.FitsMotion 1 1 q) ∧
    (∀ p ∈ Spec.measurements A B, ¬ Spec.FitsMotion 1 1 p →
      Spec.number (Spec.Corresponds 0.01 p) (Spec.measurements A B) < 10) ∧
    (∀ p ∈ A, ∀ q ∈ A, ¬ Spec.HalfTurn p q) ∧ (∀ p ∈ B, ∀ q ∈ B, ¬ Spec.HalfTurn p q) ∧
    Spec.TurnsAboutTwoAxes (Spec.handsOf (Spec.FitsMotion 1 1) (Spec.measurements A B)) ∧
    10 ≤ Spec.number (Spec.FitsMotion 1 1) (Spec.measurements A B) ∧ Spec.BothStartTurning A B ∧
    (∀ svd : Svd, (∀ T s V, svd T = .ok (s, V) → Spec.IsSVD T s V) → ∀ (rng : ℕ → List ℕ) (fuel : ℕ), 2 ≤ fuel →
      ∀ args : ScriptArgs, Given args.aligned_poses_B_H args.aligned_poses_H_B A →
        Given args.aligned_poses_W_E args.aligned_poses_E_W B →
        (args.calibration_output = true → args.time_offset_input.isSome) → args.extrinsics_output = true →
        calibrationScript svd rng fuel args = .error .type) ∧
    ∃ svd : Svd, (∀ T s V, svd T = .ok (s, V) → Spec.IsSVD T s V) ∧ ∃ fuel, ∀ (rng : ℕ → List ℕ) (args : ScriptArgs),
      Given args.aligned_poses_B_H args.aligned_poses_H_B (A.drop 2) →
        Given args.aligned_poses_W_E args.aligned_poses_E_W (B.drop 2) →
        (args.calibration_output = true → args.time_offset_input.isSome) →
        ∃ out, calibrationScript svd rng fuel args = .ok (some out) := by
  have u1 := DQuat.isUnit_one
  have hvis : ∀ p ∈ Spec.measurements badStartA badStartB, Spec.FitsMotion 1 1 p → ∀ q ∈ Spec.measurements badStartA badStartB,
      Spec.Corresponds 0.01 p q → Spec.FitsMotion 1 1 q := by
    refine badStart_cases (fun h => absurd h bad_not_fits) fun p hp _ => badStart_cases ?_ fun q _ _ => same_fits _
    exact fun h => absurd h (good_sees_bad p hp)
  have hfew : ∀ p ∈ Spec.measurements badStartA badStartB, ¬ Spec.FitsMotion 1 1 p →
      Spec.number (Spec.Corresponds 0.01 p) (Spec.measurements badStartA badStartB) < 10 :=
    badStart_cases (fun _ => badStart_few) fun p _ h => absurd (same_fits _) h
  refine ⟨badStartA, badStartB, badStartA_norm, badStartB_norm, rfl, hvis, hfew, badStartA_turns, badStartB_turns, badStart_axes,
    badStart_good.ge, badStart_turning, ?_, ?_⟩
  · intro svd hsvd rng fuel hfuel args g1 g2 ht hw
    have hax := badStart_axes
    have hm := badStart_measurements
    rw [measurements_eq badStartA_norm badStartB_norm] at hvis hfew hax hm
    obtain ⟨bs, ws, d1, d2, eb, ew, hscript⟩ := script_tables (A := badStartA) (B := badStartB) rfl badStartA_norm badStartB_norm
      badStartA_turns badStartB_turns rfl rfl
    rw [hscript svd rng fuel args g1 g2 ht]
    obtain ⟨bf, wf, f1, f2, f3⟩ := badStart_prefilter
    rw [← d1, ← d2] at f1
    set cfg := getExhaustiveSearchScalarPartInliersConfig.config with hcfg
    have hthr : cfg.prefilter_dot_product_threshold = 0.95 := rfl
    have hsize : cfg.ransac_sample_size = 1 := rfl
    have hex : cfg.enable_exhaustive_search = true := rfl
    have hfil : filteredPoses cfg bs ws = .ok (bf, wf) := by
      unfold filteredPoses
      rw [if_pos (by rfl), hthr, f1, Py.ok_bind, pyAssert_pos (by rw [f2, f3]), Py.ok_bind]
      rfl
    have hl12 : badStartA.length = 12 := rfl
    have hbl : bs.length = 12 := by rw [d1, List.length_map, hl12]
    have hwl : ws.length = 12 := by rw [d2, List.length_map]; rfl
    have ht1 : cfg.ransac_sample_rejection_scalar_part_equality_tolerance = 0.01 := by
      norm_num [hcfg, getExhaustiveSearchScalarPartInliersConfig, getBasicConfig]
    have hout : ∀ s, Spec.IsSample wf.length cfg.ransac_sample_size s → ∃ o, evaluateSample svd cfg bs ws bf wf s = .ok o := fun s hs =>
      (outcome_one (tol := 0.01) hsvd (cfg := cfg) rfl ht1 (by norm_num) u1 u1 (by norm_num)
        (V := badStartA.map DQuat.fromPose) (W := badStartB.map DQuat.fromPose) rfl (poses_unit badStartA_norm) (poses_unit badStartB_norm)
        (poses_noHalfTurns badStartB_norm badStartB_turns) hvis hfew hax
        (bs := bs) (ws := ws) (fun i => eb i) (fun i => ew i) hsize (bf := bf) (wf := wf) (by rw [f2, f3])
        (by rw [List.length_map]; omega) hs).imp fun _ h => h.1
    have hab : ∀ k, ∃ b, earlyAbort cfg k = .ok b := by
      intro k
      unfold earlyAbort
      rw [if_neg (by rw [hex]; simp)]
      exact ⟨false, rfl⟩
    rw [ransac_rng svd rng (fun _ => [0]) _ rfl]
    obtain ⟨o, ho⟩ := ransac_ok (svd := svd) (rng := fun _ => [0]) (hwl.trans hbl.symm) (by rw [hsize, hwl]; omega) hfil
      (by rw [hsize]; omega) (fun _ => ⟨hsize.symm, by simp, by simp; omega⟩) hout hab fuel
    rw [ho, Py.ok_bind]
    cases o with
    | none =>
      exfalso
      refine C39_terminates svd (fun _ => [0]) cfg bs ws _ hex ?_ ho
      intro bf' wf' h
      rw [hfil] at h
      cases h
      rw [f3, hsize]
      exact hfuel
    | some r =>
      have hsucc : ¬ r.success = true := by
        intro hs
        obtain ⟨bf', wf', samples, outs, k1, k2, -, -, k5⟩ := C39_exhaustive svd _ cfg bs ws _ r hex ho
        obtain ⟨bf'', wf'', samples', outs', m1, m2, m3, -⟩ := C38_success_iff svd _ cfg bs ws _ r ho
        rw [hfil] at k1 m1
        cases k1
        cases m1
        obtain ⟨rfl, rfl⟩ := course_unique k2 m2
        obtain ⟨c, hc⟩ := m3.mp hs
        obtain ⟨n, hn⟩ := List.getElem?_of_mem hc
        obtain ⟨hlt, hn'⟩ := List.getElem?_eq_some_iff.mp hn
        have hz := List.forall₂_iff_get.mp k2.outcomes
        have hev := hz.2 n (by rw [hz.1]; exact hlt) hlt
        simp only [List.get_eq_getElem] at hev
        rw [hn'] at hev
        obtain ⟨i, m, i1, i2, i3⟩ := candidate_fits (tol := 0.01) hsvd (cfg := cfg) rfl ht1 (by norm_num) u1 u1 (by norm_num)
          (V := badStartA.map DQuat.fromPose) (W := badStartB.map DQuat.fromPose) rfl (poses_unit badStartA_norm)
          (poses_unit badStartB_norm) (poses_noHalfTurns badStartB_norm badStartB_turns) hvis hfew hax (fun i => eb i) (fun i => ew i) hev
        have hi := ((k5 _).mp (List.getElem_mem _)).2.1 i (List.mem_of_getElem? i1)
        rw [hm] at i2
        have hi2 : i = 0 ∨ i = 1 := by omega
        rcases hi2 with rfl | rfl
        · cases i2
          exact bad_not_fits i3
        · cases i2
          exact bad_not_fits i3
      have hdq : r.dq_H_E = none := by
        have := ransac_success ho
        rw [Bool.not_eq_true] at hsucc
        rw [hsucc] at this
        cases h : r.dq_H_E with
        | none => rfl
        | some dq => rw [h] at this; cases this
      rw [C72_no_result args r hdq, if_pos (Or.inl hw)]
  · obtain ⟨svd, hv, hs⟩ := C72_succeeds
    refine ⟨svd, hv, ?_⟩
    refine hs 1 1 u1 u1 (by norm_num) exactRows exactRows exactRows_norm exactRows_norm ?_ (by simp [exactRows]) ?_ ?_
    · unfold Spec.SameBodyPoses
      refine List.forall₂_same.mpr fun p hp x => ?_
      have := same_fits (DQuat.fromPose p) x
      rw [poseMotion_eq (exactRows_norm p hp), poseMotion_eq (exactRows_norm p hp)]
      exact this
    · intro p₀ hp₀ p hp
      exact exactRows_turns p₀ (List.mem_of_mem_head? hp₀) p hp
    · refine ⟨_, _, [], _, ⟨⟨0, 0, 0⟩, ⟨0, 0.6, 0, 0.8⟩⟩, 0.352, √0.5904, rfl, by simp, by simp, by norm_num, ?_, ?_⟩
      · exact lt_trans (by norm_num : (1e-12 : ℝ) < 0.6) (Real.lt_sqrt_of_sq_lt (by norm_num))
      · rw [Real.sq_sqrt (by norm_num)]
        have hq : (0.6 : ℝ) ≤ √0.5904 := Real.le_sqrt_of_sq_le (by norm_num)
        simp only [turn_eq]
        refine ⟨by norm_num [Quat.conj, Quat.vec], by norm_num [Quat.conj, Quat.vec], ?_⟩
        refine le_trans (b := 0.95 * (0.352 * 0.6)) (by norm_num [Quat.conj, Quat.vec, abs_of_pos]) ?_
        have : (0.352 : ℝ) * 0.6 ≤ 0.352 * √0.5904 := mul_le_mul_of_nonneg_left hq (by norm_num)
        linarith

end HandEye
