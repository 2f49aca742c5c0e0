import Verif.Props.AlignScript
import Verif.Props.AlignedRegular
import Verif.Props.ClockFrames
import Verif.Props.Script

/-! # Property C75: from two recordings to the calibration -/

namespace HandEye

/-- The orientations of equal motions are equal up to the sign. -/
theorem orientation_signs {g X : DQuat} (hg : Spec.IsUnit g) (hX : Spec.IsUnit X) {p q : Pose} (hp : p.q.norm = 1)
    (hq : q.q.norm = 1) (h : ∀ x, Spec.poseMotion q x = Spec.motion g (Spec.poseMotion p (Spec.motion X x))) :
    q.q = g.rot * p.q * X.rot ∨ q.q = -(g.rot * p.q * X.rot) := by
  have := sameBody_signs hg hX (A := [p]) (B := [q]) (by simpa using hp) (by simpa using hq) (.cons h .nil)
  have rot : ∀ {p : Pose}, p.q.norm = 1 → (DQuat.fromPose p).rot = p.q := by
    intro p h
    simp only [DQuat.fromPose]
    exact Quat.normalize_unit (Quat.norm_eq_one.mp h)
  simp only [List.map_cons, List.map_nil, List.forall₂_cons, List.Forall₂.nil, and_true] at this
  rcases this with e | e
  · left
    have := congrArg DQuat.rot e
    rw [rot hq, DQuat.mul_rot, DQuat.mul_rot, rot hp] at this
    exact this
  · right
    have := congrArg DQuat.rot e
    rw [rot hq, DQuat.neg_rot, DQuat.mul_rot, DQuat.mul_rot, rot hp] at this
    exact this

theorem isUnit_one : Spec.IsUnit (1 : DQuat) := by rw [DQuat.isUnit_iff]; norm_num [Quat.dot]

theorem motion_one (x : Vec3) : Spec.motion 1 x = x := by
  have := DQuat.motion_conj_motion isUnit_one x
  rw [show (1 : DQuat).conj = 1 from by ext <;> simp, ← DQuat.motion_mul isUnit_one isUnit_one, one_mul] at this
  exact this

theorem sameMotion_signs {p q : Pose} (hp : p.q.norm = 1) (hq : q.q.norm = 1)
    (h : ∀ x, Spec.poseMotion q x = Spec.poseMotion p x) : q.q = p.q ∨ q.q = -p.q := by
  have := orientation_signs isUnit_one isUnit_one hp hq (fun x => by rw [motion_one, motion_one, h])
  simpa using this

theorem relative_signs {p q p' q' : Pose} (hp : p'.q = p.q ∨ p'.q = -p.q) (hq : q'.q = q.q ∨ q'.q = -q.q) :
    star p'.q.toH * q'.q.toH = star p.q.toH * q.q.toH ∨ star p'.q.toH * q'.q.toH = -(star p.q.toH * q.q.toH) := by
  rcases hp with hp | hp <;> rcases hq with hq | hq <;> rw [hp, hq]
  · exact Or.inl rfl
  · right; rw [Quat.toH_neg, mul_neg]
  · right; rw [Quat.toH_neg, star_neg, neg_mul]
  · left; rw [Quat.toH_neg, Quat.toH_neg, star_neg, neg_mul_neg]

theorem halfTurn_signs {p q p' q' : Pose} (hp : p'.q = p.q ∨ p'.q = -p.q) (hq : q'.q = q.q ∨ q'.q = -q.q)
    (h : Spec.HalfTurn p' q') : Spec.HalfTurn p q := by
  unfold Spec.HalfTurn at h ⊢
  rcases relative_signs hp hq with e | e <;> rw [e] at h
  · exact h
  · rw [Quaternion.re_neg] at h
    linarith

open Quaternion in
theorem cross_signs {a b c a' b' c' : Pose} (ha : a'.q = a.q ∨ a'.q = -a.q) (hb : b'.q = b.q ∨ b'.q = -b.q)
    (hc : c'.q = c.q ∨ c'.q = -c.q)
    (h : Spec.cross (Spec.imPart (star a.q.toH * b.q.toH)) (Spec.imPart (star a.q.toH * c.q.toH)) ≠ ⟨0, 0, 0⟩) :
    Spec.cross (Spec.imPart (star a'.q.toH * b'.q.toH)) (Spec.imPart (star a'.q.toH * c'.q.toH)) ≠ ⟨0, 0, 0⟩ := by
  have neg : ∀ h : ℍ[ℝ], Spec.imPart (-h) = ⟨-(Spec.imPart h).x, -(Spec.imPart h).y, -(Spec.imPart h).z⟩ := fun _ => rfl
  intro h0
  apply h
  rcases relative_signs ha hb with e | e <;> rcases relative_signs ha hc with e' | e' <;> rw [e, e'] at h0
  · exact h0
  all_goals
    simp only [neg] at h0
    generalize Spec.imPart (star a.q.toH * b.q.toH) = u at *
    generalize Spec.imPart (star a.q.toH * c.q.toH) = v at *
    simp only [Spec.cross, Vec3.mk.injEq] at h0 ⊢
    refine ⟨?_, ?_, ?_⟩ <;> linarith [h0.1, h0.2.1, h0.2.2]

/-- The options of the calibration script for the files that the alignment script has written. -/
noncomputable def nextArgs (out : AlignOutput) : ScriptArgs where
  aligned_poses_B_H := some out.aligned_poses_B_H
  aligned_poses_W_E := some out.aligned_poses_W_E
  extrinsics_output := true
  time_offset_input := out.time_offset
  calibration_output := true

/-- The alignment of two recordings of one body. -/
theorem recorded_run {g X : DQuat} {M : ℤ → Pose} {n : ℕ} {lo hi m : ℤ} {dt ta tb : ℝ} {rA rB : ℕ} {PA PB : ℕ → Pose}
    (h : Spec.Recorded g X M n 25 lo hi m 99.5 99 dt rA rB PA PB) (hmove : ∃ i, (M (i + 1)).q ≠ (M i).q) (hlo : lo ≤ hi) :
    ∃ idx : List ℤ, alignScript ⟨Spec.recording ta (dt / rA) (rA * n) PA, Spec.recording tb (dt / rB) (rB * n) PB, true,
        "Hamilton"⟩ = .ok ⟨idx.map fun (i : ℤ) => ⟨tb + (i + m) * dt, PA (rA * i.toNat)⟩,
          idx.map fun (i : ℤ) => ⟨tb + (i + m) * dt, PB (rB * (i + m).toNat)⟩, some (dt * m + tb - ta)⟩ ∧
      idx.Pairwise (· < ·) ∧ (∀ i, lo - 25 ≤ i → i ≤ hi → i ∈ idx) ∧
      (∀ i ∈ idx, ∀ x, Spec.poseMotion (PA (rA * i.toNat)) x = Spec.poseMotion (M i) x) ∧
      (∀ i ∈ idx, (PA (rA * i.toNat)).q = (M i).q ∨ (PA (rA * i.toNat)).q = -(M i).q) ∧
      Spec.SameBodyPoses g X (idx.map fun i => PA (rA * i.toNat)) (idx.map fun i => PB (rB * (i + m).toNat)) ∧
      ((∀ i, ¬ Spec.HalfTurn (M lo) (M i)) → ∀ p₀, (idx.map fun i => PA (rA * i.toNat)).head? = some p₀ →
        ∀ p ∈ idx.map fun i => PA (rA * i.toNat), ¬ Spec.HalfTurn p₀ p) := by
  obtain ⟨hg, hX, hM, hrest, ⟨⟨h1, h2⟩, h3, h4⟩, hstep, hclA, hclB, hdt, ⟨hrA, hrB, hr⟩, uA, uB, hA, hB⟩ := h
  push_cast at h1 h2 h3 h4
  have hn : 0 < n := by omega
  have hgr : g.rot.norm = 1 := Quat.norm_eq_one.mpr (DQuat.IsUnit.rot hg)
  have hXr : X.rot.norm = 1 := Quat.norm_eq_one.mpr (DQuat.IsUnit.rot hX)
  have signA : ∀ i : ℕ, i ≤ n → (PA (rA * i)).q = (M i).q ∨ (PA (rA * i)).q = -(M i).q := fun i hi' =>
    sameMotion_signs (hM i) (uA _) (hA i hi')
  have signB : ∀ i : ℕ, i ≤ n → (PB (rB * i)).q = g.rot * (M (i - m)).q * X.rot ∨
      (PB (rB * i)).q = -(g.rot * (M (i - m)).q * X.rot) := fun i hi' =>
    orientation_signs hg hX (hM _) (uB _) (hB i hi')
  have hoff := C73_frames_partial (fun i => (M i).q) hM g.rot X.rot hgr hXr n 25 hn (by norm_num) lo hi m hrest h1 h2 h3 h4
    hstep hmove dt ta tb hdt rA rB hrA hrB hr (fun i => (PA i).q) (fun i => (PB i).q) signA signB {} rfl rfl
    (by norm_num) (by norm_num) hclA (by norm_num at hclB ⊢; exact hclB)
  obtain ⟨idx, hrun, hin, hex, hsort⟩ := alignScript_regular (fmt := "Hamilton") (jpl := false) hdt hn hrA hrB hr uA uB rfl hoff
  have rowA : ∀ i ∈ idx, (PA (rA * i.toNat)).q = (M i).q ∨ (PA (rA * i.toNat)).q = -(M i).q := by
    intro i hi'
    obtain ⟨⟨a, b⟩, -⟩ := hin i hi'
    have := signA i.toNat (by omega)
    rwa [Int.toNat_of_nonneg a] at this
  have still : ∀ j : ℕ, (M (lo - j)).q = (M lo).q := by
    intro j
    induction j with
    | zero => simp
    | succ j ih =>
      have := hrest (lo - (j + 1 : ℕ)) (Or.inl (by push_cast; omega))
      rw [show lo - ((j + 1 : ℕ) : ℤ) + 1 = lo - j from by push_cast; ring, ih] at this
      exact this.symm
  have hmem : ∀ i, lo - 25 ≤ i → i ≤ hi → i ∈ idx := fun i a b => hex i (by omega) (by omega) (by omega) (by omega)
  refine ⟨idx, hrun, hsort, hmem, ?_, rowA, ?_, ?_⟩
  · intro i hi' x
    obtain ⟨⟨a, b⟩, -⟩ := hin i hi'
    rw [hA _ (by omega), Int.toNat_of_nonneg a]
  · unfold Spec.SameBodyPoses
    rw [List.forall₂_map_left_iff, List.forall₂_map_right_iff]
    refine List.forall₂_same.mpr fun i hi' x => ?_
    obtain ⟨⟨a, b⟩, c, d⟩ := hin i hi'
    rw [hB _ (by omega), hA _ (by omega), Int.toNat_of_nonneg a, Int.toNat_of_nonneg c, add_sub_cancel_right]
  · intro hhalf p₀ hp₀ p hp hh
    obtain ⟨i, hi', rfl⟩ := List.mem_map.mp hp
    cases hidx : idx with
    | nil => rw [hidx] at hp₀; cases hp₀
    | cons i₀ rest =>
      rw [hidx] at hp₀
      cases hp₀
      have hi₀ : i₀ ∈ idx := by rw [hidx]; exact List.mem_cons_self
      have hle : i₀ ≤ lo := by
        have := hmem lo (by omega) hlo
        rw [hidx] at this hsort
        rcases List.mem_cons.mp this with e | e
        · exact e.ge
        · exact ((List.pairwise_cons.mp hsort).1 _ e).le
      have e0 : (M i₀).q = (M lo).q := by
        have := still (lo - i₀).toNat
        rwa [Int.toNat_of_nonneg (by omega), sub_sub_cancel] at this
      have s0 := rowA i₀ hi₀
      rw [e0] at s0
      exact hhalf i (halfTurn_signs s0 (rowA i hi') hh)

theorem moves_of_axes {M : ℤ → Pose} {i₁ i₂ i₃ : ℤ}
    (h : Spec.cross (Spec.turn (M i₁) (M i₂)) (Spec.turn (M i₁) (M i₃)) ≠ ⟨0, 0, 0⟩) : ∃ i, (M (i + 1)).q ≠ (M i).q := by
  by_contra hcon
  push Not at hcon
  have hall : ∀ i, (M i).q = (M 0).q := by
    intro i
    induction i using Int.induction_on with
    | zero => rfl
    | succ i ih => rw [hcon, ih]
    | pred i ih =>
      have := hcon (-(i : ℤ) - 1)
      rw [show -(i : ℤ) - 1 + 1 = -i from by ring, ih] at this
      exact this.symm
  apply h
  unfold Spec.turn
  rw [hall i₁, hall i₂, hall i₃]
  ext <;> simp [Spec.cross] <;> ring

/-- The files that the alignment script writes, and what the calibration script makes of them. -/
theorem recorded_result (svd : Svd) (hsvd : ∀ T s V, svd T = .ok (s, V) → Spec.IsSVD T s V)
    {g X : DQuat} (hXw : X.rot.w ≠ 0) {M : ℤ → Pose} {n : ℕ} {lo hi m : ℤ} {dt : ℝ} (ta tb : ℝ) {rA rB : ℕ} {PA PB : ℕ → Pose}
    (h : Spec.Recorded g X M n 25 lo hi m 99.5 99 dt rA rB PA PB) (hhalf : ∀ i, ¬ Spec.HalfTurn (M lo) (M i))
    {i₁ i₂ i₃ : ℤ} (hi₁ : lo ≤ i₁ ∧ i₁ ≤ hi) (hi₂ : lo ≤ i₂ ∧ i₂ ≤ hi) (hi₃ : lo ≤ i₃ ∧ i₃ ≤ hi)
    (haxes : Spec.cross (Spec.turn (M i₁) (M i₂)) (Spec.turn (M i₁) (M i₃)) ≠ ⟨0, 0, 0⟩) :
    ∃ out, alignScript ⟨Spec.recording ta (dt / rA) (rA * n) PA, Spec.recording tb (dt / rB) (rB * n) PB, true,
        "Hamilton"⟩ = .ok out ∧ out.time_offset = some (dt * m + tb - ta) ∧
      ∀ (rng : ℕ → List ℕ) (fuel : ℕ) (args : ScriptArgs), args.aligned_poses_B_H = some out.aligned_poses_B_H →
        args.aligned_poses_H_B = none → args.aligned_poses_W_E = some out.aligned_poses_W_E → args.aligned_poses_E_W = none →
        ∀ res, calibrationScript svd rng fuel args = .ok (some res) →
        (args.extrinsics_output = true → ∃ P, res.extrinsics = some P ∧ P.q.norm = 1 ∧ 0 < P.q.w ∧
          ∀ x, Spec.poseMotion P x = Spec.motion X x) ∧
        (args.calibration_output = true → ∃ f, res.calibration = some f ∧ some f.delay = args.time_offset_input ∧
          0 < f.w ∧ ∀ x, Spec.poseMotion ⟨⟨f.x, f.y, f.z⟩, ⟨f.i, f.j, f.k, f.w⟩⟩ x = Spec.motion X x) := by
  obtain ⟨idx, hrun, hsort, hmem, -, rowA, hsame, hne⟩ := recorded_run (ta := ta) (tb := tb) h (moves_of_axes haxes)
    (hi₁.1.trans hi₁.2)
  refine ⟨_, hrun, rfl, ?_⟩
  intro rng fuel args a1 a2 a3 a4 res hres
  refine C72_noise_free svd hsvd rng fuel g X h.frame h.mounting hXw (idx.map fun i => PA (rA * i.toNat))
    (idx.map fun i => PB (rB * (i + m).toNat)) ?_ ?_ hsame (hne hhalf) ?_ args (Or.inl ⟨_, a1, a2, ?_⟩)
    (Or.inl ⟨_, a3, a4, ?_⟩) res hres
  · simp only [List.forall_mem_map]
    exact fun _ _ => h.unit_A _
  · simp only [List.forall_mem_map]
    exact fun _ _ => h.unit_B _
  · have m1 := hmem i₁ (by omega) hi₁.2
    have m2 := hmem i₂ (by omega) hi₂.2
    have m3 := hmem i₃ (by omega) hi₃.2
    exact ⟨_, List.mem_map.mpr ⟨i₁, m1, rfl⟩, _, List.mem_map.mpr ⟨i₂, m2, rfl⟩, _, List.mem_map.mpr ⟨i₃, m3, rfl⟩,
      cross_signs (rowA _ m1) (rowA _ m2) (rowA _ m3) haxes⟩
  · rw [List.map_map]; rfl
  · rw [List.map_map]; rfl

/-- **C75**.  Two exact recordings of one body (`Spec.Recorded`, for the settings that the script uses), which turns about
at least two axes, but never by half a turn from where it started: the alignment script ends normally and writes the true
time offset, and whatever the calibration script writes, given the files that the alignment script has written, is the
true transform and the true offset. -/
theorem C75_end_to_end (svd : Svd) (hsvd : ∀ T s V, svd T = .ok (s, V) → Spec.IsSVD T s V) (rng : ℕ → List ℕ) (fuel : ℕ)
    (g X : DQuat) (hXw : X.rot.w ≠ 0) (M : ℤ → Pose) (n : ℕ) (lo hi m : ℤ) (dt ta tb : ℝ) (rA rB : ℕ) (PA PB : ℕ → Pose)
    (h : Spec.Recorded g X M n 25 lo hi m 99.5 99 dt rA rB PA PB) (hhalf : ∀ i, ¬ Spec.HalfTurn (M lo) (M i))
    (i₁ i₂ i₃ : ℤ) (hi₁ : lo ≤ i₁ ∧ i₁ ≤ hi) (hi₂ : lo ≤ i₂ ∧ i₂ ≤ hi) (hi₃ : lo ≤ i₃ ∧ i₃ ≤ hi)
    (haxes : Spec.cross (Spec.turn (M i₁) (M i₂)) (Spec.turn (M i₁) (M i₃)) ≠ ⟨0, 0, 0⟩) :
    ∃ out, alignScript ⟨Spec.recording ta (dt / rA) (rA * n) PA, Spec.recording tb (dt / rB) (rB * n) PB, true,
        "Hamilton"⟩ = .ok out ∧ out.time_offset = some (dt * m + tb - ta) ∧
      ∀ res, calibrationScript svd rng fuel (nextArgs out) = .ok (some res) →
        ∃ P f, res.extrinsics = some P ∧ P.q.norm = 1 ∧ 0 < P.q.w ∧ (∀ x, Spec.poseMotion P x = Spec.motion X x) ∧
          res.calibration = some f ∧ f.delay = dt * m + tb - ta ∧ 0 < f.w ∧
          ∀ x, Spec.poseMotion ⟨⟨f.x, f.y, f.z⟩, ⟨f.i, f.j, f.k, f.w⟩⟩ x = Spec.motion X x := by
  obtain ⟨out, hrun, hoff, hcal⟩ := recorded_result svd hsvd hXw ta tb h hhalf hi₁ hi₂ hi₃ haxes
  refine ⟨out, hrun, hoff, fun res hres => ?_⟩
  have key := hcal rng fuel (nextArgs out) rfl rfl rfl rfl res hres
  obtain ⟨P, e1, e2, e3, e4⟩ := key.1 rfl
  obtain ⟨f, f1, f2, f3, f4⟩ := key.2 rfl
  refine ⟨P, f, e1, e2, e3, e4, f1, ?_, f3, f4⟩
  change some f.delay = out.time_offset at f2
  rw [hoff] at f2
  exact Option.some.inj f2

open Quaternion in
/-- The squares and products of the components of two turns, up to signs of the quaternions. -/
theorem turn_signs {p q p' q' : Pose} (hp : p'.q = p.q ∨ p'.q = -p.q) (hq : q'.q = q.q ∨ q'.q = -q.q) :
    ∃ e : ℝ, (e = 1 ∨ e = -1) ∧ Spec.turn p' q' = ⟨e * (Spec.turn p q).x, e * (Spec.turn p q).y, e * (Spec.turn p q).z⟩ := by
  have neg : ∀ h : ℍ[ℝ], Spec.imPart (-h) = ⟨-(Spec.imPart h).x, -(Spec.imPart h).y, -(Spec.imPart h).z⟩ := fun _ => rfl
  unfold Spec.turn
  rcases relative_signs hp hq with e | e <;> rw [e]
  · exact ⟨1, Or.inl rfl, by ext <;> simp⟩
  · exact ⟨-1, Or.inr rfl, by rw [neg]; ext <;> simp⟩

/-- That there is a result, for all options that ask for the files. -/
theorem recorded_ends : ∃ svd : Svd, (∀ T s V, svd T = .ok (s, V) → Spec.IsSVD T s V) ∧
    ∀ (g X : DQuat), X.rot.w ≠ 0 → ∀ (M : ℤ → Pose) (n : ℕ) (lo hi m : ℤ) (dt ta tb : ℝ) (rA rB : ℕ) (PA PB : ℕ → Pose),
      Spec.Recorded g X M n 25 lo hi m 99.5 99 dt rA rB PA PB → (∀ i, ¬ Spec.HalfTurn (M lo) (M i)) →
      (∀ i < lo, M i = M lo) → ∀ (l : ℤ) (s₁ s₂ : ℝ), lo + 1 < l → l ≤ hi → 1e-12 < s₁ → 1e-12 < s₂ →
      (Spec.turn (M lo) (M (lo + 1))).x ^ 2 + (Spec.turn (M lo) (M (lo + 1))).y ^ 2 +
        (Spec.turn (M lo) (M (lo + 1))).z ^ 2 = s₁ ^ 2 →
      (Spec.turn (M lo) (M l)).x ^ 2 + (Spec.turn (M lo) (M l)).y ^ 2 + (Spec.turn (M lo) (M l)).z ^ 2 = s₂ ^ 2 →
      |(Spec.turn (M lo) (M (lo + 1))).x * (Spec.turn (M lo) (M l)).x + (Spec.turn (M lo) (M (lo + 1))).y *
        (Spec.turn (M lo) (M l)).y + (Spec.turn (M lo) (M (lo + 1))).z * (Spec.turn (M lo) (M l)).z| ≤ 0.95 * (s₁ * s₂) →
      ∃ out fuel, alignScript ⟨Spec.recording ta (dt / rA) (rA * n) PA, Spec.recording tb (dt / rB) (rB * n) PB, true,
          "Hamilton"⟩ = .ok out ∧ out.time_offset.isSome ∧
        ∀ (rng : ℕ → List ℕ) (args : ScriptArgs), args.aligned_poses_B_H = some out.aligned_poses_B_H →
          args.aligned_poses_H_B = none → args.aligned_poses_W_E = some out.aligned_poses_W_E →
          args.aligned_poses_E_W = none → (args.calibration_output = true → args.time_offset_input.isSome) →
          ∃ res, calibrationScript svd rng fuel args = .ok (some res) := by
  obtain ⟨svd, hsvd, hsucc⟩ := C72_succeeds
  refine ⟨svd, hsvd, ?_⟩
  intro g X hXw M n lo hi m dt ta tb rA rB PA PB h hhalf hstill l s₁ s₂ hl hl' hs₁ hs₂ v1 v2 hd
  have hmove : ∃ i, (M (i + 1)).q ≠ (M i).q := by
    refine ⟨lo, fun e => ?_⟩
    have hz : Spec.turn (M lo) (M (lo + 1)) = ⟨0, 0, 0⟩ := by
      unfold Spec.turn
      rw [e, Quaternion.star_mul_self]
      rfl
    rw [hz] at v1
    simp only at v1
    have : 0 < s₁ := lt_trans (by norm_num) hs₁
    nlinarith
  obtain ⟨idx, hrun, hsort, hmem, hmot, rowA, hsame, hne⟩ := recorded_run (ta := ta) (tb := tb) h hmove (by omega)
  have m0 := hmem lo (by omega) (by omega)
  have m1 := hmem (lo + 1) (by omega) (by omega)
  have m2 := hmem l (by omega) hl'
  have hst : Spec.StartsTurning (idx.map fun i => PA (rA * i.toNat)) := by
    cases hidx : idx with
    | nil => rw [hidx] at m0; cases m0
    | cons i₀ rest =>
      have hi₀ : i₀ ∈ idx := by rw [hidx]; exact List.mem_cons_self
      rw [hidx] at hsort m0 m1 m2
      obtain ⟨hfirst, hsort⟩ := List.pairwise_cons.mp hsort
      have hle : i₀ ≤ lo := by
        rcases List.mem_cons.mp m0 with e | e
        · exact e.ge
        · exact (hfirst _ e).le
      have m1' : lo + 1 ∈ rest := (List.mem_cons.mp m1).resolve_left (by omega)
      have m2' : l ∈ rest := (List.mem_cons.mp m2).resolve_left (by omega)
      obtain ⟨u, v, rfl⟩ := List.append_of_mem m1'
      obtain ⟨hu, hv, huv⟩ := List.pairwise_append.mp hsort
      have hm0 : M i₀ = M lo := by
        rcases hle.lt_or_eq with e | e
        · exact hstill _ e
        · rw [e]
      have hul : ∀ i ∈ u, M i = M lo := by
        intro i hiu
        have := huv i hiu (lo + 1) List.mem_cons_self
        rcases (show i ≤ lo by omega).lt_or_eq with e | e
        · exact hstill _ e
        · rw [e]
      have m2v : l ∈ v := by
        rcases List.mem_append.mp m2' with e | e
        · have := huv l e (lo + 1) List.mem_cons_self
          omega
        · exact (List.mem_cons.mp e).resolve_left (by omega)
      have r0 := rowA i₀ hi₀
      rw [hm0] at r0
      obtain ⟨e1, he1, t1⟩ := turn_signs r0 (rowA (lo + 1) (by rw [hidx]; exact m1))
      obtain ⟨e2, he2, t2⟩ := turn_signs r0 (rowA l (by rw [hidx]; exact m2))
      have hsq : ∀ {e : ℝ}, (e = 1 ∨ e = -1) → e ^ 2 = 1 := by rintro e (rfl | rfl) <;> norm_num
      refine ⟨PA (rA * i₀.toNat), PA (rA * (lo + 1).toNat), u.map fun i => PA (rA * i.toNat),
        v.map fun i => PA (rA * i.toNat), PA (rA * l.toNat), s₁, s₂, ?_, ?_, ?_, hs₁, hs₂, ?_, ?_, ?_⟩
      · simp
      · simp only [List.forall_mem_map]
        intro i hiu x
        rw [hmot i (by rw [hidx]; simp [hiu]), hmot i₀ hi₀, hm0, hul i hiu]
      · exact List.mem_map.mpr ⟨l, m2v, rfl⟩
      · rw [t1]
        linear_combination e1 ^ 2 * v1 + s₁ ^ 2 * hsq he1
      · rw [t2]
        linear_combination e2 ^ 2 * v2 + s₂ ^ 2 * hsq he2
      · rw [t1, t2]
        have : ∀ a b c a' b' c' : ℝ, e1 * a * (e2 * a') + e1 * b * (e2 * b') + e1 * c * (e2 * c') =
            e1 * e2 * (a * a' + b * b' + c * c') := by intros; ring
        simp only [this, abs_mul]
        have habs : |e1| * |e2| = 1 := by
          rcases he1 with rfl | rfl <;> rcases he2 with rfl | rfl <;> norm_num
        rw [habs, one_mul]
        exact hd
  have hlen : 10 ≤ (idx.map fun i => PA (rA * i.toNat)).length := by
    have hsub : ((List.range 10).map fun (j : ℕ) => lo - j) ⊆ idx := by
      intro i hi'
      obtain ⟨j, hj, rfl⟩ := List.mem_map.mp hi'
      have := List.mem_range.mp hj
      exact hmem _ (by omega) (by omega)
    have hnd : ((List.range 10).map fun (j : ℕ) => lo - (j : ℤ)).Nodup :=
      List.nodup_range.map fun a b hab => by simp at hab; exact hab
    have := (List.subperm_of_subset hnd hsub).length_le
    simpa using this
  obtain ⟨fuel, hf⟩ := hsucc g X h.frame h.mounting hXw _ _ (by simp only [List.forall_mem_map]; exact fun _ _ => h.unit_A _)
    (by simp only [List.forall_mem_map]; exact fun _ _ => h.unit_B _) hsame hlen (hne hhalf) hst
  refine ⟨_, fuel, hrun, rfl, fun rng args a1 a2 a3 a4 hc => ?_⟩
  exact hf rng args (Or.inl ⟨_, a1, a2, by rw [List.map_map]; rfl⟩) (Or.inl ⟨_, a3, a4, by rw [List.map_map]; rfl⟩) hc

/-- **C75**, that there is a result: if the body does not move at all before it starts to turn, and a later pose is turned
about an axis that differs by more than 18 degrees from that of the first turn, then both scripts end normally (with a
suitable one of the correct linear algebra libraries, as for C72). -/
theorem C75_succeeds : ∃ svd : Svd, (∀ T s V, svd T = .ok (s, V) → Spec.IsSVD T s V) ∧
    ∀ (g X : DQuat), X.rot.w ≠ 0 → ∀ (M : ℤ → Pose) (n : ℕ) (lo hi m : ℤ) (dt ta tb : ℝ) (rA rB : ℕ) (PA PB : ℕ → Pose),
      Spec.Recorded g X M n 25 lo hi m 99.5 99 dt rA rB PA PB → (∀ i, ¬ Spec.HalfTurn (M lo) (M i)) →
      (∀ i < lo, M i = M lo) → ∀ (l : ℤ) (s₁ s₂ : ℝ), lo + 1 < l → l ≤ hi → 1e-12 < s₁ → 1e-12 < s₂ →
      (Spec.turn (M lo) (M (lo + 1))).x ^ 2 + (Spec.turn (M lo) (M (lo + 1))).y ^ 2 +
        (Spec.turn (M lo) (M (lo + 1))).z ^ 2 = s₁ ^ 2 →
      (Spec.turn (M lo) (M l)).x ^ 2 + (Spec.turn (M lo) (M l)).y ^ 2 + (Spec.turn (M lo) (M l)).z ^ 2 = s₂ ^ 2 →
      |(Spec.turn (M lo) (M (lo + 1))).x * (Spec.turn (M lo) (M l)).x + (Spec.turn (M lo) (M (lo + 1))).y *
        (Spec.turn (M lo) (M l)).y + (Spec.turn (M lo) (M (lo + 1))).z * (Spec.turn (M lo) (M l)).z| ≤ 0.95 * (s₁ * s₂) →
      ∃ out fuel, alignScript ⟨Spec.recording ta (dt / rA) (rA * n) PA, Spec.recording tb (dt / rB) (rB * n) PB, true,
          "Hamilton"⟩ = .ok out ∧
        ∀ rng, ∃ res, calibrationScript svd rng fuel (nextArgs out) = .ok (some res) := by
  obtain ⟨svd, hsvd, h⟩ := recorded_ends
  refine ⟨svd, hsvd, ?_⟩
  intro g X hXw M n lo hi m dt ta tb rA rB PA PB hr hhalf hstill l s₁ s₂ hl hl' hs₁ hs₂ v1 v2 hd
  obtain ⟨out, fuel, h1, h2, h3⟩ := h g X hXw M n lo hi m dt ta tb rA rB PA PB hr hhalf hstill l s₁ s₂ hl hl' hs₁ hs₂ v1 v2 hd
  exact ⟨out, fuel, h1, fun rng => h3 rng (nextArgs out) rfl rfl rfl rfl fun _ => h2⟩

/-! ## Example -/

/-- The pose with the motion of a unit dual quaternion. -/
noncomputable def bodyOf (a : DQuat) : Pose := ⟨(((2 : ℝ) • a.dual) * a.rot.conj).vec, a.rot⟩

theorem bodyOf_motion {a : DQuat} (ha : Spec.IsUnit a) (x : Vec3) : Spec.poseMotion (bodyOf a) x = Spec.motion a x := by
  have hr := DQuat.IsUnit.rot ha
  rw [poseMotion_coords _ (Quat.norm_eq_one.mpr hr), motion_rot_unit hr]
  rfl

/-- The poses of the body in the example: it moves along the first axis, and turns as in the example of C73. -/
noncomputable def bodyPose (i : ℤ) : Pose := ⟨⟨max (i - 30) 0, 0, 0⟩, demo i⟩

noncomputable def frameDQ : DQuat := ⟨demoFrame, ⟨0.5, -0.5, 0.5, -0.5⟩⟩

theorem frameDQ_unit : Spec.IsUnit frameDQ := by rw [DQuat.isUnit_iff]; norm_num [Quat.dot, frameDQ, demoFrame]

noncomputable def sensorPose (j : ℕ) : Pose := bodyOf (frameDQ * DQuat.fromPose (bodyPose (j / 2 - 5)) * scriptX)

theorem bodyPose_unit (i : ℤ) : (bodyPose i).q.norm = 1 := demo_unit i

theorem sensorDQ_unit (i : ℤ) : Spec.IsUnit (frameDQ * DQuat.fromPose (bodyPose i) * scriptX) :=
  DQuat.isUnit_mul (DQuat.isUnit_mul frameDQ_unit (fromPose_isUnit (bodyPose_unit i))) script_example.2.2.1

theorem sensorPose_motion (i : ℤ) (x : Vec3) : Spec.poseMotion (bodyOf (frameDQ * DQuat.fromPose (bodyPose i) * scriptX)) x =
    Spec.motion frameDQ (Spec.poseMotion (bodyPose i) (Spec.motion scriptX x)) := by
  have h1 := fromPose_isUnit (bodyPose_unit i)
  rw [bodyOf_motion (sensorDQ_unit i), DQuat.motion_mul (DQuat.isUnit_mul frameDQ_unit h1) script_example.2.2.1,
    DQuat.motion_mul frameDQ_unit h1, ← poseMotion_eq (bodyPose_unit i)]

open Quaternion in
theorem turn_formula (p q : Pose) : star p.q.toH * q.q.toH = (p.q.conj * q.q).toH := by
  rw [Quat.toH_mul, Quat.toH_conj]

theorem demo_recorded : Spec.Recorded frameDQ scriptX bodyPose 70 25 30 34 5 99.5 99 1 1 2 (fun i => bodyPose i) sensorPose where
  frame := frameDQ_unit
  mounting := script_example.2.2.1
  unit := bodyPose_unit
  rest := demo_ok.1
  margins := by norm_num
  steps := demo_ok.2.1
  within_A := demo_ok.2.2.1
  within_B := demo_ok.2.2.2
  period := one_pos
  rates := by norm_num
  unit_A := fun i => bodyPose_unit i
  unit_B := fun j => Quat.norm_eq_one.mpr (DQuat.IsUnit.rot (sensorDQ_unit _))
  poses_A := fun i _ x => by simp only [one_mul]
  poses_B := fun i _ x => by
    simp only [sensorPose]
    rw [show ((2 * i : ℕ) : ℤ) / 2 = i from by omega]
    exact sensorPose_motion _ _

theorem demo_halfTurn (i : ℤ) : ¬ Spec.HalfTurn (bodyPose 30) (bodyPose i) := by
  unfold Spec.HalfTurn
  rw [turn_formula]
  simp only [bodyPose, demo]
  split_ifs <;> norm_num [Quat.toH]

theorem demo_turns : Spec.turn (bodyPose 30) (bodyPose 31) = ⟨-0.6, 0, 0⟩ ∧
    Spec.turn (bodyPose 30) (bodyPose 34) = ⟨-0.2688, -0.2688, -0.9216⟩ := by
  unfold Spec.turn
  rw [turn_formula, turn_formula]
  constructor <;> ext <;> norm_num [bodyPose, demo, Quat.toH, Spec.imPart]

/-- Both scripts end normally, with the true result. -/
example : ∃ svd fuel out res P f, alignScript ⟨Spec.recording 100 (1 / (1 : ℕ)) (1 * 70) fun i => bodyPose i,
        Spec.recording 7 (1 / (2 : ℕ)) (2 * 70) sensorPose, true, "Hamilton"⟩ = .ok out ∧ out.time_offset = some (-88) ∧
      calibrationScript svd (fun _ => []) fuel (nextArgs out) = .ok (some res) ∧ res.extrinsics = some P ∧
      (∀ x, Spec.poseMotion P x = Spec.motion scriptX x) ∧ res.calibration = some f ∧ f.delay = -88 := by
  obtain ⟨svd, hsvd, hs⟩ := C75_succeeds
  have hw : scriptX.rot.w ≠ 0 := by norm_num [scriptX]
  obtain ⟨t1, t2⟩ := demo_turns
  have hsq : √0.99385344 ^ 2 = (0.99385344 : ℝ) := Real.sq_sqrt (by norm_num)
  have hs9 : (0.9 : ℝ) ≤ √0.99385344 := Real.le_sqrt_of_sq_le (by norm_num)
  have key := hs frameDQ scriptX hw bodyPose 70 30 34 5 1 100 7 1 2 _ _ demo_recorded demo_halfTurn ?_ 34 0.6
    (√0.99385344) (by norm_num) (by norm_num) (by norm_num) (lt_of_lt_of_le (by norm_num) hs9) ?_ ?_ ?_
  · obtain ⟨out, fuel, h1, h2⟩ := key
    obtain ⟨res, h2⟩ := h2 fun _ => []
    obtain ⟨out', h1', h3, h4⟩ := C75_end_to_end svd hsvd (fun _ => []) fuel frameDQ scriptX hw bodyPose 70 30 34 5 1 100 7 1 2
      _ _ demo_recorded demo_halfTurn 30 31 34 (by norm_num) (by norm_num) (by norm_num) (by
        rw [t1, t2]
        intro h
        have := congrArg Vec3.z h
        norm_num [Spec.cross] at this)
    rw [h1] at h1'
    cases h1'
    obtain ⟨P, f, e1, -, -, e4, e5, e6, -⟩ := h4 res h2
    refine ⟨svd, fuel, out, res, P, f, h1, ?_, h2, e1, e4, e5, ?_⟩
    · rw [h3]; norm_num
    · rw [e6]; norm_num
  · intro i hi
    unfold bodyPose demo
    rw [if_pos hi.le, if_pos le_rfl]
    have : ((i : ℝ) - 30) ≤ 0 := by
      have : (i : ℝ) < 30 := by exact_mod_cast hi
      linarith
    rw [max_eq_right this]
    norm_num
  · rw [show (30 : ℤ) + 1 = 31 from rfl, t1]
    norm_num
  · rw [t2, hsq]
    norm_num
  · rw [show (30 : ℤ) + 1 = 31 from rfl, t1, t2]
    rw [abs_of_nonneg (by norm_num)]
    generalize √0.99385344 = r at hs9
    norm_num at hs9 ⊢
    linarith

end HandEye
