import Verif.Model.Circle
import Verif.Spec.Sensor
import Verif.Props.EndToEnd
import Verif.Props.Extrinsic

/-! # Property C76: the circle of three sensors closes -/

namespace HandEye

theorem turn_vec (p q : Pose) : Spec.turn p q = (p.q.conj * q.q).vec := by
  unfold Spec.turn
  rw [turn_formula]
  rfl

theorem spin_dot (G : Quat) (u v : Vec3) : (spin G u).x * (spin G v).x + (spin G u).y * (spin G v).y +
    (spin G u).z * (spin G v).z = (G.dot G) ^ 2 * (u.x * v.x + u.y * v.y + u.z * v.z) := by
  simp [spin, Quat.vec, Quat.dot]
  ring

theorem spin_cross (G : Quat) (u v : Vec3) : Spec.cross (spin G u) (spin G v) = (G.dot G) • spin G (Spec.cross u v) := by
  ext <;> simp [spin, Quat.vec, Quat.dot, Spec.cross] <;> ring

theorem spin_ne {G : Quat} (hG : G.dot G = 1) {v : Vec3} (hv : v ≠ ⟨0, 0, 0⟩) : spin G v ≠ ⟨0, 0, 0⟩ := by
  intro h
  have := spin_dot G v v
  rw [h, hG] at this
  simp only [mul_zero, add_zero, one_pow, one_mul] at this
  apply hv
  ext
  · nlinarith [sq_nonneg v.x, sq_nonneg v.y, sq_nonneg v.z]
  · nlinarith [sq_nonneg v.x, sq_nonneg v.y, sq_nonneg v.z]
  · nlinarith [sq_nonneg v.x, sq_nonneg v.y, sq_nonneg v.z]

/-- The poses of the sensor. -/
noncomputable def sensorAt (M : ℤ → Pose) (s : Spec.Sensor) (i : ℤ) : Pose :=
  bodyOf (s.frame * DQuat.fromPose (M (i - s.delay)) * s.mounting)

section

variable {M : ℤ → Pose} {n : ℕ} {lo hi : ℤ}

theorem sensorAt_q (hM : ∀ i, (M i).q.norm = 1) (s : Spec.Sensor) (i : ℤ) :
    (sensorAt M s i).q = s.frame.rot * (M (i - s.delay)).q * s.mounting.rot := by
  have : (DQuat.fromPose (M (i - s.delay))).rot = (M (i - s.delay)).q := by
    simp only [DQuat.fromPose]
    exact Quat.normalize_unit (Quat.norm_eq_one.mp (hM _))
  simp only [sensorAt, bodyOf, DQuat.mul_rot, this]

theorem sensorAt_isUnit (hM : ∀ i, (M i).q.norm = 1) {s : Spec.Sensor} (hs : Spec.Carries M n 25 lo hi s) (i : ℤ) :
    Spec.IsUnit (s.frame * DQuat.fromPose (M (i - s.delay)) * s.mounting) :=
  DQuat.isUnit_mul (DQuat.isUnit_mul hs.frame (fromPose_isUnit (hM _))) hs.mounting

theorem sensorAt_motion (hM : ∀ i, (M i).q.norm = 1) {s : Spec.Sensor} (hs : Spec.Carries M n 25 lo hi s) (i : ℤ) (x : Vec3) :
    Spec.poseMotion (sensorAt M s i) x = Spec.motion s.frame (Spec.poseMotion (M (i - s.delay)) (Spec.motion s.mounting x)) := by
  unfold sensorAt
  rw [bodyOf_motion (sensorAt_isUnit hM hs i), DQuat.motion_mul (DQuat.isUnit_mul hs.frame (fromPose_isUnit (hM _))) hs.mounting,
    DQuat.motion_mul hs.frame (fromPose_isUnit (hM _)), ← poseMotion_eq (hM _)]

theorem relative_sensor {h y p q : Quat} (hh : h.dot h = 1) :
    (h * p * y).conj * (h * q * y) = y.conj * (p.conj * q) * y := by
  have : (h * p * y).conj * (h * q * y) = (h.dot h) • (y.conj * (p.conj * q) * y) := by
    ext <;> simp [Quat.dot] <;> ring
  rw [this, hh]
  ext <;> simp

theorem turn_sensor (hM : ∀ i, (M i).q.norm = 1) {s : Spec.Sensor} (hs : Spec.Carries M n 25 lo hi s) (i j : ℤ) :
    Spec.turn (sensorAt M s i) (sensorAt M s j) =
      spin s.mounting.rot.conj (Spec.turn (M (i - s.delay)) (M (j - s.delay))) := by
  rw [turn_vec, turn_vec, sensorAt_q hM, sensorAt_q hM, relative_sensor (DQuat.IsUnit.rot hs.frame)]
  generalize (M (i - s.delay)).q.conj * (M (j - s.delay)).q = r
  ext <;> simp [spin, Quat.vec] <;> ring

theorem halfTurn_sensor (hM : ∀ i, (M i).q.norm = 1) {s : Spec.Sensor} (hs : Spec.Carries M n 25 lo hi s) (i j : ℤ) :
    Spec.HalfTurn (sensorAt M s i) (sensorAt M s j) ↔ Spec.HalfTurn (M (i - s.delay)) (M (j - s.delay)) := by
  unfold Spec.HalfTurn
  rw [turn_formula, turn_formula, sensorAt_q hM, sensorAt_q hM, relative_sensor (DQuat.IsUnit.rot hs.frame)]
  generalize (M (i - s.delay)).q.conj * (M (j - s.delay)).q = r
  have : (s.mounting.rot.conj * r * s.mounting.rot).w = s.mounting.rot.dot s.mounting.rot * r.w := by
    simp [Quat.dot]
    ring
  change (s.mounting.rot.conj * r * s.mounting.rot).w = 0 ↔ r.w = 0
  rw [this, DQuat.IsUnit.rot hs.mounting, one_mul]

theorem rotationComponents_mounting {Q : ℤ → Quat} {Y : Quat} (hY : Y.dot Y = 1) (n : ℕ) :
    Spec.rotationComponents (fun i => Q i * Y) n = Spec.rotationComponents Q n := by
  unfold Spec.rotationComponents
  simp only [rotationVector_mounting hY]

theorem sensor_pair (hM : Spec.Moves M lo hi) {a b : Spec.Sensor} (ha : Spec.Carries M n 25 lo hi a)
    (hb : Spec.Carries M n 25 lo hi b) {dt : ℝ} (hdt : 0 < dt) (hr : a.rate = 1 ∨ b.rate = 1) :
    Spec.Recorded (b.frame * a.frame.conj) (a.mounting.conj * b.mounting) (sensorAt M a) n 25 (lo + a.delay) (hi + a.delay)
      (b.delay - a.delay) 99.5 99 dt a.rate b.rate a.poses b.poses where
  frame := DQuat.isUnit_mul hb.frame (DQuat.isUnit_conj ha.frame)
  mounting := DQuat.isUnit_mul (DQuat.isUnit_conj ha.mounting) hb.mounting
  unit := fun i => Quat.norm_eq_one.mpr (DQuat.IsUnit.rot (sensorAt_isUnit hM.unit ha i))
  rest := by
    intro i hi'
    rw [sensorAt_q hM.unit, sensorAt_q hM.unit, show i + 1 - a.delay = i - a.delay + 1 from by ring]
    rcases hi' with h | h
    · rw [hM.still (i - a.delay) (by omega)]
      rcases (show i - a.delay + 1 ≤ lo by omega).lt_or_eq with e | e
      · rw [hM.still _ e]
      · rw [e]
    · rw [hM.rest (i - a.delay) (by omega)]
  margins := by
    have h1 := ha.margins
    have h2 := hb.margins
    omega
  steps := by
    intro i
    have hd : ∀ p q : Quat, (a.frame.rot * p * a.mounting.rot).dot (a.frame.rot * q * a.mounting.rot) = p.dot q := by
      intro p q
      have : (a.frame.rot * p * a.mounting.rot).dot (a.frame.rot * q * a.mounting.rot) =
          a.frame.rot.dot a.frame.rot * a.mounting.rot.dot a.mounting.rot * p.dot q := by
        simp [Quat.dot]
        ring
      rw [this, DQuat.IsUnit.rot ha.frame, DQuat.IsUnit.rot ha.mounting, one_mul, one_mul]
    rw [sensorAt_q hM.unit, sensorAt_q hM.unit, show i + 1 - a.delay = i - a.delay + 1 from by ring, hd]
    rcases hM.steps (i - a.delay) with h | h
    · left; rw [h]
    · exact Or.inr h
  within_A := by
    simp only [sensorAt_q hM.unit]
    rw [rotationComponents_mounting (DQuat.IsUnit.rot ha.mounting)]
    exact ha.within _ (Or.inr rfl)
  within_B := by
    have e : ∀ i : ℤ, (b.frame * a.frame.conj).rot * (sensorAt M a (i - (b.delay - a.delay))).q =
        b.frame.rot * (M (i - b.delay)).q * a.mounting.rot := by
      intro i
      rw [sensorAt_q hM.unit, show i - (b.delay - a.delay) - a.delay = i - b.delay from by ring, DQuat.mul_rot,
        show a.frame.conj.rot = a.frame.rot.conj from rfl]
      have := DQuat.IsUnit.rot ha.frame
      have h2 : b.frame.rot * a.frame.rot.conj * (a.frame.rot * (M (i - b.delay)).q * a.mounting.rot) =
          (a.frame.rot.dot a.frame.rot) • (b.frame.rot * (M (i - b.delay)).q * a.mounting.rot) := by
        ext <;> simp [Quat.dot] <;> ring
      rw [h2, this]
      ext <;> simp
    simp only [e]
    rw [rotationComponents_mounting (DQuat.IsUnit.rot ha.mounting)]
    exact hb.within _ (Or.inl rfl)
  period := hdt
  rates := ⟨ha.rate, hb.rate, hr⟩
  unit_A := ha.unit
  unit_B := hb.unit
  poses_A := by
    intro i hi' x
    rw [ha.exact i hi' x, sensorAt_motion hM.unit ha]
  poses_B := by
    intro i hi' x
    rw [hb.exact i hi' x, sensorAt_motion hM.unit ha, DQuat.motion_mul hb.frame (DQuat.isUnit_conj ha.frame),
      DQuat.motion_mul (DQuat.isUnit_conj ha.mounting) hb.mounting, DQuat.motion_motion_conj ha.mounting,
      DQuat.motion_conj_motion ha.frame, show (i : ℤ) - (b.delay - a.delay) - a.delay = i - b.delay from by ring]

end

/-- **C76**, one pair: whatever initial calibration of two sensors is computed, it holds the difference of the clocks and
the transform between the sensors. -/
theorem C76_pair (svd : Svd) (hsvd : ∀ T s V, svd T = .ok (s, V) → Spec.IsSVD T s V) (rng : ℕ → List ℕ) (fuel : ℕ)
    (estimate : BatchEstimator) (M : ℤ → Pose) (n : ℕ) (lo hi : ℤ) (hM : Spec.Moves M lo hi)
    (i₁ i₂ i₃ : ℤ) (hi₁ : lo ≤ i₁ ∧ i₁ ≤ hi) (hi₂ : lo ≤ i₂ ∧ i₂ ≤ hi) (hi₃ : lo ≤ i₃ ∧ i₃ ≤ hi)
    (haxes : Spec.cross (Spec.turn (M i₁) (M i₂)) (Spec.turn (M i₁) (M i₃)) ≠ ⟨0, 0, 0⟩)
    (dt : ℝ) (hdt : 0 < dt) (a b : Spec.Sensor) (ha : Spec.Carries M n 25 lo hi a) (hb : Spec.Carries M n 25 lo hi b)
    (hr : a.rate = 1 ∨ b.rate = 1) (hw : (a.mounting.conj * b.mounting).rot.w ≠ 0) (cal init : Extrinsic)
    (h : calibrateTwoNumbers svd rng fuel estimate (a.table dt n) (b.table dt n) = .ok (some (cal, init))) :
    init.time_offset = dt * ((b.delay - a.delay : ℤ) : ℝ) + b.clock - a.clock ∧ Spec.IsUnit init.pose_dq ∧
      ∀ x, Spec.motion a.mounting (Spec.motion init.pose_dq x) = Spec.motion b.mounting x := by
  have hX := DQuat.isUnit_mul (DQuat.isUnit_conj ha.mounting) hb.mounting
  have key := recorded_result svd hsvd hw a.clock b.clock (sensor_pair hM ha hb hdt hr) (i₁ := i₁ + a.delay)
    (i₂ := i₂ + a.delay) (i₃ := i₃ + a.delay) ?_ (by omega) (by omega) (by omega) ?_
  · obtain ⟨out, hrun, hoff, hcal⟩ := key
    unfold calibrateTwoNumbers Spec.Sensor.table at h
    rw [hrun, Py.ok_bind] at h
    obtain ⟨res, hres, h⟩ := Py.bind_eq_ok.mp h
    cases res with
    | none => cases h
    | some res =>
      obtain ⟨P, hP, hPu, hPw, hPm⟩ := (hcal rng fuel (circleArgs out) rfl rfl rfl rfl res hres).1 rfl
      unfold refineCalibration at h
      dsimp only at h
      rw [hoff, hP] at h
      simp only [fileContent, Py.ok_bind] at h
      have hrot : (DQuat.fromPose P).rot ≠ ⟨0, 0, 0, 0⟩ := by
        intro h0
        have := DQuat.IsUnit.rot (fromPose_isUnit hPu)
        rw [h0] at this
        norm_num [Quat.dot] at this
      obtain ⟨f, c', e1, -, -, -, -, -, e2, e3, e4⟩ := C51_round_trip
        ⟨dt * ((b.delay - a.delay : ℤ) : ℝ) + b.clock - a.clock, DQuat.fromPose P⟩ hrot false
      rw [e1, Py.ok_bind] at h
      obtain ⟨f', -, h⟩ := Py.bind_eq_ok.mp h
      cases h
      refine ⟨e2, e3, fun x => ?_⟩
      rw [e4]
      dsimp only
      rw [← poseMotion_eq hPu, hPm, DQuat.motion_mul (DQuat.isUnit_conj ha.mounting) hb.mounting,
        DQuat.motion_motion_conj ha.mounting]
  · intro i
    rw [halfTurn_sensor hM.unit ha, add_sub_cancel_right]
    exact hM.half _
  · simp only [turn_sensor hM.unit ha, add_sub_cancel_right]
    have hc : a.mounting.rot.conj.dot a.mounting.rot.conj = 1 := by
      have := DQuat.IsUnit.rot ha.mounting
      simp only [Quat.dot, Quat.conj] at this ⊢
      linarith
    rw [spin_cross, hc]
    have := spin_ne hc haxes
    intro h0
    apply this
    rw [← h0]
    ext <;> simp

theorem mapM_three {α : Type} (f : ℕ → Py (Option α)) {runs : List (Option α)} (h : (List.range 3).mapM f = .ok runs)
    {l : List α} (hl : runs.mapM id = some l) :
    ∃ x y z, f 0 = .ok (some x) ∧ f 1 = .ok (some y) ∧ f 2 = .ok (some z) ∧ l = [x, y, z] := by
  rw [show List.range 3 = [0, 1, 2] from rfl] at h
  simp only [List.mapM_cons, List.mapM_nil] at h
  obtain ⟨x, hx, h⟩ := Py.bind_eq_ok.mp h
  obtain ⟨r, hr, h⟩ := Py.bind_eq_ok.mp h
  obtain ⟨y, hy, hr⟩ := Py.bind_eq_ok.mp hr
  obtain ⟨r', hr', hr⟩ := Py.bind_eq_ok.mp hr
  obtain ⟨z, hz, hr'⟩ := Py.bind_eq_ok.mp hr'
  cases hr'
  cases hr
  cases h
  cases x with
  | none => simp at hl
  | some x => cases y with
    | none => simp at hl
    | some y => cases z with
      | none => simp at hl
      | some z =>
        simp at hl
        exact ⟨x, y, z, hx, hy, hz, hl.symm⟩

/-- **C76**.  Three sensors on a body that turns about at least two axes: if the script gets to its end, the circle of the
initial calibrations that it prints is closed, that is, the time offsets add up to zero and the transforms compose to the
identity. -/
theorem C76_circle (svd : Svd) (hsvd : ∀ T s V, svd T = .ok (s, V) → Spec.IsSVD T s V) (rng : ℕ → ℕ → List ℕ)
    (fuel : ℕ → ℕ) (estimate : BatchEstimator) (M : ℤ → Pose) (n : ℕ) (lo hi : ℤ) (hM : Spec.Moves M lo hi)
    (i₁ i₂ i₃ : ℤ) (hi₁ : lo ≤ i₁ ∧ i₁ ≤ hi) (hi₂ : lo ≤ i₂ ∧ i₂ ≤ hi) (hi₃ : lo ≤ i₃ ∧ i₃ ≤ hi)
    (haxes : Spec.cross (Spec.turn (M i₁) (M i₂)) (Spec.turn (M i₁) (M i₃)) ≠ ⟨0, 0, 0⟩)
    (dt : ℝ) (hdt : 0 < dt) (a b c : Spec.Sensor) (ha : Spec.Carries M n 25 lo hi a) (hb : Spec.Carries M n 25 lo hi b)
    (hc : Spec.Carries M n 25 lo hi c) (hab : a.rate = 1 ∨ b.rate = 1) (hbc : b.rate = 1 ∨ c.rate = 1)
    (hca : c.rate = 1 ∨ a.rate = 1) (wab : (a.mounting.conj * b.mounting).rot.w ≠ 0)
    (wbc : (b.mounting.conj * c.mounting).rot.w ≠ 0) (wca : (c.mounting.conj * a.mounting).rot.w ≠ 0)
    (before after : Extrinsic)
    (h : closeTheCircle svd rng fuel estimate [a.table dt n, b.table dt n, c.table dt n] = .ok (some (before, after))) :
    before.time_offset = 0 ∧ Spec.IsUnit before.pose_dq ∧ ∀ x, Spec.motion before.pose_dq x = x := by
  unfold closeTheCircle at h
  obtain ⟨runs, hruns, h⟩ := Py.bind_eq_ok.mp h
  cases hl : runs.mapM id with
  | none => rw [hl] at h; cases h
  | some l =>
    rw [hl] at h
    obtain ⟨x, y, z, hx, hy, hz, rfl⟩ := mapM_three _ hruns hl
    obtain ⟨cx, ix⟩ := x
    obtain ⟨cy, iy⟩ := y
    obtain ⟨cz, iz⟩ := z
    obtain ⟨p1, p2, p3⟩ := C76_pair svd hsvd (rng 0) (fuel 0) estimate M n lo hi hM i₁ i₂ i₃ hi₁ hi₂ hi₃ haxes dt hdt a b ha hb
      hab wab cx ix hx
    obtain ⟨q1, q2, q3⟩ := C76_pair svd hsvd (rng 1) (fuel 1) estimate M n lo hi hM i₁ i₂ i₃ hi₁ hi₂ hi₃ haxes dt hdt b c hb hc
      hbc wbc cy iy hy
    obtain ⟨r1, r2, r3⟩ := C76_pair svd hsvd (rng 2) (fuel 2) estimate M n lo hi hM i₁ i₂ i₃ hi₁ hi₂ hi₃ haxes dt hdt c a hc ha
      hca wca cz iz hz
    obtain ⟨k, e1, e2, e3, e4⟩ := C52_circle ix [iy, iz] (by
      intro d hd
      simp only [List.mem_cons, List.not_mem_nil, or_false] at hd
      rcases hd with rfl | rfl | rfl <;> assumption)
    unfold bothCircles at h
    simp only [List.map_cons, List.map_nil] at h
    rw [e1, Py.ok_bind] at h
    obtain ⟨k', -, h⟩ := Py.bind_eq_ok.mp h
    cases h
    refine ⟨?_, e2, fun x => ?_⟩
    · rw [e3]
      simp only [List.map_cons, List.map_nil, List.sum_cons, List.sum_nil, p1, q1, r1]
      push_cast
      ring
    · rw [e4]
      simp only [List.foldr_cons, List.foldr_nil]
      have e : Spec.motion a.mounting (Spec.motion ix.pose_dq (Spec.motion iy.pose_dq (Spec.motion iz.pose_dq x))) =
          Spec.motion a.mounting x := by rw [p3, q3, r3]
      have := congrArg (Spec.motion a.mounting.conj) e
      rwa [DQuat.motion_conj_motion ha.mounting, DQuat.motion_conj_motion ha.mounting] at this

/-- **C76**, that there is a result: if a later pose is turned about an axis that differs by more than 18 degrees from that
of the first turn, and the batch estimator writes its file, then the script gets to its end (with a suitable one of the
correct linear algebra libraries, as for C72). -/
theorem C76_succeeds : ∃ svd : Svd, (∀ T s V, svd T = .ok (s, V) → Spec.IsSVD T s V) ∧
    ∀ (estimate : BatchEstimator), (∀ A B f, ∃ f', estimate A B f = .ok f') → ∀ (M : ℤ → Pose) (n : ℕ) (lo hi : ℤ),
      Spec.Moves M lo hi → ∀ (l : ℤ) (s₁ s₂ : ℝ), lo + 1 < l → l ≤ hi → 1e-12 < s₁ → 1e-12 < s₂ →
      (Spec.turn (M lo) (M (lo + 1))).x ^ 2 + (Spec.turn (M lo) (M (lo + 1))).y ^ 2 +
        (Spec.turn (M lo) (M (lo + 1))).z ^ 2 = s₁ ^ 2 →
      (Spec.turn (M lo) (M l)).x ^ 2 + (Spec.turn (M lo) (M l)).y ^ 2 + (Spec.turn (M lo) (M l)).z ^ 2 = s₂ ^ 2 →
      |(Spec.turn (M lo) (M (lo + 1))).x * (Spec.turn (M lo) (M l)).x + (Spec.turn (M lo) (M (lo + 1))).y *
        (Spec.turn (M lo) (M l)).y + (Spec.turn (M lo) (M (lo + 1))).z * (Spec.turn (M lo) (M l)).z| ≤ 0.95 * (s₁ * s₂) →
      ∀ (dt : ℝ), 0 < dt → ∀ (a b c : Spec.Sensor), Spec.Carries M n 25 lo hi a → Spec.Carries M n 25 lo hi b →
      Spec.Carries M n 25 lo hi c → (a.rate = 1 ∨ b.rate = 1) → (b.rate = 1 ∨ c.rate = 1) → (c.rate = 1 ∨ a.rate = 1) →
      (a.mounting.conj * b.mounting).rot.w ≠ 0 → (b.mounting.conj * c.mounting).rot.w ≠ 0 →
      (c.mounting.conj * a.mounting).rot.w ≠ 0 →
      ∃ fuel, ∀ rng, ∃ before after,
        closeTheCircle svd rng fuel estimate [a.table dt n, b.table dt n, c.table dt n] = .ok (some (before, after)) := by
  obtain ⟨svd, hsvd, hends⟩ := recorded_ends
  refine ⟨svd, hsvd, ?_⟩
  intro estimate hest M n lo hi hM l s₁ s₂ hl hl' hs₁ hs₂ v1 v2 hd dt hdt a b c ha hb hc hab hbc hca wab wbc wca
  have haxes : Spec.cross (Spec.turn (M lo) (M (lo + 1))) (Spec.turn (M lo) (M l)) ≠ ⟨0, 0, 0⟩ := by
    have h1 : 0 < s₁ := lt_trans (by norm_num) hs₁
    have h2 : 0 < s₂ := lt_trans (by norm_num) hs₂
    generalize Spec.turn (M lo) (M (lo + 1)) = u at *
    generalize Spec.turn (M lo) (M l) = v at *
    intro h0
    simp only [Spec.cross, Vec3.mk.injEq] at h0
    obtain ⟨c1, c2, c3⟩ := h0
    have hL : (u.x * v.x + u.y * v.y + u.z * v.z) ^ 2 = (s₁ * s₂) ^ 2 := by
      have : (u.x * v.x + u.y * v.y + u.z * v.z) ^ 2 = (u.x ^ 2 + u.y ^ 2 + u.z ^ 2) * (v.x ^ 2 + v.y ^ 2 + v.z ^ 2) -
          (u.y * v.z - u.z * v.y) ^ 2 - (u.z * v.x - u.x * v.z) ^ 2 - (u.x * v.y - u.y * v.x) ^ 2 := by ring
      rw [this, c1, c2, c3, v1, v2]
      ring
    have hp := mul_pos h1 h2
    have := (sq_eq_sq₀ (abs_nonneg (u.x * v.x + u.y * v.y + u.z * v.z)) hp.le).mp (by rw [sq_abs, hL])
    rw [this] at hd
    linarith
  have pair : ∀ {a b : Spec.Sensor}, Spec.Carries M n 25 lo hi a → Spec.Carries M n 25 lo hi b → (a.rate = 1 ∨ b.rate = 1) →
      (a.mounting.conj * b.mounting).rot.w ≠ 0 → ∃ fuel, ∀ rng, ∃ r,
        calibrateTwoNumbers svd rng fuel estimate (a.table dt n) (b.table dt n) = .ok (some r) := by
    intro a b ha hb hr hw
    have hc : a.mounting.rot.conj.dot a.mounting.rot.conj = 1 := by
      have := DQuat.IsUnit.rot ha.mounting
      simp only [Quat.dot, Quat.conj] at this ⊢
      linarith
    have hdot := fun u v => spin_dot a.mounting.rot.conj u v
    simp only [hc, one_pow, one_mul] at hdot
    have hsq : ∀ u : Vec3, (spin a.mounting.rot.conj u).x ^ 2 + (spin a.mounting.rot.conj u).y ^ 2 +
        (spin a.mounting.rot.conj u).z ^ 2 = u.x ^ 2 + u.y ^ 2 + u.z ^ 2 := by
      intro u
      linarith [hdot u u]
    have hhalf : ∀ i, ¬ Spec.HalfTurn (sensorAt M a (lo + a.delay)) (sensorAt M a i) := by
      intro i
      rw [halfTurn_sensor hM.unit ha, add_sub_cancel_right]
      exact hM.half _
    have hshift : lo + a.delay + 1 - a.delay = lo + 1 := by ring
    have key := hends _ _ hw _ n _ _ _ dt a.clock b.clock _ _ _ _ (sensor_pair hM ha hb hdt hr) hhalf ?_ (l + a.delay) s₁ s₂
      (by omega) (by omega) hs₁ hs₂ ?_ ?_ ?_
    · obtain ⟨out, fuel, hrun, hoff, hcal⟩ := key
      refine ⟨fuel, fun rng => ?_⟩
      obtain ⟨res, hres⟩ := hcal rng (circleArgs out) rfl rfl rfl rfl (fun h => by cases h)
      obtain ⟨out', hrun', hoff', hcal'⟩ := recorded_result svd hsvd hw a.clock b.clock (sensor_pair hM ha hb hdt hr) hhalf
        (i₁ := lo + a.delay) (i₂ := lo + a.delay + 1) (i₃ := l + a.delay) (by omega) (by omega) (by omega) (by
          simp only [turn_sensor hM.unit ha, add_sub_cancel_right, hshift]
          rw [spin_cross, hc]
          have := spin_ne hc haxes
          intro h0
          apply this
          rw [← h0]
          ext <;> simp)
      rw [hrun] at hrun'
      cases hrun'
      obtain ⟨P, hP, hPu, -, -⟩ := (hcal' rng fuel (circleArgs out) rfl rfl rfl rfl res hres).1 rfl
      unfold calibrateTwoNumbers Spec.Sensor.table
      rw [hrun, Py.ok_bind, hres, Py.ok_bind]
      unfold refineCalibration
      dsimp only
      rw [hoff', hP]
      simp only [fileContent, Py.ok_bind]
      have hrot : (DQuat.fromPose P).rot ≠ ⟨0, 0, 0, 0⟩ := by
        intro h0
        have := DQuat.IsUnit.rot (fromPose_isUnit hPu)
        rw [h0] at this
        norm_num [Quat.dot] at this
      obtain ⟨f, c', e1, -⟩ := C51_round_trip
        ⟨dt * ((b.delay - a.delay : ℤ) : ℝ) + b.clock - a.clock, DQuat.fromPose P⟩ hrot false
      rw [e1, Py.ok_bind]
      dsimp only
      obtain ⟨f', hf'⟩ := hest (Spec.recording a.clock (dt / a.rate) (a.rate * n) a.poses)
        (Spec.recording b.clock (dt / b.rate) (b.rate * n) b.poses) f
      rw [hf', Py.ok_bind]
      exact ⟨_, rfl⟩
    · intro i hi'
      unfold sensorAt
      rw [hM.still (i - a.delay) (by omega), add_sub_cancel_right]
    · simp only [turn_sensor hM.unit ha, add_sub_cancel_right, hshift, hsq]
      exact v1
    · simp only [turn_sensor hM.unit ha, add_sub_cancel_right, hsq]
      exact v2
    · simp only [turn_sensor hM.unit ha, add_sub_cancel_right, hshift, hdot]
      exact hd
  obtain ⟨f0, h0⟩ := pair ha hb hab wab
  obtain ⟨f1, h1⟩ := pair hb hc hbc wbc
  obtain ⟨f2, h2⟩ := pair hc ha hca wca
  refine ⟨fun i => if i = 0 then f0 else if i = 1 then f1 else f2, fun rng => ?_⟩
  obtain ⟨r0, h0⟩ := h0 (rng 0)
  obtain ⟨r1, h1⟩ := h1 (rng 1)
  obtain ⟨r2, h2⟩ := h2 (rng 2)
  unfold closeTheCircle
  rw [show List.range 3 = [0, 1, 2] from rfl]
  simp only [List.mapM_cons, List.mapM_nil, pyAt, List.getElem?_cons_zero, List.getElem?_cons_succ, Nat.reduceAdd,
    Nat.reduceMod, Py.ok_bind, if_true, one_ne_zero, if_false, OfNat.ofNat_ne_zero, OfNat.ofNat_ne_one, h0, h1, h2]
  exact ⟨_, _, rfl⟩

/-! ## Example: three sensors on the body of the example of C75 -/

noncomputable def demoSensor (frame mounting : DQuat) (delay : ℤ) (clock : ℝ) (rate : ℕ) : Spec.Sensor where
  frame := frame
  mounting := mounting
  delay := delay
  clock := clock
  rate := rate
  poses := fun j => bodyOf (frame * DQuat.fromPose (bodyPose (j / rate - delay)) * mounting)

theorem demo_moves : Spec.Moves bodyPose 30 34 where
  unit := bodyPose_unit
  still := by
    intro i hi
    unfold bodyPose demo
    rw [if_pos hi.le, if_pos le_rfl]
    have : ((i : ℝ) - 30) ≤ 0 := by
      have : (i : ℝ) < 30 := by exact_mod_cast hi
      linarith
    rw [max_eq_right this]
    norm_num
  rest := fun i hi => demo_ok.1 i (Or.inr hi)
  steps := demo_ok.2.1
  half := demo_halfTurn

theorem demo_frames {G : Quat} (hG : G = 1 ∨ G = demoFrame) {d : ℕ} (hd : d ≤ 10) {p : ℝ} (hp : p = 99 ∨ p = 99.5) :
    Spec.WithinPercentile (Spec.rotationComponents (fun i => G * demo (i - d)) 70) p := by
  have hD := demoAngle_ne
  have hu : G.dot G = 1 := by rcases hG with rfl | rfl <;> norm_num [Quat.dot, demoFrame]
  have hs : ∀ v, spin G v = v ∨ spin G v = ⟨v.z, v.x, v.y⟩ := by
    intro v
    rcases hG with rfl | rfl
    · left
      ext <;> simp [spin, Quat.vec]
    · exact Or.inr (demoFrame_spin v)
  have hv : ∀ i : ℤ, Spec.rotationVector (G * demo (i - d)) (G * demo (i + 1 - d)) =
      spin G (if i = d + 30 ∨ i = d + 31 then ⟨demoAngle, 0, 0⟩ else if i = d + 32 ∨ i = d + 33 then ⟨0, demoAngle, 0⟩ else 0) := by
    intro i
    rw [rotationVector_frame hu, show i + 1 - (d : ℤ) = i - d + 1 from by ring, demo_vector]
    congr 1
    split_ifs <;> first | rfl | omega
  refine demo_within (V := fun i => Spec.rotationVector (G * demo (i - d)) (G * demo (i + 1 - d))) (m := d) ?_ ?_ (by omega) ?_ ?_ ?_
  · rcases hp with rfl | rfl <;> norm_num
  · rcases hp with rfl | rfl <;> norm_num
  · rcases hp with rfl | rfl <;> norm_num
  · intro i
    simp only [hv]
    have h0 : spin G 0 = 0 := by ext <;> simp [spin, Quat.vec]
    split_ifs
    · rcases hs ⟨demoAngle, 0, 0⟩ with e | e <;> rw [e] <;> simp
    · rcases hs ⟨0, demoAngle, 0⟩ with e | e <;> rw [e] <;> simp
    · exact Or.inl h0
  · intro i h1 h2
    simp only [hv]
    refine spin_ne hu ?_
    split_ifs
    · simp [Vec3.ext_iff, hD]
    · simp [Vec3.ext_iff, hD]
    · omega

theorem demo_carries {frame mounting : DQuat} (hf : Spec.IsUnit frame) (hm : Spec.IsUnit mounting)
    (hG : frame.rot = 1 ∨ frame.rot = demoFrame) {d : ℕ} (hd : d ≤ 10) (clock : ℝ) {rate : ℕ} (hr : 1 ≤ rate) :
    Spec.Carries bodyPose 70 25 30 34 (demoSensor frame mounting d clock rate) where
  frame := hf
  mounting := hm
  margins := by simp only [demoSensor]; omega
  within := fun p hp => demo_frames hG hd hp
  rate := hr
  unit := fun j => Quat.norm_eq_one.mpr (DQuat.IsUnit.rot
    (DQuat.isUnit_mul (DQuat.isUnit_mul hf (fromPose_isUnit (bodyPose_unit _))) hm))
  exact := by
    intro i hi x
    have h1 := fromPose_isUnit (bodyPose_unit (i - d))
    simp only [demoSensor]
    rw [show ((rate * i : ℕ) : ℤ) / rate = i from by
        rw [Nat.cast_mul]
        exact Int.mul_ediv_cancel_left _ (by omega),
      bodyOf_motion (DQuat.isUnit_mul (DQuat.isUnit_mul hf h1) hm), DQuat.motion_mul (DQuat.isUnit_mul hf h1) hm,
      DQuat.motion_mul hf h1, ← poseMotion_eq (bodyPose_unit _)]

/-- A sensor that is shifted by one unit. -/
noncomputable def shiftDQ : DQuat := ⟨1, ⟨0.5, 0, 0, 0⟩⟩

/-- The script gets to its end, with a closed circle. -/
example : ∃ svd fuel before after, closeTheCircle svd (fun _ _ => []) fuel (fun _ _ f => .ok f)
      [(demoSensor 1 1 (0 : ℕ) 100 1).table 1 70, (demoSensor frameDQ scriptX (5 : ℕ) 7 2).table 1 70,
        (demoSensor 1 shiftDQ (2 : ℕ) 50 1).table 1 70] = .ok (some (before, after)) ∧
    before.time_offset = 0 ∧ ∀ x, Spec.motion before.pose_dq x = x := by
  obtain ⟨svd, hsvd, hs⟩ := C76_succeeds
  have hX := script_example.2.2.1
  have hS : Spec.IsUnit shiftDQ := by rw [DQuat.isUnit_iff]; norm_num [Quat.dot, shiftDQ]
  have h1 := demo_carries isUnit_one isUnit_one (Or.inl rfl) (d := 0) (by norm_num) 100 (rate := 1) le_rfl
  have h2 := demo_carries frameDQ_unit hX (Or.inr rfl) (d := 5) (by norm_num) 7 (rate := 2) (by norm_num)
  have h3 := demo_carries isUnit_one hS (Or.inl rfl) (d := 2) (by norm_num) 50 (rate := 1) le_rfl
  obtain ⟨t1, t2⟩ := demo_turns
  have hsq : √0.99385344 ^ 2 = (0.99385344 : ℝ) := Real.sq_sqrt (by norm_num)
  have hs9 : (0.9 : ℝ) ≤ √0.99385344 := Real.le_sqrt_of_sq_le (by norm_num)
  have w1 : ((demoSensor 1 1 (0 : ℕ) 100 1).mounting.conj * (demoSensor frameDQ scriptX (5 : ℕ) 7 2).mounting).rot.w ≠ 0 := by
    norm_num [demoSensor, scriptX]
  have w2 : ((demoSensor frameDQ scriptX (5 : ℕ) 7 2).mounting.conj * (demoSensor 1 shiftDQ (2 : ℕ) 50 1).mounting).rot.w ≠ 0 := by
    norm_num [demoSensor, scriptX, shiftDQ]
  have w3 : ((demoSensor 1 shiftDQ (2 : ℕ) 50 1).mounting.conj * (demoSensor 1 1 (0 : ℕ) 100 1).mounting).rot.w ≠ 0 := by
    norm_num [demoSensor, shiftDQ]
  have key := hs (fun _ _ f => .ok f) (fun _ _ f => ⟨f, rfl⟩) bodyPose 70 30 34 demo_moves 34 0.6 (√0.99385344) (by norm_num)
    (by norm_num) (by norm_num) (lt_of_lt_of_le (by norm_num) hs9) ?_ ?_ ?_ 1 one_pos _ _ _ h1 h2 h3 (Or.inl rfl) (Or.inr rfl)
    (Or.inl rfl) w1 w2 w3
  · obtain ⟨fuel, hf⟩ := key
    obtain ⟨before, after, h⟩ := hf fun _ _ => []
    have hc := C76_circle svd hsvd (fun _ _ => []) fuel (fun _ _ f => .ok f) bodyPose 70 30 34 demo_moves 30 31 34
      (by norm_num) (by norm_num) (by norm_num) (by
        rw [t1, t2]
        intro h
        have := congrArg Vec3.z h
        norm_num [Spec.cross] at this) 1 one_pos _ _ _ h1 h2 h3 (Or.inl rfl) (Or.inr rfl) (Or.inl rfl) w1 w2 w3 before after h
    exact ⟨svd, fuel, before, after, h, hc.1, hc.2.2⟩
  · rw [show (30 : ℤ) + 1 = 31 from rfl, t1]
    norm_num
  · rw [t2, hsq]
    norm_num
  · rw [show (30 : ℤ) + 1 = 31 from rfl, t1, t2]
    rw [abs_of_nonneg (by norm_num)]
    generalize √0.99385344 = r at hs9
    norm_num at hs9 ⊢
    linarith

end HandEye
