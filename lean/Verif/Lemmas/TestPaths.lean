import Verif.Spec.TestPaths
import Verif.Props.DualQuat2
import Verif.Lemmas.Align

/-! # Lemmas about the trajectories of the tests -/

namespace HandEye

/-! ## The orientation -/

theorem euler_eq (b c : ℝ) : quaternionFromEulerRxyz 0 b c =
    ⟨Real.sin (b / 2) * Real.sin (c / 2), Real.sin (b / 2) * Real.cos (c / 2), Real.cos (b / 2) * Real.sin (c / 2),
      Real.cos (b / 2) * Real.cos (c / 2)⟩ := by
  unfold quaternionFromEulerRxyz
  ext <;> simp [Quat.mul_x, Quat.mul_y, Quat.mul_z, Quat.mul_w]

theorem euler_dot (b c : ℝ) : (quaternionFromEulerRxyz 0 b c).dot (quaternionFromEulerRxyz 0 b c) = 1 := by
  rw [euler_eq]
  simp only [Quat.dot]
  have h1 := Real.sin_sq_add_cos_sq (b / 2)
  have h2 := Real.sin_sq_add_cos_sq (c / 2)
  linear_combination (Real.sin (c / 2) ^ 2 + Real.cos (c / 2) ^ 2) * h1 + h2

theorem rotateVector_neg (q : Quat) (v : Vec3) : (-q).rotateVector v = q.rotateVector v := by
  ext <;> simp [Quat.rotateVector]

theorem euler_rotate (b c : ℝ) (v : Vec3) : (quaternionFromEulerRxyz 0 b c).rotateVector v =
    Spec.rodrigues b ⟨0, 1, 0⟩ (Spec.rodrigues c ⟨0, 0, 1⟩ v) := by
  rw [euler_eq]
  have hb : Real.sin b = 2 * Real.sin (b / 2) * Real.cos (b / 2) := by
    rw [← Real.sin_two_mul]; ring_nf
  have hb' : Real.cos b = 2 * Real.cos (b / 2) ^ 2 - 1 := by
    rw [← Real.cos_two_mul]; ring_nf
  have hc : Real.sin c = 2 * Real.sin (c / 2) * Real.cos (c / 2) := by
    rw [← Real.sin_two_mul]; ring_nf
  have hc' : Real.cos c = 2 * Real.cos (c / 2) ^ 2 - 1 := by
    rw [← Real.cos_two_mul]; ring_nf
  have h1 := Real.sin_sq_add_cos_sq (b / 2)
  have h2 := Real.sin_sq_add_cos_sq (c / 2)
  have h1' : Real.sin (b / 2) ^ 2 = 1 - Real.cos (b / 2) ^ 2 := by linarith
  have h2' : Real.sin (c / 2) ^ 2 = 1 - Real.cos (c / 2) ^ 2 := by linarith
  simp only [Spec.rodrigues, Spec.cross, hb, hb', hc, hc', Quat.rotateVector]
  clear hb hb' hc hc'
  generalize Real.sin (b / 2) = sb at *
  generalize Real.cos (b / 2) = cb at *
  generalize Real.sin (c / 2) = sc at *
  generalize Real.cos (c / 2) = cc at *
  ext <;> simp [Vec3.dot]
  all_goals ring_nf
  all_goals simp only [h1', h2']
  all_goals ring

theorem fromPose_motion (pos : Vec3) {q : Quat} (h : q.dot q = 1) (x : Vec3) :
    Spec.motion (DQuat.fromPose ⟨pos, q⟩) x = q.rotateVector x + pos := by
  have hn : q.norm = 1 := Quat.norm_eq_one.mpr h
  have h1 := C15_rotate_then_translate ⟨pos, q⟩ hn x
  rw [DQuat.passive_unit (fromPose_unit _ (by dsimp only; rw [hn]; norm_num))] at h1
  exact Except.ok.inj h1

theorem normalizePositive_unit {q : Quat} (h : q.dot q = 1) :
    normalizePositive q = (if q.w < 0 then -q else q) := by
  unfold normalizePositive
  rw [Quat.normalize_unit h]

theorem normalizePositive_dot {q : Quat} (h : q.norm > 1e-8) :
    (normalizePositive q).dot (normalizePositive q) = 1 := by
  have := Quat.normalize_dot_self h
  unfold normalizePositive
  split_ifs
  · simpa [Quat.dot] using this
  · exact this

theorem normalizePositive_w (q : Quat) : 0 ≤ (normalizePositive q).w := by
  unfold normalizePositive
  split_ifs with h
  · simp; linarith
  · linarith

/-! ## The arrays -/

theorem unitLinspace_length (n : ℕ) : (unitLinspace n).length = n := by
  unfold unitLinspace
  split_ifs with h <;> simp [h]

theorem unitLinspace_get {n i : ℕ} (h : i < n) : (unitLinspace n)[i]? = some (Spec.sampleTime n i) := by
  unfold unitLinspace Spec.sampleTime
  split_ifs with h1
  · subst h1
    obtain rfl : i = 0 := by omega
    simp
  · rw [List.getElem?_map, List.getElem?_range h]
    simp [div_eq_mul_inv]

theorem foldl_max_ge (l : List ℝ) (a : ℝ) : a ≤ l.foldl max a ∧ ∀ x ∈ l, x ≤ l.foldl max a := by
  induction l generalizing a with
  | nil => simp
  | cons b l ih =>
    obtain ⟨h1, h2⟩ := ih (max a b)
    rw [List.foldl_cons]
    refine ⟨le_trans (le_max_left _ _) h1, ?_⟩
    rintro x hx
    rcases List.mem_cons.mp hx with rfl | hx
    · exact le_trans (le_max_right _ _) h1
    · exact h2 x hx

theorem pyMax_ge {l : List ℝ} {x : ℝ} (h : x ∈ l) : ∃ m, pyMax l = .ok m ∧ x ≤ m := by
  cases l with
  | nil => cases h
  | cons a l =>
    refine ⟨_, rfl, ?_⟩
    obtain ⟨h1, h2⟩ := foldl_max_ge l a
    rcases List.mem_cons.mp h with rfl | h
    · exact h1
    · exact h2 x h

/-- The samples from the `i`-th on are still those of the curve. -/
structure Remaining (n i : ℕ) (s : PathState) : Prop where
  x : ∀ j, i ≤ j → j < n → s.x[j]? = some (Spec.helixPosition (Spec.sampleTime n j)).x
  y : ∀ j, i ≤ j → j < n → s.y[j]? = some (Spec.helixPosition (Spec.sampleTime n j)).y
  z : ∀ j, i ≤ j → j < n → s.z[j]? = some (Spec.helixPosition (Spec.sampleTime n j)).z

theorem remaining_initial (n : ℕ) : Remaining n 0 (initialPath (unitLinspace n)) := by
  constructor <;> intro j _ hj <;> simp only [initialPath, List.getElem?_map, unitLinspace_get hj, Option.map_some,
    Spec.helixPosition, Option.some.injEq] <;> ring

/-- What the first part of a pass of the loop gives. -/
structure DrawnPose (o : PathOptions) (d : PathDraws) (n i : ℕ) (pos : Vec3) (q : Quat) : Prop where
  inlier : ¬ Spec.IsOutlier o d i → pos = Spec.helixPosition (Spec.sampleTime n i) ∧
    q = quaternionFromEulerRxyz 0 (-(4 * Real.pi * Spec.sampleTime n i) * 0.1) (-(4 * Real.pi * Spec.sampleTime n i))
  outlier : Spec.IsOutlier o d i → q = d.q i ∧ (Spec.UniformDraws d → pos.x ≤ 0 ∧ pos.z ≤ 0)

/-- The state of the arrays after the first part of a pass: the sample itself is at `pos`. -/
structure Placed (n i : ℕ) (pos : Vec3) (s : PathState) : Prop where
  x : s.x[i]? = some pos.x
  y : s.y[i]? = some pos.y
  z : s.z[i]? = some pos.z
  rest : Remaining n (i + 1) s

theorem sampleTime_nonneg {n i : ℕ} (h : i < n) : 0 ≤ Spec.sampleTime n i := by
  unfold Spec.sampleTime
  have : (1 : ℝ) ≤ n := by exact_mod_cast (by omega : 1 ≤ n)
  exact div_nonneg (Nat.cast_nonneg _) (by linarith)

theorem sampleTime_le_one {n i : ℕ} (h : i < n) : Spec.sampleTime n i ≤ 1 := by
  unfold Spec.sampleTime
  have h1 : (i : ℝ) + 1 ≤ n := by exact_mod_cast h
  exact div_le_one_of_le₀ (by linarith) (by have : (0 : ℝ) ≤ i := Nat.cast_nonneg _; linarith)

theorem outlierValue_ok {l : List ℝ} {a : ℝ} (h : a ∈ l) (size coin : ℝ) :
    ∃ v, outlierValue l size coin = .ok v ∧ (0 ≤ a → 0 ≤ size → v ≤ 0) := by
  obtain ⟨m, hm, ham⟩ := pyMax_ge h
  refine ⟨_, by unfold outlierValue; rw [hm, Py.ok_bind]; rfl, ?_⟩
  intro ha hs
  have : 0 ≤ size * m := mul_nonneg hs (le_trans ha ham)
  split_ifs <;> linarith

theorem getElem?_set_self' {l : List ℝ} {i : ℕ} {a v : ℝ} (h : l[i]? = some a) : (l.set i v)[i]? = some v := by
  have := (List.getElem?_eq_some_iff.mp h).1
  simp [this]

theorem getElem?_set_after {l : List ℝ} {i j : ℕ} {v : ℝ} (h : i + 1 ≤ j) : (l.set i v)[j]? = l[j]? := by
  rw [List.getElem?_set_ne (by omega)]

theorem drawPose_ok (o : PathOptions) (d : PathDraws) {n i : ℕ} (hi : i < n) {s : PathState}
    (hs : Remaining n i s) : ∃ s' q pos, drawPose o d (4 * Real.pi * Spec.sampleTime n i) i s = .ok (s', q) ∧
      Placed n i pos s' ∧ DrawnPose o d n i pos q := by
  have hx := hs.x i le_rfl hi
  have hy := hs.y i le_rfl hi
  have hz := hs.z i le_rfl hi
  unfold drawPose
  by_cases h : Spec.IsOutlier o d i
  · have h' := h
    unfold Spec.IsOutlier at h'
    rw [if_pos h']
    obtain ⟨vx, ex, bx⟩ := outlierValue_ok (List.mem_of_getElem? hx) (d.size i).x (d.coin i).x
    obtain ⟨vy, ey, -⟩ := outlierValue_ok (List.mem_of_getElem? hy) (d.size i).y (d.coin i).y
    obtain ⟨vz, ez, bz⟩ := outlierValue_ok (List.mem_of_getElem? hz) (d.size i).z (d.coin i).z
    rw [ex, Py.ok_bind, ey, Py.ok_bind, ez, Py.ok_bind]
    refine ⟨_, _, ⟨vx, vy, vz⟩, rfl, ⟨getElem?_set_self' hx, getElem?_set_self' hy, getElem?_set_self' hz, ?_⟩,
      fun hn => absurd h hn, fun _ => ⟨rfl, fun hd => ⟨bx ?_ (hd i).1, bz ?_ (hd i).2.2.1⟩⟩⟩
    · constructor <;> intro j hj hjn <;> dsimp only <;> rw [getElem?_set_after hj]
      · exact hs.x j (by omega) hjn
      · exact hs.y j (by omega) hjn
      · exact hs.z j (by omega) hjn
    · simp only [Spec.helixPosition]
      linarith [Real.neg_one_le_cos (4 * Real.pi * Spec.sampleTime n i)]
    · simp only [Spec.helixPosition]
      linarith [sampleTime_nonneg hi]
  · have h' := h
    unfold Spec.IsOutlier at h'
    rw [if_neg h']
    exact ⟨_, _, Spec.helixPosition (Spec.sampleTime n i), rfl, ⟨hx, hy, hz, fun j hj => hs.x j (by omega),
      fun j hj => hs.y j (by omega), fun j hj => hs.z j (by omega)⟩, fun _ => ⟨rfl, rfl⟩, fun hn => absurd hn h⟩

/-- What the noise does to a pose. -/
def Noised (o : PathOptions) (d : PathDraws) (i : ℕ) (pos : Vec3) (q : Quat) (pos' : Vec3) (q' : Quat) : Prop :=
  if o.include_noise = true then
    pos' = ⟨pos.x + o.noise_sigma_trans * (d.noise_pos i).x, pos.y + o.noise_sigma_trans * (d.noise_pos i).y,
      pos.z + o.noise_sigma_trans * (d.noise_pos i).z⟩ ∧ ∃ r r', r.inverse = .ok r' ∧ q' = r * q * r'
  else pos' = pos ∧ q' = q

theorem npNormal_eq_ok {s u v : ℝ} (h : npNormal s u = .ok v) : v = s * u := by
  unfold npNormal at h
  obtain ⟨_, _, h2⟩ := Py.bind_eq_ok.mp h
  exact (Except.ok.inj h2).symm

theorem addNoise_sound {o : PathOptions} {d : PathDraws} {n i : ℕ} {s s' : PathState} {q q' : Quat} {pos : Vec3}
    (hs : Placed n i pos s) (h : addNoise o d i s q = .ok (s', q')) :
    ∃ pos', Placed n i pos' s' ∧ Noised o d i pos q pos' q' := by
  unfold addNoise at h
  unfold Noised
  split_ifs at h ⊢ with hn
  · obtain ⟨x, e1, h⟩ := Py.bind_eq_ok.mp h
    obtain ⟨nx, e2, h⟩ := Py.bind_eq_ok.mp h
    obtain ⟨y, e3, h⟩ := Py.bind_eq_ok.mp h
    obtain ⟨ny, e4, h⟩ := Py.bind_eq_ok.mp h
    obtain ⟨z, e5, h⟩ := Py.bind_eq_ok.mp h
    obtain ⟨nz, e6, h⟩ := Py.bind_eq_ok.mp h
    obtain ⟨ax, -, h⟩ := Py.bind_eq_ok.mp h
    obtain ⟨ay, -, h⟩ := Py.bind_eq_ok.mp h
    obtain ⟨az, -, h⟩ := Py.bind_eq_ok.mp h
    obtain ⟨a, -, h⟩ := Py.bind_eq_ok.mp h
    obtain ⟨r', e7, h⟩ := Py.bind_eq_ok.mp h
    cases h
    rw [pyAt_eq_ok, hs.x] at e1
    rw [pyAt_eq_ok, hs.y] at e3
    rw [pyAt_eq_ok, hs.z] at e5
    cases e1
    cases e3
    cases e5
    refine ⟨_, ⟨?_, ?_, ?_, ?_⟩, rfl, _, _, e7, rfl⟩
    · rw [← npNormal_eq_ok e2]; exact getElem?_set_self' hs.x
    · rw [← npNormal_eq_ok e4]; exact getElem?_set_self' hs.y
    · rw [← npNormal_eq_ok e6]; exact getElem?_set_self' hs.z
    · constructor <;> intro j hj hjn <;> dsimp only <;> rw [getElem?_set_after hj]
      · exact hs.rest.x j hj hjn
      · exact hs.rest.y j hj hjn
      · exact hs.rest.z j hj hjn
  · cases h
    exact ⟨pos, hs, rfl, rfl⟩

/-- What a pass of the loop adds to the path. -/
def Sample (o : PathOptions) (d : PathDraws) (n i : ℕ) (a : DQuat) : Prop :=
  ∃ pos q pos' q', DrawnPose o d n i pos q ∧ Noised o d i pos q pos' q' ∧
    a = DQuat.fromPose ⟨pos', normalizePositive q'⟩

theorem pathStep_sound {o : PathOptions} {d : PathDraws} {n i : ℕ} (hi : i < n) {s : PathState}
    (hs : Remaining n i s) {r : PathState × DQuat} (h : pathStep o d (unitLinspace n) i s = .ok r) :
    Remaining n (i + 1) r.1 ∧ Sample o d n i r.2 := by
  unfold pathStep at h
  obtain ⟨ti, e1, h⟩ := Py.bind_eq_ok.mp h
  rw [pyAt_eq_ok, unitLinspace_get hi] at e1
  cases e1
  obtain ⟨s', q, pos, e2, hp, hd⟩ := drawPose_ok o d hi hs
  rw [e2, Py.ok_bind] at h
  dsimp only at h
  obtain ⟨⟨s'', q'⟩, e3, h⟩ := Py.bind_eq_ok.mp h
  dsimp only at h
  obtain ⟨pos', hp', hn⟩ := addNoise_sound hp e3
  rw [pyAt_eq_ok.mpr hp'.x, Py.ok_bind, pyAt_eq_ok.mpr hp'.y, Py.ok_bind, pyAt_eq_ok.mpr hp'.z, Py.ok_bind] at h
  cases h
  exact ⟨hp'.rest, pos, q, pos', q', hd, hn, rfl⟩

theorem pathStep_total {o : PathOptions} {d : PathDraws} (ho : o.include_noise = false) {n i : ℕ} (hi : i < n)
    {s : PathState} (hs : Remaining n i s) : ∃ r, pathStep o d (unitLinspace n) i s = .ok r := by
  unfold pathStep
  rw [pyAt_eq_ok.mpr (unitLinspace_get hi), Py.ok_bind]
  obtain ⟨s', q, pos, e2, hp, hd⟩ := drawPose_ok o d hi hs
  rw [e2, Py.ok_bind]
  dsimp only
  unfold addNoise
  rw [if_neg (by rw [ho]; exact Bool.false_ne_true), Py.pure_eq, Py.ok_bind]
  dsimp only
  rw [pyAt_eq_ok.mpr hp.x, Py.ok_bind, pyAt_eq_ok.mpr hp.y, Py.ok_bind, pyAt_eq_ok.mpr hp.z, Py.ok_bind]
  exact ⟨_, rfl⟩

theorem pathLoop_sound {o : PathOptions} {d : PathDraws} {n : ℕ} (k : ℕ) : ∀ (i : ℕ) (s : PathState) (l : List DQuat),
    i + k = n → Remaining n i s → pathLoop o d (unitLinspace n) (List.range' i k) s = .ok l →
    l.length = k ∧ ∀ j (h : j < l.length), Sample o d n (i + j) l[j] := by
  induction k with
  | zero =>
    intro i s l _ _ h
    cases h
    exact ⟨rfl, fun j h => absurd h (Nat.not_lt_zero _)⟩
  | succ k ih =>
    intro i s l hk hs h
    rw [List.range'_succ] at h
    unfold pathLoop at h
    obtain ⟨r, e1, h⟩ := Py.bind_eq_ok.mp h
    obtain ⟨rest, e2, h⟩ := Py.bind_eq_ok.mp h
    cases h
    obtain ⟨h1, h2⟩ := pathStep_sound (by omega) hs e1
    obtain ⟨h3, h4⟩ := ih (i + 1) _ _ (by omega) h1 e2
    refine ⟨by rw [List.length_cons, h3], ?_⟩
    intro j hj
    cases j with
    | zero => exact h2
    | succ j =>
      have := h4 j (by simpa using hj)
      rw [show i + (j + 1) = i + 1 + j by omega]
      exact this

theorem pathLoop_total {o : PathOptions} {d : PathDraws} (ho : o.include_noise = false) {n : ℕ} (k : ℕ) :
    ∀ (i : ℕ) (s : PathState), i + k = n → Remaining n i s →
    ∃ l, pathLoop o d (unitLinspace n) (List.range' i k) s = .ok l := by
  induction k with
  | zero => exact fun i s _ _ => ⟨[], rfl⟩
  | succ k ih =>
    intro i s hk hs
    rw [List.range'_succ]
    unfold pathLoop
    obtain ⟨r, hr⟩ := pathStep_total (d := d) ho (by omega) hs
    obtain ⟨l, hl⟩ := ih (i + 1) r.1 (by omega) (pathStep_sound (by omega) hs hr).1
    rw [hr, Py.ok_bind, hl, Py.ok_bind]
    exact ⟨_, rfl⟩

theorem generateTestPath_sound {n : ℕ} {o : PathOptions} {d : PathDraws} {l : List DQuat}
    (h : generateTestPath n o d = .ok l) : l.length = n ∧ ∀ j (h : j < l.length), Sample o d n j l[j] := by
  unfold generateTestPath at h
  rw [List.range_eq_range'] at h
  obtain ⟨h1, h2⟩ := pathLoop_sound n 0 _ l (by omega) (remaining_initial n) h
  refine ⟨h1, fun j hj => ?_⟩
  have := h2 j hj
  rwa [Nat.zero_add] at this

theorem generateTestPath_total (n : ℕ) {o : PathOptions} (d : PathDraws) (ho : o.include_noise = false) :
    ∃ l, generateTestPath n o d = .ok l := by
  unfold generateTestPath
  rw [List.range_eq_range']
  exact pathLoop_total ho n 0 _ (by omega) (remaining_initial n)

end HandEye
