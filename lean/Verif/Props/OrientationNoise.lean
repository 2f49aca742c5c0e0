import Verif.Props.ClockNoise
import Verif.Lemmas.RotationNoise

/-! # C102, continued: from the noise of the orientations to the time offset -/

namespace HandEye

open Spec

/-- A recorded orientation is within `η` of a true one; a quaternion and its negative are the same orientation. -/
def Spec.NearOrientation (η : ℝ) (p P : Quat) : Prop := (p - P).norm ≤ η ∨ (p + P).norm ≤ η

/-- One of the two quaternions of a recorded orientation is near. -/
theorem nearOrientation_sign {η : ℝ} {p P : Quat} (h : NearOrientation η p P) : ∃ p', (p' = p ∨ p' = -p) ∧ (p' - P).norm ≤ η := by
  rcases h with h | h
  · exact ⟨p, Or.inl rfl, h⟩
  · refine ⟨-p, Or.inr rfl, ?_⟩
    have : -p - P = (-1 : ℝ) • (p + P) := by ext <;> simp <;> ring
    rw [this, Quat.norm_smul, abs_neg, abs_one, one_mul]
    exact h

/-- The error of a velocity that is computed from noisy orientations. -/
theorem orientation_velocity {p q P Q : Quat} (hp : p.norm = 1) (hq : q.norm = 1) (hP : P.norm = 1) (hQ : Q.norm = 1) {η : ℝ}
    (h1 : NearOrientation η p P) (h2 : NearOrientation η q Q) (h3 : 2 * η < |P.dot Q|) {t : ℝ} (ht : 0 < t) :
    ∃ v, angularVelocityBetweenQuaternions p q t = .ok v ∧
      NearVec (((Real.pi + 2) * η + 0.0094) / t) v ((1 / (2 * t)) • Spec.rotationVector P Q) := by
  obtain ⟨v, hv, hn⟩ := velocity_near hp hq ht
  obtain ⟨p', hp', n1⟩ := nearOrientation_sign h1
  obtain ⟨q', hq', n2⟩ := nearOrientation_sign h2
  have up : p'.norm = 1 := by rcases hp' with rfl | rfl <;> simp [hp]
  have uq : q'.norm = 1 := by rcases hq' with rfl | rfl <;> simp [hq]
  have hr := rotationVector_near up uq hP hQ n1 n2 h3
  have hdot : p.dot q ≠ 0 := by
    have hrel := (component_le (p' * q'.conj - P * Q.conj)).2.2.2.trans (relative_near uq hP n1 n2)
    have e1 : (p' * q'.conj).w = p'.dot q' := by simp [Quat.dot]; ring
    have e2 : (P * Q.conj).w = P.dot Q := by simp [Quat.dot]; ring
    rw [Quat.sub_w, e1, e2] at hrel
    intro h0
    have : p'.dot q' = 0 := by
      rcases hp' with rfl | rfl <;> rcases hq' with rfl | rfl <;> simp only [Quat.dot, Quat.neg_x, Quat.neg_y, Quat.neg_z, Quat.neg_w] at h0 ⊢ <;> linarith
    rw [this, zero_sub, abs_neg] at hrel
    linarith
  rw [rotationVector_signs hp' hq' (Or.inr hdot)] at hr
  refine ⟨v, hv, ?_⟩
  have key : ∀ a b c : ℝ, |a - 1 / (2 * t) * b| ≤ 0.0094 / t → |b - c| ≤ (Real.pi + 2) * (2 * η) →
      |a - 1 / (2 * t) * c| ≤ ((Real.pi + 2) * η + 0.0094) / t := by
    intro a b c hab hbc
    have : a - 1 / (2 * t) * c = (a - 1 / (2 * t) * b) + 1 / (2 * t) * (b - c) := by ring
    rw [this]
    refine (abs_add_le _ _).trans ?_
    rw [abs_mul (1 / (2 * t)), abs_of_pos (by positivity : 0 < 1 / (2 * t))]
    have k := mul_le_mul_of_nonneg_left hbc (by positivity : 0 ≤ 1 / (2 * t))
    have e : ((Real.pi + 2) * η + 0.0094) / t = 0.0094 / t + 1 / (2 * t) * ((Real.pi + 2) * (2 * η)) := by
      field_simp
      ring
    rw [e]
    exact add_le_add hab k
  exact ⟨key _ _ _ hn.1 hr.1, key _ _ _ hn.2.1 hr.2.1, key _ _ _ hn.2.2 hr.2.2⟩

/-- **C102**, from the recorded orientations.  A body that moves as `Q` says carries two sensors.  Sensor B is mounted with an orientation `X` relative
to A, measures in a frame that is turned by `G`, and its clock differs.  Both record unit quaternions of either sign within `ηA`, `ηB` of the true ones.
If the true filtered speed changes enough when it is shifted by more than `j` samples, the computed time offset is the true one up to `j`
sample times.  The margin contains a term 0.0094/dt, since the code takes rotations by less than about half a degree for none. -/
theorem C102_orientations (Q : ℤ → Quat) (hQ : ∀ i, (Q i).norm = 1) (G X : Quat) (hG : G.norm = 1) (hX : X.norm = 1)
    (n k : ℕ) (hk : 0 < k) (lo hi m : ℤ) (hrest : ∀ i, i < lo ∨ hi ≤ i → Q (i + 1) = Q i) (h1 : k ≤ lo)
    (h2 : hi + k ≤ n) (h3 : k ≤ lo + m) (h4 : hi + m + k ≤ n)
    (dt ta tb : ℝ) (hdt : 0 < dt) (rA rB : ℕ) (hrA : 1 ≤ rA) (hrB : 1 ≤ rB) (hr : rA = 1 ∨ rB = 1)
    (cfg : FilteringConfig) (c1 : cfg.smoothing_kernel_size_A = k) (c2 : cfg.smoothing_kernel_size_B = k)
    (hpA : 0 ≤ cfg.clipping_percentile_A ∧ cfg.clipping_percentile_A ≤ 100)
    (hpB : 0 ≤ cfg.clipping_percentile_B ∧ cfg.clipping_percentile_B ≤ 100)
    (hclA : Spec.WithinPercentile (Spec.rotationComponents Q n) cfg.clipping_percentile_A)
    (hclB : Spec.WithinPercentile (Spec.rotationComponents (fun i => G * Q (i - m)) n) cfg.clipping_percentile_B)
    (pA pB : ℕ → Quat) (uA : ∀ i, (pA i).norm = 1) (uB : ∀ i, (pB i).norm = 1) (ηA ηB : ℝ) (hηA : 0 ≤ ηA) (hηB : 0 ≤ ηB)
    (hA : ∀ i ≤ n, NearOrientation ηA (pA (rA * i)) (Q i))
    (hB : ∀ i ≤ n, NearOrientation ηB (pB (rB * i)) (G * Q (i - m) * X))
    (hstep : ∀ i, 2 * ηA < |(Q i).dot (Q (i + 1))| ∧ 2 * ηB < |(Q i).dot (Q (i + 1))|)
    (N : ℤ → ℝ) (hN : ∀ i, N i = (smoothed (fun j => (1 / (2 * dt)) • Spec.rotationVector (Q j) (Q (j + 1))) k i).norm)
    (j : ℕ) (x εA εB : ℝ) (hx : 0 ≤ x) (ex : energy N ≤ x ^ 2) (hεA : εA = ((Real.pi + 2) * ηA + 0.0094) / dt)
    (hεB : εB = ((Real.pi + 2) * ηB + 0.0094) / dt)
    (hmargin : ∀ s : ℤ, (j : ℤ) < |s| →
      4 * (√(3 * n) * εB * x + x * (√(3 * n) * εA) + √(3 * n) * εA * (√(3 * n) * εB)) < energy fun i => N i - N (i - s)) :
    ∃ k' : ℤ, |k' - m| ≤ j ∧ calculateTimeOffset (Spec.regular ta (dt / rA) (rA * n)) ((List.range (rA * n + 1)).map pA)
      (Spec.regular tb (dt / rB) (rB * n)) ((List.range (rB * n + 1)).map pB) cfg = .ok (dt * k' + tb - ta) := by
  have dX := Quat.norm_eq_one.mp hX
  have hp := Real.pi_pos
  have vA : ∀ i : ℕ, ∃ v, i < n → angularVelocityBetweenQuaternions (pA (rA * i)) (pA (rA * (i + 1))) dt = .ok v ∧
      NearVec εA v ((1 / (2 * dt)) • Spec.rotationVector (Q i) (Q (i + 1))) := by
    intro i
    by_cases hi : i < n
    · have hnext := hA (i + 1) hi
      push_cast at hnext
      obtain ⟨v, e1, e2⟩ := orientation_velocity (uA _) (uA _) (hQ i) (hQ (i + 1)) (hA i hi.le) hnext (hstep i).1 hdt
      exact ⟨v, fun _ => ⟨e1, hεA ▸ e2⟩⟩
    · exact ⟨0, fun h => absurd h hi⟩
  have vB : ∀ i : ℕ, ∃ v, i < n → angularVelocityBetweenQuaternions (pB (rB * i)) (pB (rB * (i + 1))) dt = .ok v ∧
      NearVec εB v ((1 / (2 * dt)) • Spec.rotationVector (G * Q (i - m)) (G * Q (i + 1 - m))) := by
    intro i
    by_cases hi : i < n
    · have hnext := hB (i + 1) hi
      push_cast at hnext
      have hu : ∀ i, (G * Q i * X).norm = 1 := fun i => by rw [Quat.norm_mul, Quat.norm_mul, hG, hQ, hX]; norm_num
      have hd : (G * Q (i - m) * X).dot (G * Q (i + 1 - m) * X) = (Q (i - m)).dot (Q (i - m + 1)) := by
        rw [Quat.dot_mul_right, dX, one_mul, Quat.dot_mul_left, Quat.norm_eq_one.mp hG, one_mul, show (i : ℤ) + 1 - m = i - m + 1 by ring]
      obtain ⟨v, e1, e2⟩ := orientation_velocity (uB _) (uB _) (hu _) (hu _) (hB i hi.le) hnext (by rw [hd]; exact (hstep _).2) hdt
      rw [rotationVector_mounting dX] at e2
      exact ⟨v, fun _ => ⟨e1, hεB ▸ e2⟩⟩
    · exact ⟨0, fun h => absurd h hi⟩
  choose vA hvA using vA
  choose vB hvB using vB
  exact C102_clock Q G hG n k hk lo hi m hrest h1 h2 h3 h4 dt ta tb hdt rA rB hrA hrB hr cfg c1 c2 hpA hpB hclA hclB pA pB vA vB εA εB
    (by rw [hεA]; positivity) (by rw [hεB]; positivity) (fun i hi => (hvA i hi).1) (fun i hi => (hvB i hi).1) (fun i hi => (hvA i hi).2)
    (fun i hi => (hvB i hi).2) N hN j x hx ex hmargin

/-! ## Example: the second sensor is mounted with another orientation; its last quaternion has the other sign and is a bit wrong -/

/-- What the second sensor records. -/
noncomputable def shaken (i : ℕ) : Quat :=
  (if i = 4 then -⟨2000 / 1000001, 0, 0, 999999 / 1000001⟩ else 1) * turnOnce (i - 1) * ⟨0, 0.6, 0, 0.8⟩

theorem shaken_factor (i : ℕ) : (if i = 4 then -(⟨2000 / 1000001, 0, 0, 999999 / 1000001⟩ : Quat) else 1).norm = 1 := by
  split_ifs <;> refine Quat.norm_eq_one.mpr ?_ <;> norm_num [Quat.dot]

theorem mount_unit : (⟨0, 0.6, 0, 0.8⟩ : Quat).norm = 1 := Quat.norm_eq_one.mpr (by norm_num [Quat.dot])

theorem shaken_near (i : ℕ) : NearOrientation 0.003 (shaken i) (⟨0, 0, 0, 1⟩ * turnOnce (i - 1) * ⟨0, 0.6, 0, 0.8⟩) := by
  have h1 : (⟨0, 0, 0, 1⟩ : Quat) * turnOnce (i - 1) = turnOnce (i - 1) := one_mul _
  unfold NearOrientation shaken
  rw [h1]
  split_ifs with h
  · right
    have : -(⟨2000 / 1000001, 0, 0, 999999 / 1000001⟩ : Quat) * turnOnce (i - 1) * ⟨0, 0.6, 0, 0.8⟩ + turnOnce (i - 1) * ⟨0, 0.6, 0, 0.8⟩ =
        ⟨-(2000 / 1000001), 0, 0, 2 / 1000001⟩ * turnOnce (i - 1) * ⟨0, 0.6, 0, 0.8⟩ := by
      ext <;> simp <;> ring
    rw [this, Quat.norm_mul, Quat.norm_mul, mount_unit, Quat.norm_eq_one.mpr (turnOnce_unit _), mul_one, mul_one]
    refine Real.sqrt_le_iff.mpr ?_
    norm_num [Quat.dot]
  · left
    rw [one_mul]
    have : ∀ q : Quat, (q - q).norm = 0 := fun q => by simp [Quat.norm, Quat.dot]
    rw [this]
    norm_num

/-- The offset is exact. -/
example : calculateTimeOffset (Spec.regular 100 1 4) ((List.range 5).map fun (i : ℕ) => turnOnce i) (Spec.regular 7 1 4) ((List.range 5).map shaken)
    ⟨1, 100, 1, 100⟩ = .ok (-92) := by
  have hw := turn_large
  have hN : ∀ i : ℤ, (if i = 1 then Real.arccos 0.8 else 0) =
      (smoothed (fun j => ((1 : ℝ) / (2 * 1)) • Spec.rotationVector (turnOnce j) (turnOnce (j + 1))) 1 i).norm := by
    intro i
    rw [smoothed_one, turnOnce_vector, Vec3.norm_smul]
    split_ifs
    · have : (⟨2 * Real.arccos 0.8, 0, 0⟩ : Vec3) = (2 * Real.arccos 0.8) • (⟨1, 0, 0⟩ : Vec3) := by ext <;> simp
      rw [this, Vec3.norm_smul, Vec3.norm_eq_one.mpr (by norm_num [Vec3.dot]), abs_of_pos (by norm_num), abs_of_pos (by linarith)]
      ring
    · rw [(Vec3.norm_eq_zero.mpr rfl : (0 : Vec3).norm = 0), mul_zero]
  have H := C102_orientations turnOnce (fun i => Quat.norm_eq_one.mpr (turnOnce_unit i)) ⟨0, 0, 0, 1⟩ ⟨0, 0.6, 0, 0.8⟩
    (Quat.norm_eq_one.mpr (by norm_num [Quat.dot])) mount_unit 4 1 one_pos 1 2 1 ?_ (by norm_num)
    (by norm_num) (by norm_num) (by norm_num) 1 100 7 one_pos 1 1 le_rfl le_rfl (Or.inl rfl) ⟨1, 100, 1, 100⟩ rfl rfl (by norm_num) (by norm_num)
    (by simpa using turnOnce_within 0 (by norm_num)) ?_ (fun i => turnOnce i) shaken (fun i => Quat.norm_eq_one.mpr (turnOnce_unit i))
    ?_ 0 0.003 le_rfl (by norm_num) ?_ ?_ ?_ (fun i => if i = 1 then Real.arccos 0.8 else 0) hN 0 (Real.arccos 0.8) _ _ (Real.arccos_nonneg _) ?_ rfl rfl ?_
  · obtain ⟨k', hk', h⟩ := H
    obtain rfl : k' = 1 := by
      have := abs_nonpos_iff.mp (show |k' - 1| ≤ 0 by simpa using hk')
      omega
    norm_num at h ⊢
    exact h
  · intro i hi
    unfold turnOnce
    split_ifs <;> first | rfl | omega
  · have := turnOnce_within 1 le_rfl
    have e : ∀ q : Quat, (⟨0, 0, 0, 1⟩ : Quat) * q = q := fun q => one_mul q
    simpa [e] using this
  · intro i
    unfold shaken
    rw [Quat.norm_mul, Quat.norm_mul, shaken_factor, mount_unit, Quat.norm_eq_one.mpr (turnOnce_unit _), mul_one, mul_one]
  · intro i _
    left
    rw [one_mul]
    simp [Quat.norm, Quat.dot]
  · intro i _
    rw [one_mul]
    exact shaken_near i
  · intro i
    have : 0.8 ≤ |(turnOnce i).dot (turnOnce (i + 1))| := by
      refine le_trans ?_ (le_abs_self _)
      unfold turnOnce
      split_ifs <;> norm_num [Quat.dot]
    constructor <;> linarith
  · exact pulse_energy
  · intro s hs
    have hs' : s ≠ 0 := by rintro rfl; simp at hs
    refine lt_of_lt_of_le ?_ (pulse_shift hs')
    have h12 : √(3 * ((4 : ℕ) : ℝ)) ≤ 3.5 := Real.sqrt_le_iff.mpr (by norm_num)
    have h0 : 0 ≤ √(3 * ((4 : ℕ) : ℝ)) := Real.sqrt_nonneg _
    have hpi := Real.pi_le_four
    have hp0 := Real.pi_pos
    set r := √(3 * ((4 : ℕ) : ℝ))
    set a := Real.arccos 0.8
    have hA : r * (((Real.pi + 2) * 0 + 0.0094) / 1) ≤ 3.5 * 0.0094 := by nlinarith
    have hB : r * (((Real.pi + 2) * 0.003 + 0.0094) / 1) ≤ 3.5 * 0.0274 := by
      have : ((Real.pi + 2) * 0.003 + 0.0094) / 1 ≤ 0.0274 := by linarith
      nlinarith
    have hB0 : 0 ≤ r * (((Real.pi + 2) * 0.003 + 0.0094) / 1) := by positivity
    have hA0 : 0 ≤ r * (((Real.pi + 2) * 0 + 0.0094) / 1) := by positivity
    set u := r * (((Real.pi + 2) * 0 + 0.0094) / 1)
    set v := r * (((Real.pi + 2) * 0.003 + 0.0094) / 1)
    have k1 : v * a ≤ 3.5 * 0.0274 * a := mul_le_mul_of_nonneg_right hB (by linarith)
    have k2 : a * u ≤ a * (3.5 * 0.0094) := mul_le_mul_of_nonneg_left hA (by linarith)
    have k3 : u * v ≤ 3.5 * 0.0094 * (3.5 * 0.0274) := mul_le_mul hA hB hB0 (by norm_num)
    nlinarith

end HandEye
