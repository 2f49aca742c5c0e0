import Verif.Spec.Recording

/-! # Specification vocabulary: several sensors on one body -/

namespace HandEye.Spec

/-- A sensor on a body: it is mounted with `mounting`, its poses are relative to another frame (`frame`), its clock shows
`clock` at its first pose, `delay` periods before the time 0.  It records at the multiple `rate` of the common rate. -/
structure Sensor where
  frame : DQuat
  mounting : DQuat
  delay : ℤ
  clock : ℝ
  rate : ℕ
  poses : ℕ → Pose

/-- The table that the sensor records in `n` periods of length `dt`. -/
noncomputable def Sensor.table (s : Sensor) (dt : ℝ) (n : ℕ) : List StampedPose :=
  recording s.clock (dt / s.rate) (s.rate * n) s.poses

/-- A moving body.  It does not move before the period `lo` and does not turn from the period `hi` on; a period in which it
turns, it turns by more than half a degree and less than half a turn, and at no time is it turned by half a turn from where
it started. -/
structure Moves (M : ℤ → Pose) (lo hi : ℤ) : Prop where
  unit : ∀ i, (M i).q.norm = 1
  still : ∀ i < lo, M i = M lo
  rest : ∀ i, hi ≤ i → (M (i + 1)).q = (M i).q
  steps : ∀ i, (M (i + 1)).q = (M i).q ∨ 0 < |(M i).q.dot (M (i + 1)).q| ∧ |(M i).q.dot (M (i + 1)).q| < 1 - 1.1e-5
  half : ∀ i, ¬ HalfTurn (M lo) (M i)

/-- The sensor records the body exactly, for `n` periods, with `k` periods of rest at both ends.  No component of the
rotation vectors exceeds the percentiles 99 and 99.5 of all components. -/
structure Carries (M : ℤ → Pose) (n k : ℕ) (lo hi : ℤ) (s : Sensor) : Prop where
  frame : IsUnit s.frame
  mounting : IsUnit s.mounting
  margins : k ≤ lo + s.delay ∧ hi + s.delay + k ≤ n
  within : ∀ p : ℝ, p = 99 ∨ p = 99.5 → WithinPercentile (rotationComponents (fun i => s.frame.rot * (M (i - s.delay)).q) n) p
  rate : 1 ≤ s.rate
  unit : ∀ i, (s.poses i).q.norm = 1
  exact : ∀ i : ℕ, i ≤ n → ∀ x,
    poseMotion (s.poses (s.rate * i)) x = motion s.frame (poseMotion (M (i - s.delay)) (motion s.mounting x))

end HandEye.Spec
