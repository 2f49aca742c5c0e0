import Verif.Spec.Track
import Verif.Spec.Clock

/-! # Specification vocabulary: recordings with a fixed period -/

namespace HandEye.Spec

/-- The table of a recording of `N` steps with period `d`, from time `t` on. -/
noncomputable def recording (t d : ℝ) (N : ℕ) (P : ℕ → Pose) : List StampedPose :=
  (List.range (N + 1)).map fun (i : ℕ) => ⟨t + i * d, P i⟩

/-- Two exact recordings of one moving body, with the poses `M i` at times that are a period `dt` apart.  The second
sensor is mounted with `X`, its poses are relative to another frame (`g`), its clock shows `tb` at its first pose, which
is `m` periods before the first pose of the other, whose clock then shows `ta`.  The sensors may record at multiples
`rA`, `rB` of the common rate.

The body does not turn for `k` periods at both ends of both recordings; a period in which it turns, it turns by more
than half a degree and less than half a turn.  No component of the rotation vectors exceeds the percentiles `cA`, `cB` of
all components. -/
structure Recorded (g X : DQuat) (M : ℤ → Pose) (n k : ℕ) (lo hi m : ℤ) (cA cB dt : ℝ) (rA rB : ℕ) (PA PB : ℕ → Pose) :
    Prop where
  frame : IsUnit g
  mounting : IsUnit X
  unit : ∀ i, (M i).q.norm = 1
  rest : ∀ i, i < lo ∨ hi ≤ i → (M (i + 1)).q = (M i).q
  margins : (k ≤ lo ∧ hi + k ≤ n) ∧ k ≤ lo + m ∧ hi + m + k ≤ n
  steps : ∀ i, (M (i + 1)).q = (M i).q ∨ 0 < |(M i).q.dot (M (i + 1)).q| ∧ |(M i).q.dot (M (i + 1)).q| < 1 - 1.1e-5
  within_A : WithinPercentile (rotationComponents (fun i => (M i).q) n) cA
  within_B : WithinPercentile (rotationComponents (fun i => g.rot * (M (i - m)).q) n) cB
  period : 0 < dt
  rates : 1 ≤ rA ∧ 1 ≤ rB ∧ (rA = 1 ∨ rB = 1)
  unit_A : ∀ i, (PA i).q.norm = 1
  unit_B : ∀ i, (PB i).q.norm = 1
  poses_A : ∀ i : ℕ, i ≤ n → ∀ x, poseMotion (PA (rA * i)) x = poseMotion (M i) x
  poses_B : ∀ i : ℕ, i ≤ n → ∀ x, poseMotion (PB (rB * i)) x = motion g (poseMotion (M (i - m)) (motion X x))

end HandEye.Spec
