import Verif.Spec.Resample
import Verif.Spec.Motion
import Verif.Spec.Rotation
import Verif.Model.TimeAlign

/-! # Specification vocabulary: a recorded trajectory between its rows -/

namespace HandEye.Spec

/-- The position at time `s`: a recorded one if `s` is a recorded time, otherwise on the segment between its
neighbours at the proportional position. -/
def LinearAt (times : List ℝ) (ps : List Vec3) (s : ℝ) (p : Vec3) : Prop :=
  (∃ k : ℕ, times[k]? = some s ∧ ps[k]? = some p) ∨
  ∃ (k : ℕ) (tl tr : ℝ) (pl pr : Vec3), times[k]? = some tl ∧ times[k + 1]? = some tr ∧
    ps[k]? = some pl ∧ ps[k + 1]? = some pr ∧ tl < s ∧ s < tr ∧
    p.x = pl.x + (s - tl) / (tr - tl) * (pr.x - pl.x) ∧ p.y = pl.y + (s - tl) / (tr - tl) * (pr.y - pl.y) ∧
    p.z = pl.z + (s - tl) / (tr - tl) * (pr.z - pl.z)

open Quaternion in
/-- The rigid motion of a pose with a unit quaternion: `x ↦ q x q* + t`. -/
noncomputable def poseMotion (p : Pose) (x : Vec3) : Vec3 :=
  ⟨(imPart (p.q.toH * x.toH * star p.q.toH)).x + p.pos.x, (imPart (p.q.toH * x.toH * star p.q.toH)).y + p.pos.y,
    (imPart (p.q.toH * x.toH * star p.q.toH)).z + p.pos.z⟩

/-- The rows of the second table are the poses of a sensor mounted with X on the body with the poses of the first,
measured in another world frame (`g`) and with a clock that is `c` ahead. -/
def SameBody (g X : DQuat) (c : ℝ) (A B : List StampedPose) : Prop :=
  List.Forall₂ (fun p q => q.t = p.t + c ∧ ∀ x, poseMotion q.pose x = motion g (poseMotion p.pose (motion X x))) A B

open Quaternion in
/-- The rotation from one pose to the other is a half turn. -/
def HalfTurn (p q : Pose) : Prop := (star p.q.toH * q.q.toH).re = 0

open Quaternion in
/-- Seen from one of the poses, two of the others are rotated about non-parallel axes. -/
def TwoTurnAxes (A : List Pose) : Prop :=
  ∃ a ∈ A, ∃ b ∈ A, ∃ c ∈ A,
    Spec.cross (imPart (star a.q.toH * b.q.toH)) (imPart (star a.q.toH * c.q.toH)) ≠ ⟨0, 0, 0⟩

open Quaternion in
/-- The rotation from `p` to `q`, as the vector along its axis with the length of the sine of half its angle. -/
noncomputable def turn (p q : Pose) : Vec3 := imPart (star p.q.toH * q.q.toH)

/-- The first pose that differs from the initial one is rotated from it, and one of the later ones about an axis that
differs by more than about 18 degrees (cosine 0.95). -/
def StartsTurning (A : List Pose) : Prop :=
  ∃ (p₀ p₁ : Pose) (still rest : List Pose) (p₂ : Pose) (s₁ s₂ : ℝ), A = p₀ :: (still ++ p₁ :: rest) ∧
    (∀ p ∈ still, ∀ x, poseMotion p x = poseMotion p₀ x) ∧ p₂ ∈ rest ∧ 1e-12 < s₁ ∧ 1e-12 < s₂ ∧
    (turn p₀ p₁).x ^ 2 + (turn p₀ p₁).y ^ 2 + (turn p₀ p₁).z ^ 2 = s₁ ^ 2 ∧
    (turn p₀ p₂).x ^ 2 + (turn p₀ p₂).y ^ 2 + (turn p₀ p₂).z ^ 2 = s₂ ^ 2 ∧
    |(turn p₀ p₁).x * (turn p₀ p₂).x + (turn p₀ p₁).y * (turn p₀ p₂).y + (turn p₀ p₁).z * (turn p₀ p₂).z|
      ≤ 0.95 * (s₁ * s₂)

/-- The rows of the second table are the poses of a sensor mounted with X on the body with the poses of the first,
measured in another world frame (`g`). -/
def SameBodyPoses (g X : DQuat) (A B : List Pose) : Prop :=
  List.Forall₂ (fun p q => ∀ x, poseMotion q x = motion g (poseMotion p (motion X x))) A B

/-- The rows of one table are the inverse motions of the rows of the other. -/
def Inverses (A A' : List Pose) : Prop :=
  List.Forall₂ (fun p q => ∀ x, poseMotion q (poseMotion p x) = x) A A'

end HandEye.Spec
