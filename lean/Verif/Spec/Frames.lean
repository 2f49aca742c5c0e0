import Verif.Spec.Track
import Verif.Spec.HandEye

/-! # Specification vocabulary: the same trajectory, written down differently -/

namespace HandEye.Spec

/-- The second list is the trajectory of the first, seen from another world frame (`g`), in Mathlib's dual numbers over the
quaternions; each dual quaternion may have either sign. -/
def SeenFrom (g : DQuat) (v v' : List DQuat) : Prop :=
  List.Forall₂ (fun a a' => a'.toDual = g.toDual * a.toDual ∨ a'.toDual = -(g.toDual * a.toDual)) v v'

open Quaternion in
/-- No two of the poses differ by a half turn. -/
def NoHalfTurns (v : List DQuat) : Prop := ∀ a ∈ v, ∀ b ∈ v, (star a.rot.toH * b.rot.toH).re ≠ 0

/-- The rows of the second table are the poses of the first, seen from another world frame. -/
def PosesSeenFrom (g : DQuat) (A A' : List Pose) : Prop :=
  List.Forall₂ (fun p p' => ∀ x, poseMotion p' x = motion g (poseMotion p x)) A A'

end HandEye.Spec
