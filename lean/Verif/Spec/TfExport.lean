import Verif.Model.TimeAlign

/-!
# What a tf export should contain
-/

namespace HandEye.Spec

/-- The time stamps of the transforms with the given child frame in the tf messages, in order, each message being
a topic with its (child frame, stamp) pairs. -/
def stampsOf (frame : String) (messages : List (String × List (String × ℝ))) : List ℝ :=
  ((messages.filter fun m => m.1 = "/tf").flatMap fun m => m.2.filter fun tf => tf.1 = frame).map Prod.snd

/-- The stamped poses of the successful lookups, in order. -/
def foundPoses (lookup : ℝ → Option Pose) (stamps : List ℝ) : List StampedPose :=
  stamps.filterMap fun t => (lookup t).map fun p => ⟨t, p⟩

/-- The lookups that fail although an earlier one succeeded. -/
def lateFailures (lookup : ℝ → Option Pose) (stamps : List ℝ) : List ℝ :=
  (stamps.dropWhile fun t => lookup t = none).filter fun t => lookup t = none

end HandEye.Spec
