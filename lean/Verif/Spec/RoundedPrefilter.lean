import Verif.Spec.Rounded
import Verif.Model.RoundedPrefilter

/-! # Specification vocabulary: the true axes of the poses that the prefilter sees -/

namespace HandEye.Spec

/-- The machine sees a rotation. -/
def Rotates (A : Arith) (T : Trig) (a : DQuat) : Prop := ∃ r, A.rotation T a.rot.w = some r ∧ 1e-12 < r

/-- The sine of half a rotation that the machine sees is positive, as it is between 0 and 180 degrees. -/
def SinePositive (A : Arith) (T : Trig) : Prop := ∀ w r, A.rotation T w = some r → 1e-12 < r → 0 < A.sineOfHalf T r

/-- The length of the vector part of a quaternion. -/
noncomputable def vecLength (q : Quat) : ℝ := Real.sqrt (q.x ^ 2 + q.y ^ 2 + q.z ^ 2)

/-- The cosine of the angle between the vector parts of two quaternions. -/
noncomputable def vecCosine (p q : Quat) : ℝ := (p.x * q.x + p.y * q.y + p.z * q.z) / (vecLength p * vecLength q)

open Classical in
/-- The quaternion whose vector part points along the axis: the real part of a motion that rotates, the dual part of one that does not. -/
noncomputable def along (A : Arith) (T : Trig) (a : DQuat) : Quat := if Rotates A T a then a.rot else a.dual

/-- The motion is hardly one: the vector part of a rotation is at most `1.1e-12` times the sine, the translation at most `1.1e-12`. -/
def Still (A : Arith) (T : Trig) (a : DQuat) : Prop :=
  (∃ r, A.rotation T a.rot.w = some r ∧ 1e-12 < r ∧ vecLength a.rot ≤ 1.1e-12 * A.sineOfHalf T r) ∨ (¬ Rotates A T a ∧ 2 * vecLength a.dual ≤ 1.1e-12)

/-- The axes of pairs `i` and `j` enclose a cosine above `c`, in one of the trajectories. -/
def Alike (A : Arith) (T : Trig) (c : ℝ) (we bh : List DQuat) (i j : ℕ) : Prop :=
  ∃ w b w' b', we[i]? = some w ∧ bh[i]? = some b ∧ we[j]? = some w' ∧ bh[j]? = some b' ∧
    (c < vecCosine (along A T w) (along A T w') ∨ c < vecCosine (along A T b) (along A T b'))

end HandEye.Spec
