import Verif.Model.Quat
import Verif.Spec.Filter
import Mathlib.Analysis.SpecialFunctions.Trigonometric.Inverse

/-! # Specification vocabulary: recordings at regular times -/

namespace HandEye.Spec

/-- The stamps of a recording of `N` steps with period `d`, from time `t` on. -/
def regular (t d : ℝ) (N : ℕ) : List ℝ := (List.range (N + 1)).map fun (i : ℕ) => t + i * d

/-- A vector along the axis of the rotation between two orientations, whatever the signs of the quaternions; zero
for half turns and for turns of less than half a degree. -/
noncomputable def turnAxis (a b : Quat) : Vec3 :=
  if |a.dot b| < 1 - 1.1e-5 then (a.dot b) • (a * b.conj).vec else 0

/-- The components of the turns of the steps 0, ..., n - 1. -/
noncomputable def turns (Q : ℤ → Quat) (n : ℕ) : List ℝ :=
  (List.range n).flatMap fun (i : ℕ) =>
    [(turnAxis (Q i) (Q (i + 1))).x, (turnAxis (Q i) (Q (i + 1))).y, (turnAxis (Q i) (Q (i + 1))).z]

/-- The rotation vector (axis times angle) from orientation `b` to orientation `a`, whatever the signs of the
quaternions. -/
noncomputable def rotationVector (a b : Quat) : Vec3 :=
  (2 * Real.arccos |a.dot b| / (a * b.conj).vec.norm) •
    (if 0 ≤ a.dot b then (a * b.conj).vec else (-1 : ℝ) • (a * b.conj).vec)

/-- The components of the rotation vectors of the steps 0, ..., n - 1. -/
noncomputable def rotationComponents (Q : ℤ → Quat) (n : ℕ) : List ℝ :=
  (List.range n).flatMap fun (i : ℕ) =>
    [(rotationVector (Q i) (Q (i + 1))).x, (rotationVector (Q i) (Q (i + 1))).y, (rotationVector (Q i) (Q (i + 1))).z]

/-- No value exceeds the `p`-th percentile, in either direction. -/
def WithinPercentile (l : List ℝ) (p : ℝ) : Prop := ∃ lim, IsPercentile l p lim ∧ ∀ x ∈ l, |x| ≤ lim

end HandEye.Spec
