import Verif.Spec.Motion
import Verif.Spec.Rotation
import Verif.Model.TestPaths

/-! # Specification vocabulary: the trajectory of the tests -/

namespace HandEye.Spec

/-- The position of the body at time `t`: two turns on an ellipse, rising. -/
noncomputable def helixPosition (t : ℝ) : Vec3 :=
  ⟨10 + Real.cos (4 * Real.pi * t), -5 - 4 * Real.sin (4 * Real.pi * t), 1 / 2 + 5 * t⟩

/-- The pose of the body at time `t`, as the motion of a point given in the frame of the body: turned about the z axis
against its motion, and tilted about the y axis by a tenth of that angle. -/
noncomputable def helix (t : ℝ) (x : Vec3) : Vec3 :=
  rodrigues (-(4 * Real.pi * t) / 10) ⟨0, 1, 0⟩ (rodrigues (-(4 * Real.pi * t)) ⟨0, 0, 1⟩ x) + helixPosition t

/-- The time of the `i`-th of `n` samples. -/
noncomputable def sampleTime (n i : ℕ) : ℝ := (i : ℝ) / ((n : ℝ) - 1)

/-- The `i`-th sample is replaced by an outlier. -/
def IsOutlier (o : PathOptions) (d : PathDraws) (i : ℕ) : Prop :=
  o.include_outliers = true ∧ d.outlier i < o.outlier_probability

/-- What `np.random.rand` can give: numbers from 0 to 1, and a quaternion that is not practically zero. -/
def UniformDraws (d : PathDraws) : Prop :=
  ∀ i, 0 ≤ (d.size i).x ∧ 0 ≤ (d.size i).y ∧ 0 ≤ (d.size i).z ∧ (d.size i).x < 1 ∧ (d.size i).y < 1 ∧
    (d.size i).z < 1 ∧ 0 ≤ (d.q i).x ∧ 0 ≤ (d.q i).y ∧ 0 ≤ (d.q i).z ∧ 0 ≤ (d.q i).w ∧
    1e-8 ^ 2 < (d.q i).x ^ 2 + (d.q i).y ^ 2 + (d.q i).z ^ 2 + (d.q i).w ^ 2

/-- The `i`-th sample is an outlier in neither of the two paths. -/
def GoodSample (oB oW : PathOptions) (dB dW : PathDraws) (i : ℕ) : Prop := ¬ IsOutlier oB dB i ∧ ¬ IsOutlier oW dW i

end HandEye.Spec
