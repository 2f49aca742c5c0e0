import Verif.Spec.Signal
import Verif.Model.Py
import Mathlib.Algebra.BigOperators.Finprod

/-! # Specification vocabulary: noise of sampled signals -/

namespace HandEye.Spec

/-- The sum of the squares of a signal (zero almost everywhere). -/
noncomputable def energy (f : ℤ → ℝ) : ℝ := ∑ᶠ i, f i ^ 2

/-- The components of two vectors differ by at most `e`. -/
def NearVec (e : ℝ) (u v : Vec3) : Prop := |u.x - v.x| ≤ e ∧ |u.y - v.y| ≤ e ∧ |u.z - v.z| ≤ e

end HandEye.Spec
