import Verif.Spec.Rounded
import Mathlib.Analysis.SpecialFunctions.Trigonometric.Inverse

/-! # Specification vocabulary: points between two orientations -/

namespace HandEye.Spec

open Quaternion

/-- The point at the fraction `f` of the shortest arc from `p` to `q` on the sphere of unit quaternions: its angles to the two ends are `f` and
`1 - f` times the angle between them. -/
def AtFraction (p q : ℍ[ℝ]) (f : ℝ) (x : ℍ[ℝ]) : Prop :=
  ‖x‖ = 1 ∧ inner ℝ x p = Real.cos (f * Real.arccos (inner ℝ p q)) ∧ inner ℝ x q = Real.cos ((1 - f) * Real.arccos (inner ℝ p q))

/-- `r` is, up to its sign and an error `b`, the orientation at the fraction `f` of the way from `q1` to `q2` (which need not be of length one), along
the shortest way; if the angle between the quaternions is a right one up to `k`, it may be the other way. -/
def NearArc (k b : ℝ) (q1 q2 : Quat) (f : ℝ) (r : Quat) : Prop :=
  ∃ p q x : ℍ[ℝ], (p = (len q1)⁻¹ • q1.toH ∨ p = -((len q1)⁻¹ • q1.toH)) ∧ q = (len q2)⁻¹ • q2.toH ∧ -k ≤ inner ℝ p q ∧ AtFraction p q f x ∧
    (‖r.toH - x‖ ≤ b ∨ ‖r.toH + x‖ ≤ b)

/-- `v` is, up to the error `b` in every component, half of the rotation vector of the unit quaternion `D`: the angle `φ` with the cosine `D.w` times the
axis. -/
def HalfRotation (b : ℝ) (D : Quat) (v : Vec3) : Prop :=
  ∃ (φ : ℝ) (a : Vec3), 0 ≤ φ ∧ φ ≤ Real.pi ∧ a.x ^ 2 + a.y ^ 2 + a.z ^ 2 = 1 ∧
    D = ⟨Real.sin φ * a.x, Real.sin φ * a.y, Real.sin φ * a.z, Real.cos φ⟩ ∧ |v.x - φ * a.x| ≤ b ∧ |v.y - φ * a.y| ≤ b ∧ |v.z - φ * a.z| ≤ b

/-- The functions `np.arccos`, `np.cos` and `np.sin` have errors of at most `e`. -/
structure Functions (e : ℝ) (acos cos sin : ℝ → ℝ) : Prop where
  small : e ≤ 1 / 100
  acos_near : ∀ x : ℝ, -1 ≤ x → x ≤ 1 → |acos x - Real.arccos x| ≤ e
  cos_near : ∀ x : ℝ, |cos x - Real.cos x| ≤ e
  sin_near : ∀ x : ℝ, |sin x - Real.sin x| ≤ e

/-- Rounding keeps the order of numbers, and one is one. -/
structure Ordered (A : Arith) : Prop where
  mono : ∀ x y : ℝ, x ≤ y → A.fl x ≤ A.fl y
  one : A.fl 1 = 1

/-- An addition of numbers in any order, with at most one rounding for every element. -/
def Sums (u : ℝ) (sum : List ℝ → ℝ) : Prop :=
  ∀ l : List ℝ, |sum l - l.sum| ≤ ((1 + u) ^ l.length - 1) * (l.map abs).sum

end HandEye.Spec
