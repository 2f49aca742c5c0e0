import Verif.Spec.Interp

/-! # Specification vocabulary: interpolation between stamped orientations -/

namespace HandEye.Spec

/-- `q` divides the arc between the unit quaternions `a` and `b` (up to sign) in the proportion
`f : 1 - f`.  Here `arccos |a · b|` is half the angle between the two orientations; if it is tiny, the
angle from `b` is not specified and the length of `q` only up to 1e-16. -/
def OnArc (a b : Quat) (f : ℝ) (q : Quat) : Prop :=
  |q.dot a| = Real.cos (f * Real.arccos |a.dot b|) ∧ 1 - 1e-16 ≤ q.dot q ∧ q.dot q ≤ 1 ∧
    (1 - a.dot b ^ 2 > 1e-16 → q.dot q = 1 ∧ |q.dot b| = Real.cos ((1 - f) * Real.arccos |a.dot b|))

/-- `q` is the orientation at time `s`: a recorded one if `s` is a recorded time, otherwise on the arc
between its neighbours at the proportional position. -/
def Interpolated (times : List ℝ) (qs : List Quat) (s : ℝ) (q : Quat) : Prop :=
  (∃ k : ℕ, times[k]? = some s ∧ qs[k]? = some q) ∨
  ∃ (k : ℕ) (tl tr : ℝ) (ql qr : Quat), times[k]? = some tl ∧ times[k + 1]? = some tr ∧
    qs[k]? = some ql ∧ qs[k + 1]? = some qr ∧ tl < s ∧ s < tr ∧ OnArc ql qr ((s - tl) / (tr - tl)) q

end HandEye.Spec
