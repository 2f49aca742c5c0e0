import Verif.Model.DualQuat

/-! # Specification vocabulary: screw axes that are usable, and close pairs -/

namespace HandEye.Spec

/-- The screw axis that `screw_axis()` reports is not (numerically) zero and points along `n`. -/
def HasAxis (a : DQuat) (n : Vec3) : Prop :=
  ∃ v rot tr, a.screwAxis = .ok (v, rot, tr) ∧ 1e-12 < v.norm ∧ n = (1 / v.norm) • v

/-- `screw_axis()` reports a (numerically) zero axis. -/
def NoAxis (a : DQuat) : Prop := ∃ v rot tr, a.screwAxis = .ok (v, rot, tr) ∧ v.norm ≤ 1e-12

/-- Both poses of pair `i` have an axis. -/
def Usable (we bh : List DQuat) (i : ℕ) : Prop :=
  ∃ w b n m, we[i]? = some w ∧ bh[i]? = some b ∧ HasAxis w n ∧ HasAxis b m

/-- One of the poses of pair `i` has no axis. -/
def Degenerate (we bh : List DQuat) (i : ℕ) : Prop :=
  ∃ w b, we[i]? = some w ∧ bh[i]? = some b ∧ (NoAxis w ∨ NoAxis b)

/-- The axes of pairs `i` and `j` enclose a cosine above the threshold, in one of the trajectories. -/
def Close (thr : ℝ) (we bh : List DQuat) (i j : ℕ) : Prop :=
  ∃ w b w' b' n m n' m', we[i]? = some w ∧ bh[i]? = some b ∧ we[j]? = some w' ∧ bh[j]? = some b' ∧
    HasAxis w n ∧ HasAxis b m ∧ HasAxis w' n' ∧ HasAxis b' m' ∧
    (thr < n.x * n'.x + n.y * n'.y + n.z * n'.z ∨ thr < m.x * m'.x + m.y * m'.y + m.z * m'.z)

end HandEye.Spec
