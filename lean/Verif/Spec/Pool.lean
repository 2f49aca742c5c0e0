import Verif.Model.Pool

/-! # Specification vocabulary: random numbers of different experiments -/

namespace HandEye.Spec

/-- The numbers of `numpy` behind the draws of a call. -/
noncomputable def numpyNumbers (d : SpoilDraws) : List ℝ :=
  [d.time, (d.direction.x + 1) / 2, (d.direction.y + 1) / 2, (d.direction.z + 1) / 2, d.length, (d.axis.x + 1) / 2, (d.axis.y + 1) / 2,
    (d.axis.z + 1) / 2]

/-- The calls have no number of `numpy` in common. -/
def Fresh (d d' : SpoilDraws) : Prop := ∀ u ∈ numpyNumbers d, u ∉ numpyNumbers d'

/-- The same numbers of `numpy`: only the sign of the time offset and the angle may be different. -/
def SameNumpy (d d' : SpoilDraws) : Prop := d.time = d'.time ∧ d.direction = d'.direction ∧ d.length = d'.length ∧ d.axis = d'.axis

end HandEye.Spec
