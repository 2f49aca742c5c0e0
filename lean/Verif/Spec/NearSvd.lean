import Verif.Spec.LinearSystem
import Verif.Spec.Noise

/-! # Specification vocabulary: singular value decompositions with rounding errors -/

namespace HandEye.Spec

/-- The sum of the squares of all entries. -/
def frobSq (T : List (Fin 8 → ℝ)) : ℝ := (T.map sumSq).sum

/-- The sum of the squares of the differences of the entries of two matrices with equally many rows. -/
def diffSq (T T' : List (Fin 8 → ℝ)) : ℝ := (List.zipWith (fun a b => sumSq (a - b)) T T').sum

/-- What backward stable algorithms such as those of LAPACK guarantee: the singular values are those of a matrix `T'` whose distance from
`T` is at most `κ` times the size of `T` (in the Frobenius norm), and every row of the computed `V` is within `ω` of the row of an exact
decomposition of `T'`. -/
def NearSVD (κ ω : ℝ) (T : List (Fin 8 → ℝ)) (s : List ℝ) (V : Matrix (Fin 8) (Fin 8) ℝ) : Prop :=
  ∃ (T' : List (Fin 8 → ℝ)) (V' : Matrix (Fin 8) (Fin 8) ℝ), T'.length = T.length ∧ diffSq T T' ≤ κ ^ 2 * frobSq T ∧ IsSVD T' s V' ∧
    ∀ i, sumSq (V i - V' i) ≤ ω ^ 2

end HandEye.Spec
