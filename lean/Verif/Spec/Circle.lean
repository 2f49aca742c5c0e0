import Verif.Spec.Motion

/-! # Specification vocabulary: pairs of sensors and closed loops -/

namespace HandEye.Spec

/-- `itertools.combinations(l, 2)`: every pair of elements, the first before the second, in lexicographic
order. -/
def pairs {α : Type} : List α → List (α × α)
  | [] => []
  | a :: l => l.map (fun b => (a, b)) ++ pairs l

/-- The pairs of neighbours. -/
def neighbours {α : Type} (l : List α) : List (α × α) := l.zip l.tail

end HandEye.Spec
