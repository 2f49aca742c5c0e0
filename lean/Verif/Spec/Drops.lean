import Mathlib.Data.Finset.Card
import Mathlib.Data.List.Indexes

/-! # Specification vocabulary: lists with gaps -/

namespace HandEye.Spec

/-- The elements whose positions are not in `S`, in order. -/
def kept {α : Type} (S : Finset ℕ) (data : List α) : List α :=
  (data.zipIdx.filter fun p => p.2 ∉ S).map Prod.fst

/-- The list with the elements at the positions in `S` replaced by `none`. -/
def blanked {α : Type} (S : Finset ℕ) (data : List (Option α)) : List (Option α) :=
  data.mapIdx fun i x => if i ∈ S then none else x

end HandEye.Spec
