import Verif.Model.DualQuat
import Mathlib.Analysis.Quaternion
import Mathlib.Algebra.DualNumber

/-!
# Interpretation of the model's data in Mathlib's algebra

The coordinate maps that say which mathematical object a `Quat`, `DQuat` or `Vec3` stands for.
-/

namespace HandEye

open Quaternion

/-- The quaternion `w + x i + y j + z k` stored in the array `[x, y, z, w]`. -/
def Quat.toH (q : Quat) : ℍ[ℝ] := ⟨q.w, q.x, q.y, q.z⟩

/-- The purely imaginary quaternion of a vector. -/
def Vec3.toH (v : Vec3) : ℍ[ℝ] := ⟨0, v.x, v.y, v.z⟩

/-- The dual number `rot + ε dual` with quaternion coefficients. -/
def DQuat.toDual (a : DQuat) : DualNumber ℍ[ℝ] := (a.rot.toH, a.dual.toH)

/-- A vector as a function on `Fin 3`, for matrix-vector products. -/
def Vec3.toFin (v : Vec3) : Fin 3 → ℝ := ![v.x, v.y, v.z]

end HandEye
