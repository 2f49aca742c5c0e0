import Verif.Spec.Recorded

/-! # Specification vocabulary: tables of measured poses -/

namespace HandEye.Spec

/-- One row of a table and the true pose, which has a unit quaternion: the quaternions differ by at most `α`, the positions by at most `e`, and the true position
is at most `R` away from the origin. -/
structure MeasuredPose (α e R : ℝ) (p p₀ : Pose) : Prop where
  unit : len p₀.q = 1
  orientation : gap p.q p₀.q ≤ α
  position : dist p.pos p₀.pos ≤ e
  size : dist p₀.pos ⟨0, 0, 0⟩ ≤ R

/-- The motion that a row stands for, in a table of poses or in one of inverse poses. -/
noncomputable def rowDual (inverted : Bool) (p : Pose) : DQuat := if inverted then (poseDual p).conj else poseDual p

/-- The error of the real part of the dual quaternion of a row, for a unit roundoff `u`. -/
noncomputable def rowError (u α : ℝ) : ℝ := 8 * u + 1.011 * (2 * α + 9 * u)

/-- The error of its dual part. -/
noncomputable def rowDualError (u α e R : ℝ) : ℝ :=
  let θ := 0.505 * e + R / 2 * (2 * α + 9 * u) + 6.1 * u * (R + e)
  (37.1 * u + 2.05 * (2 * α + 9 * u)) * (R / 2 + θ) + 1.03 * θ

/-- The error of both parts after the alignment at the first row. -/
noncomputable def preparedError (u α e R : ℝ) : ℝ := relativeError u (rowError u α) (rowDualError u α e R) (R / 2)

/-- Two tables whose rows were measured from true poses that fit the calibration `X`, with the motion `g` between the fixed frames; any two of the true
orientations of the hand are farther than `η` from half a turn apart. -/
structure MeasuredTables (α e R η : ℝ) (inverted_1 inverted_2 : Bool) (g X : DQuat) (poses1 poses2 true1 true2 : List Pose) : Prop where
  first : List.Forall₂ (MeasuredPose α e R) poses1 true1
  second : List.Forall₂ (MeasuredPose α e R) poses2 true2
  same : poses2.length = poses1.length
  fits : ∀ p ∈ true1.zip true2, FitsMotion g X (rowDual inverted_1 p.1, rowDual inverted_2 p.2)
  turns : ∀ p ∈ true1, ∀ q ∈ true1, η < cosHalf p.q q.q

/-- The pairs of motions that the rows of two tables stand for. -/
noncomputable def rowPairs (inverted_1 inverted_2 : Bool) (poses1 poses2 : List Pose) : List (DQuat × DQuat) :=
  (poses1.map (rowDual inverted_1)).zip (poses2.map (rowDual inverted_2))

/-- Two tables with outliers: like `VisibleOutliers`, with the tolerance `τ`. -/
structure OutlierTables (α e R η τ : ℝ) (m : ℕ) (inverted_1 inverted_2 : Bool) (g X : DQuat) (poses1 poses2 true1 true2 : List Pose) : Prop where
  first : List.Forall₂ (MeasuredPose α e R) poses1 true1
  second : List.Forall₂ (MeasuredPose α e R) poses2 true2
  same : poses2.length = poses1.length
  hand : ∀ p ∈ true1, ∀ q ∈ true1, η < cosHalf p.q q.q
  eye : ∀ p ∈ true2, ∀ q ∈ true2, η < cosHalf p.q q.q
  visible : ∀ p ∈ rowPairs inverted_1 inverted_2 true1 true2, FitsMotion g X p → ∀ q ∈ rowPairs inverted_1 inverted_2 true1 true2, Corresponds τ p q →
    FitsMotion g X q
  few : ∀ p ∈ rowPairs inverted_1 inverted_2 true1 true2, ¬ FitsMotion g X p → number (Corresponds τ p) (rowPairs inverted_1 inverted_2 true1 true2) < m

end HandEye.Spec
