import Verif.Model.Figures
import Verif.Model.TestTools

/-!
# Model of `test_time_alignment.py`

`TTA.py` abbreviates `/repo/hand_eye_calibration/test/test_time_alignment.py`.  Left out: printing and the plots of the data before and after the drops.  The random numbers are a parameter.
-/

namespace HandEye

/-- `scipy.signal.gaussian(M, std)`. -/
noncomputable def scipyGaussian (M : ℕ) (std : ℝ) : List ℝ :=
  (List.range M).map fun (n : ℕ) => Real.exp (-((n : ℝ) - ((M : ℝ) - 1) / 2) ^ 2 / (2 * std * std))

/-- The sum of two arrays, which must have the same shape. -/
noncomputable def arrayAdd (a b : List ℝ) : Py (List ℝ) := do
  pyRequire (a.length = b.length) .value
  return List.zipWith (· + ·) a b

/-- TTA.py:54-58 and 60-64: the norm of the angular velocity between two consecutive quaternions. -/
noncomputable def velocityNormAt (qs : List Quat) (ts : List ℝ) (i : ℕ) : Py ℝ := do
  let q0 ← pyAt qs i
  let q1 ← pyAt qs (i + 1)
  let t1 ← pyAt ts (i + 1)
  let t0 ← pyAt ts i
  let v ← angularVelocityBetweenQuaternions q0 q1 (t1 - t0)
  return v.norm

/-- The attributes of the class `TimeAlignment` that the test uses. -/
structure TimeAlignmentTest where
  t1s : List ℝ
  angular_velocity1_norms : List ℝ
  t2s : List ℝ
  angular_velocity2_norms : List ℝ

/-- TTA.py:32-65: the body of the class, where `rand` stands for `np.random.rand(100)`.  (Line 65 adds an array to a list with `+=`, which for a list and an array
is the sum of arrays.) -/
noncomputable def timeAlignmentTest (rand : List ℝ) : Py TimeAlignmentTest := do
  let n_samples : ℝ := 100
  let ts ← npLinspace 0 ((n_samples + 1) / n_samples) n_samples
  let t2s ← arrayAdd (ts.map (· + 1.5)) (scipyGaussian ts.length 0.1)
  let times := npSort rand
  let last ← pyGet times (-1)
  let first ← pyGet times 0
  let t2_first ← pyGet t2s 0
  let times2 := times.map fun r => r * (last - first) + t2_first
  let t1_first ← pyGet ts 0
  let t1_last ← pyGet ts (-1)
  let q1s ← quaternionsInterpolate ⟨0, 0, 0, 1⟩ t1_first ⟨Real.sqrt 2 / 2, 0, 0, Real.sqrt 2 / 2⟩ t1_last times
  let t2_last ← pyGet t2s (-1)
  let q2s ← quaternionsInterpolate ⟨Real.sqrt 2 / 2, 0, 0, Real.sqrt 2 / 2⟩ t2_first ⟨1, 0, 0, 0⟩ t2_last times2
  let norms1 ← (List.range (q1s.length - 1)).mapM (velocityNormAt q1s ts)
  let norms2 ← (List.range (q2s.length - 1)).mapM (velocityNormAt q2s t2s)
  let norms1 ← arrayAdd norms1 (scipyGaussian norms1.length 1)
  return ⟨ts, norms1, t2s, norms2⟩

/-- TTA.py:69-74 `test_time_alignment`: the offset that it prints, and its figure. -/
noncomputable def testTimeAlignment (c : TimeAlignmentTest) : Py (ℝ × ResultFigure) :=
  offsetWithFigure c.t1s.dropLast c.angular_velocity1_norms c.t2s.dropLast c.angular_velocity2_norms

/-- TTA.py:81-97 `test_introduce_data_drops`: the data after the call. -/
noncomputable def testIntroduceDataDrops (draws : ℕ → ℕ × ℕ) (rounds : ℕ) : Py (Option (List (Option ℝ))) := do
  let xs ← npLinspace 0 (2 * Real.pi) 1000
  introduceDataDrops (xs.map fun x => some (Real.sin x)) 5 20 true draws rounds

end HandEye
