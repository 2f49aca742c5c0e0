import Verif.Spec.UnitTests
import Verif.Lemmas.DualQuat
import Verif.Lemmas.Slerp

/-!
# C82: the assertions of the unit tests hold in the model

One theorem for each test of `test/test_quaternion.py` (TQ below), with the numbers of the test and the tolerances of
`numpy.testing`.  The expected numbers come from runs of the real code, so these theorems compare the model with the code.
-/

namespace HandEye

open Spec

theorem close_of_eq {rtol atol a d : ℝ} (h : a = d) (hr : 0 ≤ rtol) (ha : 0 ≤ atol) : AssertClose rtol atol a d := by
  unfold AssertClose
  rw [h, sub_self, abs_zero]
  positivity

theorem quatClose_of_eq {rtol atol : ℝ} {a d : Quat} (h : a = d) (hr : 0 ≤ rtol) (ha : 0 ≤ atol) :
    QuatClose rtol atol a d := by
  subst h
  exact ⟨close_of_eq rfl hr ha, close_of_eq rfl hr ha, close_of_eq rfl hr ha, close_of_eq rfl hr ha⟩

/-- A quotient by a bracketed number. -/
theorem close_div {rtol atol a s lo hi d : ℝ} (hlo : 0 < lo) (h1 : lo ≤ s) (h2 : s ≤ hi) (ha : 0 ≤ a)
    (hu : a / lo - d ≤ atol + rtol * |d|) (hl : d - a / hi ≤ atol + rtol * |d|) : AssertClose rtol atol (a / s) d := by
  unfold AssertClose
  have e1 : a / s ≤ a / lo := div_le_div_of_nonneg_left ha hlo h1
  have e2 : a / hi ≤ a / s := div_le_div_of_nonneg_left ha (by linarith) h2
  rw [abs_le]
  constructor <;> linarith

theorem sqrt30_bounds : 5.4772255750 ≤ Real.sqrt 30 ∧ Real.sqrt 30 ≤ 5.4772255751 := by
  constructor
  · exact Real.le_sqrt_of_sq_le (by norm_num)
  · exact Real.sqrt_le_iff.mpr ⟨by norm_num, by norm_num⟩

theorem norm_1234 : (⟨1, 2, 3, 4⟩ : Quat).norm = Real.sqrt 30 := by
  unfold Quat.norm Quat.dot; norm_num

theorem norm_2345 : (⟨2, 3, 4, 5⟩ : Quat).norm = Real.sqrt 54 := by
  unfold Quat.norm Quat.dot; norm_num

/-- TQ:14-18 `test_addition`. -/
theorem C82_addition : QuatClose 1e-7 0 ((⟨1, 2, 3, 4⟩ : Quat) + ⟨2, 3, 4, 5⟩) ⟨3, 5, 7, 9⟩ := by
  refine quatClose_of_eq ?_ (by norm_num) (by norm_num)
  ext <;> simp only [Quat.add_x, Quat.add_y, Quat.add_z, Quat.add_w] <;> norm_num

/-- TQ:20-24 `test_multiplication`. -/
theorem C82_multiplication : QuatClose 1e-7 0
    ((⟨0.45349524, -0.5514413, -0.16603085, -0.68021197⟩ : Quat) * ⟨0.4810662, -0.42344938, 0.74744865, 0.17488983⟩)
    ⟨-0.730395, -0.22724237, -0.46421313, -0.44653133⟩ := by
  constructor <;> simp only [AssertClose, Quat.mul_x, Quat.mul_y, Quat.mul_z, Quat.mul_w] <;> rw [abs_le] <;>
    norm_num [abs_of_neg, abs_of_pos]

/-- TQ:26-29 `test_multiplication_with_scalar`. -/
theorem C82_multiplication_with_scalar : QuatClose 1e-7 0 ((2.5 : ℝ) • (⟨1, 2, 3, 4⟩ : Quat)) ⟨2.5, 5, 7.5, 10⟩ := by
  refine quatClose_of_eq ?_ (by norm_num) (by norm_num)
  ext <;> simp only [Quat.smul_x, Quat.smul_y, Quat.smul_z, Quat.smul_w] <;> norm_num

/-- TQ:31-35 `test_division`. -/
theorem C82_division : ∃ r, Quat.divQuat ⟨0.45349524, -0.5514413, -0.16603085, -0.68021197⟩
    ⟨0.4810662, -0.42344938, 0.74744865, 0.17488983⟩ = .ok r ∧
      QuatClose 1e-7 0 r ⟨0.88901841, 0.03435942, 0.40613892, 0.20860702⟩ := by
  have h : (⟨0.4810662, -0.42344938, 0.74744865, 0.17488983⟩ : Quat).dot
      ⟨0.4810662, -0.42344938, 0.74744865, 0.17488983⟩ ≠ 0 := by unfold Quat.dot; norm_num
  refine ⟨_, by unfold Quat.divQuat; rw [Quat.inverse_ok h]; rfl, ?_⟩
  unfold Quat.inv'
  constructor <;> simp only [AssertClose, Quat.mul_x, Quat.mul_y, Quat.mul_z, Quat.mul_w, Quat.dot] <;> rw [abs_le] <;>
    norm_num [abs_of_neg, abs_of_pos]

/-- TQ:37-40 `test_division_with_scalar`. -/
theorem C82_division_with_scalar : ∃ r, (⟨1, 2, 3, 4⟩ : Quat).divScalar 2 = .ok r ∧
    QuatClose 1e-7 0 r ⟨0.5, 1, 1.5, 2⟩ := by
  refine ⟨_, by unfold Quat.divScalar; rw [if_neg (by norm_num)], quatClose_of_eq ?_ (by norm_num) (by norm_num)⟩
  ext <;> norm_num

/-- TQ:42-45 `test_conjugate`. -/
theorem C82_conjugate : QuatClose 1e-7 0 (⟨1, 2, 3, 4⟩ : Quat).conj ⟨-1, -2, -3, 4⟩ :=
  quatClose_of_eq rfl (by norm_num) (by norm_num)

/-- TQ:47-50 `test_norm`. -/
theorem C82_norm : AlmostEqual (⟨1, 2, 3, 4⟩ : Quat).norm 5.477225575 := by
  unfold AlmostEqual
  rw [norm_1234, abs_lt]
  constructor <;> linarith [sqrt30_bounds.1, sqrt30_bounds.2]

/-- TQ:52-55 `test_inverse`. -/
theorem C82_inverse : ∃ i, (⟨1, 2, 3, 4⟩ : Quat).inverse = .ok i ∧ QuatClose 1e-7 0 (⟨1, 2, 3, 4⟩ * i) ⟨0, 0, 0, 1⟩ := by
  have h : (⟨1, 2, 3, 4⟩ : Quat).dot ⟨1, 2, 3, 4⟩ ≠ 0 := by unfold Quat.dot; norm_num
  refine ⟨_, Quat.inverse_ok h, quatClose_of_eq ?_ (by norm_num) (by norm_num)⟩
  unfold Quat.inv'
  ext <;> simp only [Quat.mul_x, Quat.mul_y, Quat.mul_z, Quat.mul_w, Quat.dot] <;> norm_num

theorem normalize_1234 : (⟨1, 2, 3, 4⟩ : Quat).normalize =
    ⟨1 / Real.sqrt 30, 2 / Real.sqrt 30, 3 / Real.sqrt 30, 4 / Real.sqrt 30⟩ := by
  unfold Quat.normalize
  rw [norm_1234, if_pos (by linarith [sqrt30_bounds.1])]

theorem sqrt54_bounds : 7.3484692283 ≤ Real.sqrt 54 ∧ Real.sqrt 54 ≤ 7.3484692284 := by
  constructor
  · exact Real.le_sqrt_of_sq_le (by norm_num)
  · exact Real.sqrt_le_iff.mpr ⟨by norm_num, by norm_num⟩

theorem normalize_2345 : (⟨2, 3, 4, 5⟩ : Quat).normalize =
    ⟨2 / Real.sqrt 54, 3 / Real.sqrt 54, 4 / Real.sqrt 54, 5 / Real.sqrt 54⟩ := by
  unfold Quat.normalize
  rw [norm_2345, if_pos (by linarith [sqrt54_bounds.1])]

/-- TQ:57-61 `test_normalize`. -/
theorem C82_normalize : QuatClose 1e-7 0 (⟨1, 2, 3, 4⟩ : Quat).normalize
    ⟨0.18257419, 0.36514837, 0.54772256, 0.73029674⟩ := by
  rw [normalize_1234]
  obtain ⟨h1, h2⟩ := sqrt30_bounds
  constructor <;> refine close_div (lo := 5.4772255750) (hi := 5.4772255751) (by norm_num) h1 h2 (by norm_num) ?_ ?_ <;>
    norm_num [abs_of_pos]

/-- Halfway between two unit quaternions less than a right angle apart is their sum, scaled. -/
theorem slerp_half {q1 q2 : Quat} (h1 : q1.dot q1 = 1) (h2 : q2.dot q2 = 1) (h0 : 0 ≤ q1.dot q2) (hd : q1.dot q2 ≤ 0.999) :
    quaternionSlerp q1 q2 0.5 = .ok ((1 / Real.sqrt (2 + 2 * q1.dot q2)) • (q1 + q2)) := by
  have hs : slerpStart q1 q2 = q1 := by unfold slerpStart; rw [if_neg (not_lt.mpr h0)]
  rw [slerp_interior h1 h2 (by norm_num) (by norm_num), hs, abs_of_nonneg h0]
  generalize hdd : q1.dot q2 = d at *
  have hn2 : (q2 - d • q1).dot (q2 - d • q1) = 1 - d ^ 2 := by
    rw [Quat.sub_dot, Quat.dot_sub, Quat.dot_sub]
    have e1 : (d • q1).dot q2 = d * d := by rw [← hdd]; simp only [Quat.dot, Quat.smul_x, Quat.smul_y, Quat.smul_z, Quat.smul_w]; ring
    have e2 : q2.dot (d • q1) = d * d := by rw [← hdd]; simp only [Quat.dot, Quat.smul_x, Quat.smul_y, Quat.smul_z, Quat.smul_w]; ring
    have e3 : (d • q1).dot (d • q1) = d * d * q1.dot q1 := by
      simp only [Quat.dot, Quat.smul_x, Quat.smul_y, Quat.smul_z, Quat.smul_w]; ring
    rw [e1, e2, e3, h1, h2]; ring
  have hn : (q2 - d • q1).norm = Real.sqrt (1 - d ^ 2) := by unfold Quat.norm; rw [hn2]
  have hpos : 1e-8 < Real.sqrt (1 - d ^ 2) := by
    apply Real.lt_sqrt_of_sq_lt
    nlinarith
  rw [Quat.normalize_of_gt (by rw [hn]; exact hpos), hn]
  have hc : Real.cos (Real.arccos d * 0.5) = Real.sqrt ((1 + d) / 2) := by
    have e : Real.arccos d * 0.5 = Real.arccos d / 2 := by ring
    rw [e, Real.cos_half (by linarith [Real.arccos_nonneg d, Real.pi_pos]) (Real.arccos_le_pi d),
      Real.cos_arccos (by linarith) (by linarith)]
  have hsn : Real.sin (Real.arccos d * 0.5) = Real.sqrt ((1 - d) / 2) := by
    have e : Real.arccos d * 0.5 = Real.arccos d / 2 := by ring
    rw [e, Real.sin_half_eq_sqrt (Real.arccos_nonneg d) (by linarith [Real.arccos_le_pi d, Real.pi_pos]),
      Real.cos_arccos (by linarith) (by linarith)]
  rw [hc, hsn]
  have hp1 : 0 < (1 + d) / 2 := by linarith
  have hp2 : 0 < (1 - d) / 2 := by linarith
  have hA : Real.sqrt (2 + 2 * d) = 2 * Real.sqrt ((1 + d) / 2) := by
    rw [show 2 + 2 * d = 2 ^ 2 * ((1 + d) / 2) by ring, Real.sqrt_mul (by norm_num), Real.sqrt_sq (by norm_num)]
  have hB : Real.sqrt (1 - d ^ 2) = 2 * (Real.sqrt ((1 + d) / 2) * Real.sqrt ((1 - d) / 2)) := by
    rw [← Real.sqrt_mul hp1.le, show 1 - d ^ 2 = 2 ^ 2 * ((1 + d) / 2 * ((1 - d) / 2)) by ring,
      Real.sqrt_mul (by norm_num), Real.sqrt_sq (by norm_num)]
  have hcp := Real.sqrt_pos.mpr hp1
  have hsp := Real.sqrt_pos.mpr hp2
  have hcs := Real.sq_sqrt hp1.le
  rw [hA, hB]
  generalize Real.sqrt ((1 + d) / 2) = c at *
  generalize Real.sqrt ((1 - d) / 2) = s at *
  have hd2 : d = 2 * c ^ 2 - 1 := by linarith
  congr 1
  subst hd2
  ext <;> simp only [Quat.add_x, Quat.add_y, Quat.add_z, Quat.add_w, Quat.smul_x, Quat.smul_y, Quat.smul_z, Quat.smul_w,
    Quat.sub_x, Quat.sub_y, Quat.sub_z, Quat.sub_w] <;> field_simp <;> ring

/-- A product of bracketed numbers. -/
theorem close_mul {rtol atol k m k1 k2 m1 m2 d : ℝ} (hk : 0 ≤ k1) (hm : 0 ≤ m1) (h1 : k1 ≤ k) (h2 : k ≤ k2)
    (h3 : m1 ≤ m) (h4 : m ≤ m2) (hu : k2 * m2 - d ≤ atol + rtol * |d|) (hl : d - k1 * m1 ≤ atol + rtol * |d|) :
    AssertClose rtol atol (k * m) d := by
  unfold AssertClose
  have e1 : k * m ≤ k2 * m2 := mul_le_mul h2 h4 (by linarith) (by linarith)
  have e2 : k1 * m1 ≤ k * m := mul_le_mul h1 h3 hm (by linarith)
  rw [abs_le]
  constructor <;> linarith

theorem inv_sqrt30_bounds : 0.18257418583 ≤ 1 / Real.sqrt 30 ∧ 1 / Real.sqrt 30 ≤ 0.18257418584 := by
  obtain ⟨h1, h2⟩ := sqrt30_bounds
  have h : 0 < Real.sqrt 30 := by linarith
  constructor
  · rw [le_div_iff₀ h]; linarith
  · rw [div_le_iff₀ h]; linarith

theorem inv_sqrt54_bounds : 0.13608276348 ≤ 1 / Real.sqrt 54 ∧ 1 / Real.sqrt 54 ≤ 0.13608276349 := by
  obtain ⟨h1, h2⟩ := sqrt54_bounds
  have h : 0 < Real.sqrt 54 := by linarith
  constructor
  · rw [le_div_iff₀ h]; linarith
  · rw [div_le_iff₀ h]; linarith

/-- The two quaternions of the interpolation tests. -/
theorem interpolation_inputs : ∃ u v : ℝ, (0.18257418583 ≤ u ∧ u ≤ 0.18257418584) ∧ (0.13608276348 ≤ v ∧ v ≤ 0.13608276349) ∧
    (⟨1, 2, 3, 4⟩ : Quat).normalize = ⟨u, 2 * u, 3 * u, 4 * u⟩ ∧
    (⟨2, 3, 4, 5⟩ : Quat).normalize = ⟨2 * v, 3 * v, 4 * v, 5 * v⟩ ∧
    (⟨1, 2, 3, 4⟩ : Quat).normalize.dot (⟨1, 2, 3, 4⟩ : Quat).normalize = 1 ∧
    (⟨2, 3, 4, 5⟩ : Quat).normalize.dot (⟨2, 3, 4, 5⟩ : Quat).normalize = 1 := by
  refine ⟨1 / Real.sqrt 30, 1 / Real.sqrt 54, inv_sqrt30_bounds, inv_sqrt54_bounds, ?_, ?_, ?_, ?_⟩
  · rw [normalize_1234]; ext <;> dsimp only <;> ring
  · rw [normalize_2345]; ext <;> dsimp only <;> ring
  · exact Quat.normalize_dot_self (by rw [norm_1234]; linarith [sqrt30_bounds.1])
  · exact Quat.normalize_dot_self (by rw [norm_2345]; linarith [sqrt54_bounds.1])

/-- TQ:63-70 `test_slerp`. -/
theorem C82_slerp : ∃ r, quaternionSlerp (⟨1, 2, 3, 4⟩ : Quat).normalize (⟨2, 3, 4, 5⟩ : Quat).normalize 0.5 = .ok r ∧
    QuatClose 1e-7 0 r ⟨0.22772264489951, 0.38729833462074169, 0.54687402434197, 0.70644971406320634⟩ := by
  obtain ⟨u, v, ⟨hu1, hu2⟩, ⟨hv1, hv2⟩, e1, e2, d1, d2⟩ := interpolation_inputs
  have hd : (⟨1, 2, 3, 4⟩ : Quat).normalize.dot (⟨2, 3, 4, 5⟩ : Quat).normalize = 40 * (u * v) := by
    rw [e1, e2]; unfold Quat.dot; ring
  have hl : 0.18257418583 * 0.13608276348 ≤ u * v := mul_le_mul hu1 hv1 (by norm_num) (by linarith)
  have hh : u * v ≤ 0.18257418584 * 0.13608276349 := mul_le_mul hu2 hv2 (by linarith) (by norm_num)
  refine ⟨_, slerp_half d1 d2 (by rw [hd]; linarith) (by rw [hd]; linarith), ?_⟩
  rw [hd, e1, e2]
  have hS1 : 1.996901594 ≤ Real.sqrt (2 + 2 * (40 * (u * v))) := Real.le_sqrt_of_sq_le (by linarith)
  have hS2 : Real.sqrt (2 + 2 * (40 * (u * v))) ≤ 1.996901596 := Real.sqrt_le_iff.mpr ⟨by norm_num, by linarith⟩
  have hS : 0 < Real.sqrt (2 + 2 * (40 * (u * v))) := by linarith
  have hk1 : 0.5007758028 ≤ 1 / Real.sqrt (2 + 2 * (40 * (u * v))) := by rw [le_div_iff₀ hS]; linarith
  have hk2 : 1 / Real.sqrt (2 + 2 * (40 * (u * v))) ≤ 0.5007758034 := by rw [div_le_iff₀ hS]; linarith
  generalize 1 / Real.sqrt (2 + 2 * (40 * (u * v))) = k at *
  constructor <;> simp only [Quat.smul_x, Quat.smul_y, Quat.smul_z, Quat.smul_w, Quat.add_x, Quat.add_y, Quat.add_z, Quat.add_w]
  · refine close_mul (k1 := 0.5007758028) (k2 := 0.5007758034) (m1 := 0.18257418583 + 2 * 0.13608276348)
      (m2 := 0.18257418584 + 2 * 0.13608276349) (by norm_num) (by norm_num) hk1 hk2 (by linarith) (by linarith) ?_ ?_ <;>
      norm_num [abs_of_pos]
  · refine close_mul (k1 := 0.5007758028) (k2 := 0.5007758034) (m1 := 2 * 0.18257418583 + 3 * 0.13608276348)
      (m2 := 2 * 0.18257418584 + 3 * 0.13608276349) (by norm_num) (by norm_num) hk1 hk2 (by linarith) (by linarith) ?_ ?_ <;>
      norm_num [abs_of_pos]
  · refine close_mul (k1 := 0.5007758028) (k2 := 0.5007758034) (m1 := 3 * 0.18257418583 + 4 * 0.13608276348)
      (m2 := 3 * 0.18257418584 + 4 * 0.13608276349) (by norm_num) (by norm_num) hk1 hk2 (by linarith) (by linarith) ?_ ?_ <;>
      norm_num [abs_of_pos]
  · refine close_mul (k1 := 0.5007758028) (k2 := 0.5007758034) (m1 := 4 * 0.18257418583 + 5 * 0.13608276348)
      (m2 := 4 * 0.18257418584 + 5 * 0.13608276349) (by norm_num) (by norm_num) hk1 hk2 (by linarith) (by linarith) ?_ ?_ <;>
      norm_num [abs_of_pos]

theorem lerp_half {q1 q2 : Quat} (h1 : q1.dot q1 = 1) (h2 : q2.dot q2 = 1) :
    quaternionLerp q1 q2 0.5 = .ok (q1 + (0.5 : ℝ) • (q2 - q1)) := by
  unfold quaternionLerp
  rw [Quat.norm_eq_one.mpr h1, Quat.norm_eq_one.mpr h2, pyAssert_pos (by norm_num), Py.ok_bind,
    pyAssert_pos (npIsclose_self 1 (by norm_num)), Py.ok_bind, Py.ok_bind, if_neg (by norm_num), if_neg (by norm_num)]
  rfl

/-- TQ:72-78 `test_lerp`. -/
theorem C82_lerp : ∃ r, quaternionLerp (⟨1, 2, 3, 4⟩ : Quat).normalize (⟨2, 3, 4, 5⟩ : Quat).normalize 0.5 = .ok r ∧
    QuatClose 1e-7 1e-6 r ⟨0.22736986, 0.38669833, 0.54602681, 0.70535528⟩ := by
  obtain ⟨u, v, ⟨hu1, hu2⟩, ⟨hv1, hv2⟩, e1, e2, d1, d2⟩ := interpolation_inputs
  refine ⟨_, lerp_half d1 d2, ?_⟩
  rw [e1, e2]
  constructor <;> simp only [AssertClose, Quat.smul_x, Quat.smul_y, Quat.smul_z, Quat.smul_w, Quat.add_x, Quat.add_y, Quat.add_z,
    Quat.add_w, Quat.sub_x, Quat.sub_y, Quat.sub_z, Quat.sub_w] <;> rw [abs_le] <;> norm_num [abs_of_pos] <;>
    constructor <;> linarith

/-- TQ:80-87 `test_nlerp`. -/
theorem C82_nlerp : ∃ r, quaternionNlerp (⟨1, 2, 3, 4⟩ : Quat).normalize (⟨2, 3, 4, 5⟩ : Quat).normalize 0.5 = .ok r ∧
    QuatClose 1e-7 1e-6 r ⟨0.22772264, 0.38729833, 0.54687402, 0.70644971⟩ := by
  obtain ⟨u, v, ⟨hu1, hu2⟩, ⟨hv1, hv2⟩, e1, e2, d1, d2⟩ := interpolation_inputs
  have hl : 0.18257418583 * 0.13608276348 ≤ u * v := mul_le_mul hu1 hv1 (by norm_num) (by linarith)
  have hh : u * v ≤ 0.18257418584 * 0.13608276349 := mul_le_mul hu2 hv2 (by linarith) (by norm_num)
  refine ⟨_, by unfold quaternionNlerp; rw [lerp_half d1 d2]; rfl, ?_⟩
  have hq : (⟨1, 2, 3, 4⟩ : Quat).normalize + (0.5 : ℝ) • ((⟨2, 3, 4, 5⟩ : Quat).normalize - (⟨1, 2, 3, 4⟩ : Quat).normalize) =
      ⟨(u + 2 * v) / 2, (2 * u + 3 * v) / 2, (3 * u + 4 * v) / 2, (4 * u + 5 * v) / 2⟩ := by
    rw [e1, e2]
    ext <;> simp only [Quat.smul_x, Quat.smul_y, Quat.smul_z, Quat.smul_w, Quat.add_x, Quat.add_y, Quat.add_z,
      Quat.add_w, Quat.sub_x, Quat.sub_y, Quat.sub_z, Quat.sub_w] <;> ring
  rw [hq]
  have huu : 30 * (u * u) = 1 := by
    have := d1; rw [e1] at this; unfold Quat.dot at this; linarith
  have hvv : 54 * (v * v) = 1 := by
    have := d2; rw [e2] at this; unfold Quat.dot at this; linarith
  have hn : (⟨(u + 2 * v) / 2, (2 * u + 3 * v) / 2, (3 * u + 4 * v) / 2, (4 * u + 5 * v) / 2⟩ : Quat).norm =
      Real.sqrt (1 / 2 + 20 * (u * v)) := by
    unfold Quat.norm Quat.dot
    congr 1
    dsimp only
    linarith
  have hS1 : 0.998450797 ≤ Real.sqrt (1 / 2 + 20 * (u * v)) := Real.le_sqrt_of_sq_le (by linarith)
  have hS2 : Real.sqrt (1 / 2 + 20 * (u * v)) ≤ 0.998450798 := Real.sqrt_le_iff.mpr ⟨by norm_num, by linarith⟩
  unfold Quat.normalize
  rw [hn, if_pos (by linarith)]
  have hS : 0 < Real.sqrt (1 / 2 + 20 * (u * v)) := by linarith
  have hk1 : 1.001551605 ≤ 1 / Real.sqrt (1 / 2 + 20 * (u * v)) := by rw [le_div_iff₀ hS]; linarith
  have hk2 : 1 / Real.sqrt (1 / 2 + 20 * (u * v)) ≤ 1.001551608 := by rw [div_le_iff₀ hS]; linarith
  constructor <;> dsimp only <;> rw [div_eq_mul_one_div, mul_comm]
  · refine close_mul (k1 := 1.001551605) (k2 := 1.001551608) (m1 := (0.18257418583 + 2 * 0.13608276348) / 2)
      (m2 := (0.18257418584 + 2 * 0.13608276349) / 2) (by norm_num) (by norm_num) hk1 hk2 (by linarith) (by linarith) ?_ ?_ <;>
      norm_num [abs_of_pos]
  · refine close_mul (k1 := 1.001551605) (k2 := 1.001551608) (m1 := (2 * 0.18257418583 + 3 * 0.13608276348) / 2)
      (m2 := (2 * 0.18257418584 + 3 * 0.13608276349) / 2) (by norm_num) (by norm_num) hk1 hk2 (by linarith) (by linarith) ?_ ?_ <;>
      norm_num [abs_of_pos]
  · refine close_mul (k1 := 1.001551605) (k2 := 1.001551608) (m1 := (3 * 0.18257418583 + 4 * 0.13608276348) / 2)
      (m2 := (3 * 0.18257418584 + 4 * 0.13608276349) / 2) (by norm_num) (by norm_num) hk1 hk2 (by linarith) (by linarith) ?_ ?_ <;>
      norm_num [abs_of_pos]
  · refine close_mul (k1 := 1.001551605) (k2 := 1.001551608) (m1 := (4 * 0.18257418583 + 5 * 0.13608276348) / 2)
      (m2 := (4 * 0.18257418584 + 5 * 0.13608276349) / 2) (by norm_num) (by norm_num) hk1 hk2 (by linarith) (by linarith) ?_ ?_ <;>
      norm_num [abs_of_pos]

theorem half_sqrt2_sq : (Real.sqrt 2 / 2) * (Real.sqrt 2 / 2) = 1 / 2 := by
  have := Real.mul_self_sqrt (show (0 : ℝ) ≤ 2 by norm_num); linarith

/-- TQ:89-93 `test_quaternion_from_rotation_matrix`. -/
theorem C82_from_rotation_matrix : ∃ q, Quat.fromRotationMatrix !![1, 0, 0; 0, 0, 1; 0, -1, 0] = .ok q ∧
    QuatClose 1e-7 0 q ⟨-Real.sqrt 2 / 2, 0, 0, Real.sqrt 2 / 2⟩ := by
  have h2 : 0 < Real.sqrt 2 := Real.sqrt_pos.mpr (by norm_num)
  have hm := Real.mul_self_sqrt (show (0 : ℝ) ≤ 2 by norm_num)
  have e : (1 : ℝ) + (!![1, 0, 0; 0, 0, 1; 0, -1, 0] : Matrix (Fin 3) (Fin 3) ℝ) 0 0 +
      (!![1, 0, 0; 0, 0, 1; 0, -1, 0] : Matrix (Fin 3) (Fin 3) ℝ) 1 1 +
      (!![1, 0, 0; 0, 0, 1; 0, -1, 0] : Matrix (Fin 3) (Fin 3) ℝ) 2 2 = 2 := by
    change (1 : ℝ) + 1 + 0 + 0 = 2
    norm_num
  have hne : 4 * (Real.sqrt 2 / 2) ≠ 0 := by positivity
  unfold Quat.fromRotationMatrix
  rw [e, npSqrt_ok (by norm_num), Py.ok_bind]
  dsimp only
  rw [npDiv_ok hne, Py.ok_bind, npDiv_ok hne, Py.ok_bind, npDiv_ok hne, Py.ok_bind]
  refine ⟨_, rfl, quatClose_of_eq ?_ (by norm_num) (by norm_num)⟩
  ext <;> simp [Matrix.cons_val_zero, Matrix.cons_val_one, Matrix.cons_val]
  field_simp
  linarith

theorem halves_matrix : (⟨0.5, 0.5, 0.5, 0.5⟩ : Quat).toRotationMatrix = !![0, 0, 1; 1, 0, 0; 0, 1, 0] := by
  unfold Quat.toRotationMatrix
  norm_num

/-- TQ:95-99 `test_quaternion_to_rotation_matrix`. -/
theorem C82_to_rotation_matrix (i j : Fin 3) : AssertClose 1e-7 0 ((⟨0.5, 0.5, 0.5, 0.5⟩ : Quat).toRotationMatrix i j)
    ((!![0, 0, 1; 1, 0, 0; 0, 1, 0] : Matrix (Fin 3) (Fin 3) ℝ) i j) := by
  rw [halves_matrix]
  exact close_of_eq rfl (by norm_num) (by norm_num)

/-- TQ:101-106 `test_quaternion_to_transformation_matrix`. -/
theorem C82_to_transformation_matrix (i j : Fin 4) :
    AssertClose 1e-7 0 ((⟨0.5, 0.5, 0.5, 0.5⟩ : Quat).toTransformationMatrix i j)
      ((!![0, 0, 1, 0; 1, 0, 0, 0; 0, 1, 0, 0; 0, 0, 0, 1] : Matrix (Fin 4) (Fin 4) ℝ) i j) := by
  refine close_of_eq ?_ (by norm_num) (by norm_num)
  unfold Quat.toTransformationMatrix
  rw [halves_matrix]
  rfl

/-- TQ:108-112 `test_rotate_vector`. -/
theorem C82_rotate_vector : (⟨0.5, 0.5, 0.5, 0.5⟩ : Quat).rotateVector ⟨1, 2, 3⟩ = ⟨3, 1, 2⟩ := by
  ext <;> norm_num [Quat.rotateVector]

/-- TQ:122-126 `test_angle_bewtween_quaternions`. -/
theorem C82_angle_between : ∃ a, angleBetweenQuaternions ⟨Real.sqrt 2 / 2, 0, 0, Real.sqrt 2 / 2⟩ ⟨0, 0, 0, 1⟩ = .ok a ∧
    AlmostEqual a (Real.pi / 2) := by
  have h2 : 1 ≤ Real.sqrt 2 := Real.le_sqrt_of_sq_le (by norm_num)
  have h3 : Real.sqrt 2 ≤ 2 := Real.sqrt_le_iff.mpr ⟨by norm_num, by norm_num⟩
  have hne : ¬ (⟨Real.sqrt 2 / 2, 0, 0, Real.sqrt 2 / 2⟩ : Quat).allclose ⟨0, 0, 0, 1⟩ 1e-12 := by
    intro h
    have := (abs_le.mp h.1).2
    norm_num at this
    linarith
  have hi : (⟨0, 0, 0, 1⟩ : Quat).inverse = .ok ⟨0, 0, 0, 1⟩ := by
    rw [Quat.inverse_unit (by norm_num [Quat.dot])]
    simp [Quat.conj]
  have hw : ((⟨Real.sqrt 2 / 2, 0, 0, Real.sqrt 2 / 2⟩ : Quat) * ⟨0, 0, 0, 1⟩).w = Real.sqrt 2 / 2 := by
    rw [Quat.mul_w]; ring
  refine ⟨2 * Real.arccos (Real.sqrt 2 / 2), ?_, ?_⟩
  · unfold angleBetweenQuaternions
    rw [if_neg hne, hi, Py.ok_bind, hw, npArccos_ok (by linarith) (by linarith)]
    rfl
  · rw [← Real.cos_pi_div_four, Real.arccos_cos (by positivity) (by linarith [Real.pi_pos])]
    unfold AlmostEqual
    rw [show Real.pi / 2 - 2 * (Real.pi / 4) = 0 by ring, abs_zero]
    norm_num

end HandEye
