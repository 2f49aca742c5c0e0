import Verif.Spec.Pose
import Verif.Props.Quat5
import Verif.Props.HandEye2

/-! # Properties C34-C36: pose errors and alignment errors -/

namespace HandEye

theorem dist_eq (a b : Vec3) : (a - b).norm = Spec.dist a b := by
  unfold Spec.dist Vec3.norm Vec3.dot
  congr 1
  change (a.x - b.x) * (a.x - b.x) + (a.y - b.y) * (a.y - b.y) + (a.z - b.z) * (a.z - b.z) = _
  ring

theorem norm_eq' (q : Quat) : q.norm = Real.sqrt (q.x ^ 2 + q.y ^ 2 + q.z ^ 2 + q.w ^ 2) := by
  unfold Quat.norm Quat.dot; congr 1; ring

/-- The sign choice of `compute_pose_error`. -/
noncomputable def posQ (q : Quat) : Quat := if q.normalize.w < 0 then -q.normalize else q.normalize

theorem posQ_dot {q : Quat} (h : q.norm > 1e-8) : (posQ q).dot (posQ q) = 1 := by
  unfold posQ
  split
  · rw [Quat.dot_neg_neg, Quat.normalize_dot_self h]
  · exact Quat.normalize_dot_self h

theorem posQ_w (q : Quat) : 0 ≤ (posQ q).w := by
  unfold posQ
  split
  case isTrue h => rw [Quat.neg_w]; linarith
  case isFalse h => exact not_lt.mp h

theorem cosHalf_eq {p q : Quat} (hp : p.norm > 1e-8) (hq : q.norm > 1e-8) :
    Spec.cosHalf p q = |(posQ p).dot (posQ q)| := by
  have h : |(posQ p).dot (posQ q)| = |p.normalize.dot q.normalize| := by
    unfold posQ
    split <;> split <;> simp
  rw [h, Quat.normalize_of_gt hp, Quat.normalize_of_gt hq, Quat.smul_dot, Quat.dot_smul, Spec.cosHalf,
    ← norm_eq', ← norm_eq', abs_mul, abs_mul]
  have h1 : 0 < p.norm := lt_trans (by norm_num) hp
  have h2 : 0 < q.norm := lt_trans (by norm_num) hq
  rw [abs_of_pos (by positivity : 0 < 1 / p.norm), abs_of_pos (by positivity : 0 < 1 / q.norm)]
  unfold Quat.dot
  field_simp

theorem computePoseError_eq (A B : Pose) : computePoseError A B =
    (angleBetweenQuaternions (posQ A.q) (posQ B.q) >>= fun rad =>
      .ok (Spec.dist A.pos B.pos, if npDegrees rad > 180 then |360 - npDegrees rad| else npDegrees rad)) := by
  unfold computePoseError
  rw [dist_eq]
  rfl

/-- C34, value: the position error is the Euclidean distance; the orientation error is the angle between
the two rotations in degrees, except that it is 0 in the tolerance branch of
`angle_between_quaternions`, which can only be taken if the half angle has a cosine above 1 - 6e-11. -/
theorem C34_value (A B : Pose) (hA : A.q.norm > 1e-8) (hB : B.q.norm > 1e-8) :
    ∃ d, computePoseError A B = .ok (Spec.dist A.pos B.pos, d) ∧ 0 ≤ d ∧ d ≤ 180 ∧
      (d = Spec.rotationAngle A.q B.q ∨ (d = 0 ∧ 1 - 6e-11 ≤ Spec.cosHalf A.q B.q)) := by
  have uA := posQ_dot hA
  have uB := posQ_dot hB
  obtain ⟨v, hv, h0, h1, hval⟩ := C11_value _ _ (Quat.norm_eq_one.mpr uA) (Quat.norm_eq_one.mpr uB)
  have hpi := Real.pi_pos
  rw [computePoseError_eq, hv, Py.ok_bind]
  have hdeg : npDegrees v = 180 * (v / Real.pi) := by unfold npDegrees; ring
  have hv0 : 0 ≤ v / Real.pi := by positivity
  have hv2 : v / Real.pi ≤ 2 := by rw [div_le_iff₀ hpi]; linarith
  refine ⟨_, rfl, ?_, ?_, ?_⟩
  · split
    · exact abs_nonneg _
    · rw [hdeg]; linarith
  · split
    · next h => rw [hdeg] at h ⊢; rw [abs_le]; constructor <;> linarith
    · next h => exact not_lt.mp h
  · rw [Spec.rotationAngle, cosHalf_eq hA hB]
    rcases hval with rfl | ⟨rfl, _, hc⟩
    · left
      have hdeg' : npDegrees (2 * Real.arccos ((posQ A.q).dot (posQ B.q))) =
          360 / Real.pi * Real.arccos ((posQ A.q).dot (posQ B.q)) := by unfold npDegrees; ring
      rw [hdeg']
      generalize (posQ A.q).dot (posQ B.q) = c at *
      rcases le_total 0 c with hc | hc
      · have hle : Real.arccos c ≤ Real.pi / 2 := Real.arccos_le_pi_div_two.mpr hc
        rw [if_neg, abs_of_nonneg hc]
        rw [not_lt]
        calc 360 / Real.pi * Real.arccos c ≤ 360 / Real.pi * (Real.pi / 2) :=
              mul_le_mul_of_nonneg_left hle (by positivity)
          _ = 180 := by field_simp; norm_num
      · rw [abs_of_nonpos hc, Real.arccos_neg]
        have e : 360 / Real.pi * (Real.pi - Real.arccos c) = 360 - 360 / Real.pi * Real.arccos c := by
          field_simp
        rw [e]
        split
        · rw [abs_of_nonneg]
          have := Real.arccos_le_pi c
          rw [← e]
          exact mul_nonneg (by positivity) (by linarith)
        · next h =>
          have hge : Real.pi / 2 ≤ Real.arccos c := by
            rw [← Real.arccos_zero]; exact Real.arccos_le_arccos hc
          have h180 : 180 ≤ 360 / Real.pi * Real.arccos c := by
            calc (180 : ℝ) = 360 / Real.pi * (Real.pi / 2) := by field_simp; norm_num
              _ ≤ _ := mul_le_mul_of_nonneg_left hge (by positivity)
          linarith
    · right
      constructor
      · simp [npDegrees]
      · exact hc.trans (le_abs_self _)

/-- C34: both errors vanish on equal poses (degenerate ones included). -/
theorem C34_self (A : Pose) : computePoseError A A = .ok (0, 0) := by
  rw [computePoseError_eq, C11_self, Py.ok_bind]
  simp [Spec.dist, npDegrees]

/-- C34: the value does not depend on the sign of either quaternion, outside of the tolerance branch. -/
theorem C34_sign (A B A' B' : Pose) (hA : A.q.norm > 1e-8) (hB : B.q.norm > 1e-8)
    (pA : A'.pos = A.pos) (pB : B'.pos = B.pos) (qA : A'.q = A.q ∨ A'.q = -A.q)
    (qB : B'.q = B.q ∨ B'.q = -B.q) :
    ∃ e d d', computePoseError A B = .ok (e, d) ∧ computePoseError A' B' = .ok (e, d') ∧
      (d' = d ∨ 1 - 6e-11 ≤ Spec.cosHalf A.q B.q) := by
  have nA : A'.q.norm = A.q.norm := by rcases qA with h | h <;> rw [h]; exact Quat.norm_neg _
  have nB : B'.q.norm = B.q.norm := by rcases qB with h | h <;> rw [h]; exact Quat.norm_neg _
  obtain ⟨d, h1, -, -, h2⟩ := C34_value A B hA hB
  obtain ⟨d', h1', -, -, h2'⟩ := C34_value A' B' (by rw [nA]; exact hA) (by rw [nB]; exact hB)
  have hc : Spec.cosHalf A'.q B'.q = Spec.cosHalf A.q B.q := by
    have hd : ∀ p q : Quat, Spec.cosHalf p q = |p.dot q| / (p.norm * q.norm) := fun p q => by
      rw [Spec.cosHalf, ← norm_eq', ← norm_eq']; rfl
    rw [hd, hd, nA, nB]
    rcases qA with h | h <;> rcases qB with h' | h' <;> rw [h, h'] <;> simp
  rw [pA, pB] at h1'
  refine ⟨_, d, d', h1, h1', ?_⟩
  unfold Spec.rotationAngle at h2 h2'
  rw [hc] at h2'
  rcases h2 with h2 | h2
  · rcases h2' with h2' | h2'
    · left; rw [h2, h2']
    · exact Or.inr h2'.2
  · exact Or.inr h2.2

theorem cauchy3 (a b c x y z : ℝ) : (a * x + b * y + c * z) ^ 2 ≤ (a ^ 2 + b ^ 2 + c ^ 2) * (x ^ 2 + y ^ 2 + z ^ 2) := by
  nlinarith [sq_nonneg (a * y - b * x), sq_nonneg (a * z - c * x), sq_nonneg (b * z - c * y)]

/-- C34: the position error is symmetric and obeys the triangle inequality, and it is zero only if the
positions agree. -/
theorem C34_position (A B C : Pose) (a b : ℝ × ℝ) (h1 : computePoseError A B = .ok a)
    (h2 : computePoseError B C = .ok b) :
    0 ≤ a.1 ∧ (a.1 = 0 ↔ A.pos = B.pos) ∧
      (∀ c, computePoseError A C = .ok c → c.1 ≤ a.1 + b.1) ∧
      (∀ c, computePoseError B A = .ok c → c.1 = a.1) := by
  have key : ∀ {P Q : Pose} {e : ℝ × ℝ}, computePoseError P Q = .ok e → e.1 = Spec.dist P.pos Q.pos := by
    intro P Q e h
    rw [computePoseError_eq] at h
    obtain ⟨_, _, h⟩ := Py.bind_eq_ok.mp h
    cases h; rfl
  rw [key h1, key h2]
  refine ⟨Real.sqrt_nonneg _, ?_, ?_, ?_⟩
  · unfold Spec.dist
    rw [Real.sqrt_eq_zero (by positivity)]
    constructor
    · intro h
      ext
      · nlinarith [sq_nonneg (A.pos.x - B.pos.x), sq_nonneg (A.pos.y - B.pos.y), sq_nonneg (A.pos.z - B.pos.z)]
      · nlinarith [sq_nonneg (A.pos.x - B.pos.x), sq_nonneg (A.pos.y - B.pos.y), sq_nonneg (A.pos.z - B.pos.z)]
      · nlinarith [sq_nonneg (A.pos.x - B.pos.x), sq_nonneg (A.pos.y - B.pos.y), sq_nonneg (A.pos.z - B.pos.z)]
    · intro h; rw [h]; ring
  · intro c hc
    rw [key hc]
    unfold Spec.dist
    have e := cauchy3 (A.pos.x - B.pos.x) (A.pos.y - B.pos.y) (A.pos.z - B.pos.z)
      (B.pos.x - C.pos.x) (B.pos.y - C.pos.y) (B.pos.z - C.pos.z)
    have s1 := Real.sq_sqrt (show 0 ≤ (A.pos.x - B.pos.x) ^ 2 + (A.pos.y - B.pos.y) ^ 2 + (A.pos.z - B.pos.z) ^ 2 by positivity)
    have s2 := Real.sq_sqrt (show 0 ≤ (B.pos.x - C.pos.x) ^ 2 + (B.pos.y - C.pos.y) ^ 2 + (B.pos.z - C.pos.z) ^ 2 by positivity)
    have n1 := Real.sqrt_nonneg ((A.pos.x - B.pos.x) ^ 2 + (A.pos.y - B.pos.y) ^ 2 + (A.pos.z - B.pos.z) ^ 2)
    have n2 := Real.sqrt_nonneg ((B.pos.x - C.pos.x) ^ 2 + (B.pos.y - C.pos.y) ^ 2 + (B.pos.z - C.pos.z) ^ 2)
    rw [Real.sqrt_le_left (by positivity)]
    rw [← s1, ← s2] at e
    generalize Real.sqrt ((A.pos.x - B.pos.x) ^ 2 + (A.pos.y - B.pos.y) ^ 2 + (A.pos.z - B.pos.z) ^ 2) = p at *
    generalize Real.sqrt ((B.pos.x - C.pos.x) ^ 2 + (B.pos.y - C.pos.y) ^ 2 + (B.pos.z - C.pos.z) ^ 2) = q at *
    have e' : (A.pos.x - B.pos.x) * (B.pos.x - C.pos.x) + (A.pos.y - B.pos.y) * (B.pos.y - C.pos.y) +
        (A.pos.z - B.pos.z) * (B.pos.z - C.pos.z) ≤ p * q :=
      abs_le_of_sq_le_sq' (by rw [mul_pow]; exact e) (by positivity) |>.2
    nlinarith
  · intro c hc
    rw [key hc]
    unfold Spec.dist
    congr 1; ring

/-- Two poses 5 apart and a quarter turn against each other. -/
example : ∃ d, computePoseError ⟨⟨0, 0, 0⟩, ⟨0, 0, 0, 2⟩⟩ ⟨⟨3, 4, 0⟩, ⟨0, 0, -1, -1⟩⟩ = .ok (5, d) ∧
    d = 90 := by
  have h1 : Real.sqrt 2 * Real.sqrt 2 = 2 := Real.mul_self_sqrt (by norm_num)
  have hpos : 0 < Real.sqrt 2 := by positivity
  have hlo : 1 < Real.sqrt 2 := by nlinarith
  have hn1 : (⟨0, 0, 0, 2⟩ : Quat).norm > 1e-8 := by
    rw [norm_eq', show (0 : ℝ) ^ 2 + 0 ^ 2 + 0 ^ 2 + 2 ^ 2 = 2 ^ 2 by norm_num, Real.sqrt_sq (by norm_num)]
    norm_num
  have hn2 : (⟨0, 0, -1, -1⟩ : Quat).norm > 1e-8 := by
    rw [norm_eq', show (0 : ℝ) ^ 2 + 0 ^ 2 + (-1) ^ 2 + (-1) ^ 2 = 2 by norm_num]
    exact lt_trans (by norm_num) hlo
  have hdist : Spec.dist ⟨0, 0, 0⟩ ⟨3, 4, 0⟩ = 5 := by
    rw [Spec.dist, show ((0 : ℝ) - 3) ^ 2 + (0 - 4) ^ 2 + (0 - 0) ^ 2 = 5 ^ 2 by norm_num,
      Real.sqrt_sq (by norm_num)]
  have hc : Spec.cosHalf ⟨0, 0, 0, 2⟩ ⟨0, 0, -1, -1⟩ = Real.sqrt 2 / 2 := by
    rw [Spec.cosHalf]
    norm_num
    rw [show Real.sqrt 4 = 2 by rw [show (4 : ℝ) = 2 ^ 2 by norm_num, Real.sqrt_sq (by norm_num)]]
    field_simp
    nlinarith
  obtain ⟨d, h, -, -, hd⟩ := C34_value ⟨⟨0, 0, 0⟩, ⟨0, 0, 0, 2⟩⟩ ⟨⟨3, 4, 0⟩, ⟨0, 0, -1, -1⟩⟩ hn1 hn2
  rw [hdist] at h
  refine ⟨d, h, ?_⟩
  rw [Spec.rotationAngle] at hd
  rw [hc] at hd
  rcases hd with rfl | ⟨_, hd⟩
  · rw [← Real.cos_pi_div_four, Real.arccos_cos (by positivity) (by linarith [Real.pi_pos])]
    have := Real.pi_pos
    field_simp; norm_num
  · exfalso; nlinarith

end HandEye
