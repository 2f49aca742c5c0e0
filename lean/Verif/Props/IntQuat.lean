import Verif.Lemmas.IntQuat

/-!
# Property C100: quaternions with integer components

A quaternion that is made of integers has the numbers that are given, and its operations give the numbers that the same operations give for floats.
-/

namespace HandEye

open Spec

/-- The product of quaternions with integers is always an array of integers of 64 bits that agree with the product modulo `2^64`, and is the product if
this fits. -/
theorem C100_product (p q : IQuat) :
    ∃ r, NumQuat.mul (.int p) (.int q) = .int r ∧
      (∀ f ∈ [IQuat.x, IQuat.y, IQuat.z, IQuat.w], FitsWord (f r) ∧ (∃ k, f r = f (exactMul p q) + 2 ^ 64 * k) ∧
        (FitsWord (f (exactMul p q)) → f r = f (exactMul p q))) := by
  refine ⟨_, mul_int p q, ?_⟩
  simp only [List.forall_mem_cons, List.not_mem_nil, false_imp_iff, implies_true, and_true]
  exact ⟨⟨wrap64_fits _, wrap64_mod _, wrap64_eq⟩, ⟨wrap64_fits _, wrap64_mod _, wrap64_eq⟩, ⟨wrap64_fits _, wrap64_mod _, wrap64_eq⟩,
    ⟨wrap64_fits _, wrap64_mod _, wrap64_eq⟩⟩

theorem real_mul {p q : NumQuat} (hp : Moderate largestComponent p) (hq : Moderate largestComponent q) : (p.mul q).real = p.real * q.real := by
  cases p with
  | float p => cases q <;> rfl
  | int p =>
    cases q with
    | float q => rfl
    | int q =>
      obtain ⟨a1, a2, a3, a4⟩ := hp
      obtain ⟨b1, b2, b3, b4⟩ := hq
      have fx : FitsWord (exactMul p q).x := fits_four (mul_bound a4 b1) (mul_bound a1 b4) (mul_bound a2 b3) (mul_bound a3 b2) _ (by
        simp only [exactMul]
        have := abs_sub (p.w * q.x + p.x * q.w + p.y * q.z) (p.z * q.y)
        have := abs_add_three (p.w * q.x) (p.x * q.w) (p.y * q.z)
        linarith)
      have fy : FitsWord (exactMul p q).y := fits_four (mul_bound a4 b2) (mul_bound a1 b3) (mul_bound a2 b4) (mul_bound a3 b1) _ (by
        simp only [exactMul]
        have := abs_add_three (p.w * q.y - p.x * q.z) (p.y * q.w) (p.z * q.x)
        have := abs_sub (p.w * q.y) (p.x * q.z)
        linarith)
      have fz : FitsWord (exactMul p q).z := fits_four (mul_bound a4 b3) (mul_bound a1 b2) (mul_bound a2 b1) (mul_bound a3 b4) _ (by
        simp only [exactMul]
        have := abs_add_le (p.w * q.z + p.x * q.y - p.y * q.x) (p.z * q.w)
        have := abs_sub (p.w * q.z + p.x * q.y) (p.y * q.x)
        have := abs_add_le (p.w * q.z) (p.x * q.y)
        linarith)
      have fw : FitsWord (exactMul p q).w := fits_four (mul_bound a4 b4) (mul_bound a1 b1) (mul_bound a2 b2) (mul_bound a3 b3) _ (by
        simp only [exactMul]
        have := abs_sub (p.w * q.w - p.x * q.x - p.y * q.y) (p.z * q.z)
        have := abs_sub (p.w * q.w - p.x * q.x) (p.y * q.y)
        have := abs_sub (p.w * q.w) (p.x * q.x)
        linarith)
      rw [mul_int, wrap64_eq fx, wrap64_eq fy, wrap64_eq fz, wrap64_eq fw]
      show _ = Quat.mul _ _
      simp only [NumQuat.real, exactMul, Quat.mul]
      ext <;> push_cast <;> rfl

theorem fits_small {s : ℤ} (h : |s| ≤ largestComponent * largestComponent * 4 + 1) : FitsWord s := by
  have := largest_sq
  have h := abs_le.mp h
  exact ⟨by omega, by omega⟩

theorem largest_pos : largestComponent + largestComponent ≤ largestComponent * largestComponent * 4 + 1 := by decide

theorem real_add {p q : NumQuat} (hp : Moderate largestComponent p) (hq : Moderate largestComponent q) :
    (p.add q).real = p.real + q.real ∧ (p.sub q).real = p.real - q.real := by
  cases p with
  | float p => cases q <;> exact ⟨rfl, rfl⟩
  | int p =>
    cases q with
    | float q => exact ⟨rfl, rfl⟩
    | int q =>
      have h1 : ∀ a b : ℤ, |a| ≤ largestComponent → |b| ≤ largestComponent → wrap64 (a + b) = a + b ∧ wrap64 (a - b) = a - b := by
        intro a b ha hb
        have := largest_pos
        exact ⟨wrap64_eq (fits_small (by have := abs_add_le a b; linarith)), wrap64_eq (fits_small (by have := abs_sub a b; linarith))⟩
      obtain ⟨a1, a2, a3, a4⟩ := hp
      obtain ⟨b1, b2, b3, b4⟩ := hq
      constructor
      · show NumQuat.real (.int _) = Quat.add _ _
        rw [(h1 _ _ a1 b1).1, (h1 _ _ a2 b2).1, (h1 _ _ a3 b3).1, (h1 _ _ a4 b4).1]
        simp only [NumQuat.real, Quat.add]
        ext <;> push_cast <;> rfl
      · show NumQuat.real (.int _) = Quat.sub _ _
        rw [(h1 _ _ a1 b1).2, (h1 _ _ a2 b2).2, (h1 _ _ a3 b3).2, (h1 _ _ a4 b4).2]
        simp only [NumQuat.real, Quat.sub]
        ext <;> push_cast <;> rfl

theorem real_neg {p : NumQuat} (hp : Moderate largestComponent p) : p.neg.real = -p.real ∧ p.conj.real = p.real.conj := by
  cases p with
  | float p => exact ⟨rfl, rfl⟩
  | int p =>
    have h1 : ∀ a : ℤ, |a| ≤ largestComponent → wrap64 (-a) = -a := by
      intro a ha
      have := largest_pos
      have := abs_nonneg a
      exact wrap64_eq (fits_small (by rw [abs_neg]; linarith))
    obtain ⟨a1, a2, a3, a4⟩ := hp
    constructor
    · show NumQuat.real (.int _) = Quat.neg _
      rw [h1 _ a1, h1 _ a2, h1 _ a3, h1 _ a4]
      simp only [NumQuat.real, Quat.neg]
      ext <;> push_cast <;> rfl
    · show NumQuat.real (.int _) = Quat.conj _
      rw [h1 _ a1, h1 _ a2, h1 _ a3]
      simp only [NumQuat.real, Quat.conj]
      ext <;> push_cast <;> rfl

theorem real_squaredNorm {p : NumQuat} (hp : Moderate largestComponent p) : p.squaredNorm = p.real.squaredNorm := by
  cases p with
  | float p => rfl
  | int p =>
    obtain ⟨a1, a2, a3, a4⟩ := hp
    rw [squaredNorm_int, wrap64_eq (fits_four (mul_bound a1 a1) (mul_bound a2 a2) (mul_bound a3 a3) (mul_bound a4 a4) _ (by
      have := abs_add_three (p.x * p.x) (p.y * p.y) (p.z * p.z)
      have := abs_add_le (p.x * p.x + p.y * p.y + p.z * p.z) (p.w * p.w)
      linarith))]
    simp only [NumQuat.real, Quat.squaredNorm, Quat.dot]
    push_cast
    rfl

theorem squaredNorm_nonneg (q : Quat) : 0 ≤ q.squaredNorm := by
  unfold Quat.squaredNorm Quat.dot
  nlinarith [mul_self_nonneg q.x, mul_self_nonneg q.y, mul_self_nonneg q.z, mul_self_nonneg q.w]

theorem real_norm {p : NumQuat} (hp : Moderate largestComponent p) : p.norm = .ok p.real.norm := by
  rw [NumQuat.norm, real_squaredNorm hp, npSqrt_ok (squaredNorm_nonneg _)]
  rfl

theorem real_normalize {p : NumQuat} (hp : Moderate largestComponent p) : p.normalize.real = p.real.normalize := by
  rw [NumQuat.normalize, real_norm hp, Quat.normalize]
  dsimp only
  split <;> rfl

theorem real_rotation {p : NumQuat} (hp : Moderate largestComponent p) (v : Vec3) :
    p.toRotationMatrix = p.real.toRotationMatrix ∧ p.rotateVector v = p.real.rotateVector v := by
  cases p with
  | float p => exact ⟨rfl, rfl⟩
  | int p =>
    obtain ⟨a1, a2, a3, a4⟩ := hp
    have sq : ∀ a b : ℤ, |a| ≤ largestComponent → |b| ≤ largestComponent → wrap64 (1 - 2 * (a * a) - 2 * (b * b)) = 1 - 2 * (a * a) - 2 * (b * b) := by
      intro a b ha hb
      refine wrap64_eq (fits_four (mul_bound ha ha) (mul_bound ha ha) (mul_bound hb hb) (mul_bound hb hb) _ ?_)
      rw [abs_of_nonneg (mul_self_nonneg a), abs_of_nonneg (mul_self_nonneg b)]
      have := mul_self_nonneg a
      have := mul_self_nonneg b
      rw [abs_le]
      constructor <;> linarith
    have pr : ∀ a b c d : ℤ, |a| ≤ largestComponent → |b| ≤ largestComponent → |c| ≤ largestComponent → |d| ≤ largestComponent →
        wrap64 (2 * a * b + 2 * c * d) = 2 * a * b + 2 * c * d ∧ wrap64 (2 * a * b - 2 * c * d) = 2 * a * b - 2 * c * d := by
      intro a b c d ha hb hc hd
      have e1 : 2 * a * b = a * b + a * b := by ring
      have e2 : 2 * c * d = c * d + c * d := by ring
      constructor <;> refine wrap64_eq (fits_four (mul_bound ha hb) (mul_bound ha hb) (mul_bound hc hd) (mul_bound hc hd) _ ?_)
      · rw [e1, e2]
        have := abs_add_le (a * b + a * b) (c * d + c * d)
        have := abs_add_le (a * b) (a * b)
        have := abs_add_le (c * d) (c * d)
        linarith
      · rw [e1, e2]
        have := abs_sub (a * b + a * b) (c * d + c * d)
        have := abs_add_le (a * b) (a * b)
        have := abs_add_le (c * d) (c * d)
        linarith
    have pr' : ∀ a b c d : ℤ, |a| ≤ largestComponent → |b| ≤ largestComponent → |c| ≤ largestComponent → |d| ≤ largestComponent →
        wrap64 (2 * (a * b + c * d)) = 2 * (a * b + c * d) ∧ wrap64 (2 * (a * b - c * d)) = 2 * (a * b - c * d) := by
      intro a b c d ha hb hc hd
      obtain ⟨h1, h2⟩ := pr a b c d ha hb hc hd
      have e1 : 2 * (a * b + c * d) = 2 * a * b + 2 * c * d := by ring
      have e2 : 2 * (a * b - c * d) = 2 * a * b - 2 * c * d := by ring
      rw [e1, e2]
      exact ⟨h1, h2⟩
    constructor
    · show (NumQuat.rotationEntries p).map _ = _
      have e : NumQuat.rotationEntries p =
          !![1 - 2 * (p.y * p.y) - 2 * (p.z * p.z), 2 * p.x * p.y - 2 * p.z * p.w, 2 * p.x * p.z + 2 * p.y * p.w;
             2 * p.x * p.y + 2 * p.z * p.w, 1 - 2 * (p.x * p.x) - 2 * (p.z * p.z), 2 * p.y * p.z - 2 * p.x * p.w;
             2 * p.x * p.z - 2 * p.y * p.w, 2 * p.y * p.z + 2 * p.x * p.w, 1 - 2 * (p.x * p.x) - 2 * (p.y * p.y)] := by
        unfold NumQuat.rotationEntries
        simp only [two_sq, two_pr, add64_wrap, sub64_one, sub64_wrap]
        rw [sq _ _ a2 a3, sq _ _ a1 a3, sq _ _ a1 a2, (pr _ _ _ _ a1 a2 a3 a4).1, (pr _ _ _ _ a1 a2 a3 a4).2, (pr _ _ _ _ a1 a3 a2 a4).1,
          (pr _ _ _ _ a1 a3 a2 a4).2, (pr _ _ _ _ a2 a3 a1 a4).1, (pr _ _ _ _ a2 a3 a1 a4).2]
      rw [e]
      ext i j
      fin_cases i <;> fin_cases j <;> simp [NumQuat.real, Quat.toRotationMatrix] <;> ring
    · show NumQuat.rotateVector (.int p) v = _
      simp only [NumQuat.rotateVector, two_sq, two_add, two_sub, sub64_one, sub64_wrap]
      rw [sq _ _ a2 a3, sq _ _ a1 a3, sq _ _ a1 a2, (pr' _ _ _ _ a1 a2 a3 a4).1, (pr' _ _ _ _ a1 a2 a3 a4).2, (pr' _ _ _ _ a1 a3 a2 a4).1,
        (pr' _ _ _ _ a1 a3 a2 a4).2, (pr' _ _ _ _ a2 a3 a1 a4).1, (pr' _ _ _ _ a2 a3 a1 a4).2]
      simp only [NumQuat.real, Quat.rotateVector]
      ext <;> push_cast <;> ring

/-- Quaternions with floats, and with integers of at most 1518500249: all operations give the numbers that they give for floats.  (Missing: larger
integers, where this fails, see `C100_sharp_refuted`.) -/
theorem C100_moderate_partial (p q : NumQuat) (hp : Moderate largestComponent p) (hq : Moderate largestComponent q) :
    (p.mul q).real = p.real * q.real ∧ (p.add q).real = p.real + q.real ∧ (p.sub q).real = p.real - q.real ∧ p.neg.real = -p.real ∧
    p.conj.real = p.real.conj ∧ p.squaredNorm = p.real.squaredNorm ∧ p.norm = .ok p.real.norm ∧ p.inverse = p.real.inverse ∧
    p.normalize.real = p.real.normalize ∧ p.toRotationMatrix = p.real.toRotationMatrix ∧ ∀ v, p.rotateVector v = p.real.rotateVector v := by
  refine ⟨real_mul hp hq, (real_add hp hq).1, (real_add hp hq).2, (real_neg hp).1, (real_neg hp).2, real_squaredNorm hp, real_norm hp, ?_,
    real_normalize hp, (real_rotation hp ⟨0, 0, 0⟩).1, fun v => (real_rotation hp v).2⟩
  rw [NumQuat.inverse, (real_neg hp).2, real_squaredNorm hp]
  rfl

example : (NumQuat.mul (.int ⟨1, 2, 3, 4⟩) (.int ⟨4, 3, 2, 1⟩)).real = ⟨12, 24, 6, -12⟩ := by
  show NumQuat.real (.int _) = _
  simp only [NumQuat.real, NumQuat.mul64, NumQuat.add64, NumQuat.sub64, wrap64]
  norm_num

/-- The constructor: numbers, in any mixture of integers and floats, are the components. -/
theorem C100_construct (x y z w : PyArg) :
    (∀ b, NumberWithin b x → NumberWithin b y → NumberWithin b z → NumberWithin b w →
      ∃ q, NumQuat.construct x y z w .missing = .ok q ∧ q.real = ⟨x.value, y.value, z.value, w.value⟩ ∧ Moderate b q) ∧
    (.other ∈ [x, y, z, w] → NumQuat.construct x y z w .missing = .error .assertion) := by
  constructor
  · intro b hx hy hz hw
    cases x <;> first | exact absurd hx id | skip
    all_goals cases y <;> first | exact absurd hy id | skip
    all_goals cases z <;> first | exact absurd hz id | skip
    all_goals cases w <;> first | exact absurd hw id | skip
    all_goals first | exact ⟨_, rfl, rfl, trivial⟩ | exact ⟨_, rfl, rfl, hx, hy, hz, hw⟩
  · intro h
    cases x <;> first | rfl | skip
    all_goals cases y <;> first | rfl | skip
    all_goals cases z <;> first | rfl | skip
    all_goals cases w <;> first | rfl | skip
    all_goals simp at h

example : (∃ q, NumQuat.construct (.int 1) (.float 0.5) (.int (-3)) (.int 2) .missing = .ok q ∧ q.real = ⟨1, 0.5, -3, 2⟩) ∧
    NumQuat.construct (.int 1) .other (.int (-3)) (.int 2) .missing = .error .assertion := by
  refine ⟨?_, (C100_construct _ _ _ _).2 (by simp)⟩
  obtain ⟨q, h, e, _⟩ := (C100_construct (.int 1) (.float 0.5) (.int (-3)) (.int 2)).1 3 (by simp [NumberWithin]) trivial (by simp [NumberWithin]) (by simp [NumberWithin])
  exact ⟨q, h, by rw [e]; simp [PyArg.value]⟩

/-- The documented constructor with a list (Q.py:13) is rejected, whatever is in the list. -/
theorem C100_list_refuted (l : List PyArg) : NumQuat.construct (.float 0) (.float 0) (.float 0) (.float 1) (.list l) = .error .assertion := rfl

example : NumQuat.construct (.float 0) (.float 0) (.float 0) (.float 1) (.list [.float 0, .float 0, .float 0, .float 1]) = .error .assertion ∧
    ∃ q, NumQuat.construct (.float 0) (.float 0) (.float 0) (.float 1) (.array (.int ⟨0, 0, 0, 1⟩)) = .ok q ∧ q.real = ⟨0, 0, 0, 1⟩ :=
  ⟨C100_list_refuted _, _, rfl, by simp [NumQuat.real]⟩

/-- The documented constructor of dual quaternions with a list of eight numbers works. -/
theorem C100_vector (a b c d e f g h : PyArg) (hn : PyArg.other ∉ [a, b, c, d, e, f, g, h]) :
    NumQuat.fromVector [a, b, c, d, e, f, g, h] = .ok ⟨⟨a.value, b.value, c.value, d.value⟩, ⟨e.value, f.value, g.value, h.value⟩⟩ := by
  have hr : ∀ a b c d : PyArg, (NumQuat.ofArgs a b c d).real = ⟨a.value, b.value, c.value, d.value⟩ := by
    intro a b c d
    cases a <;> cases b <;> cases c <;> cases d <;> rfl
  have hall : [a, b, c, d, e, f, g, h].all PyArg.isNumber = true := by
    rw [List.all_eq_true]
    intro x hx
    cases x with
    | other => exact absurd hx hn
    | _ => rfl
  rw [NumQuat.fromVector, if_pos hall]
  show Except.ok (DQuat.mk (NumQuat.ofArgs a b c d).real (NumQuat.ofArgs e f g h).real) = _
  rw [hr, hr]

example : NumQuat.fromVector [.int 0, .int 0, .int 0, .int 1, .float 0.5, .int 0, .int 0, .int 0] = .ok ⟨⟨0, 0, 0, 1⟩, ⟨0.5, 0, 0, 0⟩⟩ := by
  have := C100_vector (.int 0) (.int 0) (.int 0) (.int 1) (.float 0.5) (.int 0) (.int 0) (.int 0) (by simp)
  simpa [PyArg.value] using this

/-- `from_pose` of numbers, in any mixture of integers and floats. -/
theorem C100_from_pose_partial (x y z rx ry rz rw : PyArg) (h : ∀ a ∈ [x, y, z, rx, ry, rz, rw], NumberWithin largestComponent a) :
    NumQuat.fromPose x y z rx ry rz rw = .ok (DQuat.fromPose ⟨⟨x.value, y.value, z.value⟩, ⟨rx.value, ry.value, rz.value, rw.value⟩⟩) := by
  simp only [List.forall_mem_cons, List.not_mem_nil, false_imp_iff, implies_true, and_true] at h
  obtain ⟨hx, hy, hz, h1, h2, h3, h4⟩ := h
  obtain ⟨q, hq, hqr, hqm⟩ := (C100_construct rx ry rz rw).1 _ h1 h2 h3 h4
  obtain ⟨t, ht, htr, htm⟩ := (C100_construct x y z (.int 0)).1 largestComponent hx hy hz (by show |(0 : ℤ)| ≤ _; decide)
  have hnm : Moderate largestComponent q.normalize := by
    rw [NumQuat.normalize, real_norm hqm]
    dsimp only
    split
    · trivial
    · exact hqm
  rw [NumQuat.fromPose, hq, Py.ok_bind]
  dsimp only
  rw [ht, Py.ok_bind]
  show Except.ok (DQuat.mk q.normalize.real ((0.5 : ℝ) • (t.mul q.normalize).real)) = _
  rw [real_mul htm hnm, real_normalize hqm, hqr, htr, DQuat.fromPose]
  simp only [PyArg.value, Int.cast_zero]

/-- The point transformations make a pose with the integers 0, 0, 0, 1 (DQ.py:244-245). -/
example (a b c : ℝ) : NumQuat.fromPose (.float a) (.float b) (.float c) (.int 0) (.int 0) (.int 0) (.int 1) =
    .ok (DQuat.fromPose ⟨⟨a, b, c⟩, ⟨0, 0, 0, 1⟩⟩) := by
  have := C100_from_pose_partial (.float a) (.float b) (.float c) (.int 0) (.int 0) (.int 0) (.int 1) (by
    simp [NumberWithin, largestComponent])
  simpa [PyArg.value] using this

/-- With integers that are larger by one, this fails: the square of the norm is negative, so that the norm is `nan`, normalization leaves the quaternion
as it is, and the inverse has the wrong sign. -/
theorem C100_sharp_refuted :
    ∃ q : IQuat, Within (largestComponent + 1) q ∧ (NumQuat.int q).squaredNorm < 0 ∧ (NumQuat.int q).norm = .error .nonFinite ∧
      (NumQuat.int q).normalize = .int q ∧
      ∃ i, (NumQuat.int q).inverse = .ok i ∧ ((NumQuat.int q).real * i).w < 0 := by
  have hs : (NumQuat.int ⟨largestComponent + 1, largestComponent + 1, largestComponent + 1, largestComponent + 1⟩).squaredNorm = -9223372036709301616 := by
    rw [squaredNorm_int]
    simp only [wrap64, largestComponent]
    norm_num
  have hn : (NumQuat.int ⟨largestComponent + 1, largestComponent + 1, largestComponent + 1, largestComponent + 1⟩).norm = .error .nonFinite := by
    rw [NumQuat.norm, hs, npSqrt, if_pos (by norm_num)]
  refine ⟨⟨largestComponent + 1, largestComponent + 1, largestComponent + 1, largestComponent + 1⟩, ?_, ?_, hn, ?_, ?_⟩
  · refine ⟨?_, ?_, ?_, ?_⟩ <;> exact le_of_eq (abs_of_nonneg (by decide))
  · rw [hs]
    norm_num
  · rw [NumQuat.normalize, hn]
  · refine ⟨_, by rw [NumQuat.inverse, hs, Quat.divScalar, if_neg (by norm_num)], ?_⟩
    show (Quat.mul _ _).w < 0
    simp only [Quat.mul, NumQuat.conj, NumQuat.real, wrap64, largestComponent]
    norm_num

/-- `from_pose` of a quaternion with one large integer is not a unit quaternion, although it is said to be normalized (DQ.py:139), and a quaternion that
is far from a unit quaternion has the norm one. -/
theorem C100_wrap_refuted :
    (∃ a, NumQuat.fromPose (.int 0) (.int 0) (.int 0) (.int (2 ^ 32)) (.int 0) (.int 0) (.int 0) = .ok a ∧ a.rot.norm = 2 ^ 32) ∧
    (NumQuat.int ⟨2 ^ 32, 0, 0, 1⟩).norm = .ok 1 ∧ (NumQuat.int ⟨2 ^ 32, 0, 0, 1⟩).real.norm > 2 ^ 32 := by
  refine ⟨?_, ?_, ?_⟩
  · have hs : (NumQuat.int ⟨2 ^ 32, 0, 0, 0⟩).squaredNorm = 0 := by
      rw [squaredNorm_int]
      simp only [wrap64]
      norm_num
    have hn : (NumQuat.int ⟨2 ^ 32, 0, 0, 0⟩).normalize = .int ⟨2 ^ 32, 0, 0, 0⟩ := by
      rw [NumQuat.normalize, NumQuat.norm, hs, npSqrt_ok le_rfl, Real.sqrt_zero]
      dsimp only
      rw [if_neg (by norm_num)]
    refine ⟨⟨(NumQuat.int ⟨2 ^ 32, 0, 0, 0⟩).normalize.real, _⟩, rfl, ?_⟩
    rw [hn]
    simp only [NumQuat.real, Quat.norm, Quat.dot]
    rw [Real.sqrt_eq_iff_mul_self_eq (by norm_num) (by norm_num)]
    norm_num
  · have hs : (NumQuat.int ⟨2 ^ 32, 0, 0, 1⟩).squaredNorm = 1 := by
      rw [squaredNorm_int]
      simp only [wrap64]
      norm_num
    rw [NumQuat.norm, hs, npSqrt_ok zero_le_one, Real.sqrt_one]
  · simp only [NumQuat.real, Quat.norm, Quat.dot]
    rw [gt_iff_lt, Real.lt_sqrt (by norm_num)]
    norm_num

end HandEye
