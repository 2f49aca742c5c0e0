import Verif.Props.Rounded2

/-! # Property C89, continued: the angle between two almost equal quaternions is not a number -/

namespace HandEye

/-- The two quaternions of the counterexample: binary fractions with 53 digits. -/
noncomputable def nearlyA : Quat := ⟨7574423867897145 / 2 ^ 54, 0, 1 / 2 ^ 36, 8172310822647668 / 2 ^ 53⟩

noncomputable def nearlyB : Quat := ⟨7574423867897148 / 2 ^ 54, 0, 0, 8172310822647667 / 2 ^ 53⟩

theorem isDouble_div (m : ℤ) (k : ℕ) (h : |m| ≤ 2 ^ 53) : Spec.IsDouble ((m : ℝ) / 2 ^ k) :=
  ⟨m, -k, h, by rw [zpow_neg, zpow_natCast, div_eq_mul_inv]⟩

theorem round_xA : roundDouble (7574423867897145 / 2 ^ 54) = 7574423867897145 / 2 ^ 54 := by
  have := roundDouble_eq (x := 7574423867897145 / 2 ^ 54) 54 7574423867897145 (by norm_num) (by norm_num) (by rw [abs_lt]; constructor <;> norm_num)
  exact_mod_cast this

theorem round_wA : roundDouble (8172310822647668 / 2 ^ 53) = 8172310822647668 / 2 ^ 53 := by
  have := roundDouble_eq (x := 8172310822647668 / 2 ^ 53) 53 8172310822647668 (by norm_num) (by norm_num) (by rw [abs_lt]; constructor <;> norm_num)
  exact_mod_cast this

theorem round_xB : roundDouble (7574423867897148 / 2 ^ 54) = 7574423867897148 / 2 ^ 54 := by
  have := roundDouble_eq (x := 7574423867897148 / 2 ^ 54) 54 7574423867897148 (by norm_num) (by norm_num) (by rw [abs_lt]; constructor <;> norm_num)
  exact_mod_cast this

theorem round_wB : roundDouble (8172310822647667 / 2 ^ 53) = 8172310822647667 / 2 ^ 53 := by
  have := roundDouble_eq (x := 8172310822647667 / 2 ^ 53) 53 8172310822647667 (by norm_num) (by norm_num) (by rw [abs_lt]; constructor <;> norm_num)
  exact_mod_cast this

theorem round_z : roundDouble (1 / 2 ^ 36) = 1 / 2 ^ 36 := by
  rw [roundDouble_eq 88 4503599627370496 (by norm_num) (by norm_num) (by rw [abs_lt]; constructor <;> norm_num)]
  norm_num

theorem round_one : roundDouble 1 = 1 := by
  rw [roundDouble_eq 52 4503599627370496 (by norm_num) (by norm_num) (by rw [abs_lt]; constructor <;> norm_num)]
  norm_num

theorem dot_nearlyA (acos : ℝ → ℝ) : (doubleArith acos).dot nearlyA nearlyA = 1 := by
  unfold doubleArith nearlyA
  dsimp only
  rw [roundDouble_eq (x := 7574423867897145 / 2 ^ 54 * (7574423867897145 / 2 ^ 54)) 55 6369560093874010 (by norm_num) (by norm_num)
      (by rw [abs_lt]; constructor <;> norm_num),
    roundDouble_eq (x := 1 / 2 ^ 36 * (1 / 2 ^ 36)) 124 4503599627370496 (by norm_num) (by norm_num) (by rw [abs_lt]; constructor <;> norm_num),
    roundDouble_eq (x := 8172310822647668 / 2 ^ 53 * (8172310822647668 / 2 ^ 53)) 53 7414809231272490 (by norm_num) (by norm_num)
      (by rw [abs_lt]; constructor <;> norm_num), mul_zero, roundDouble_zero, add_zero]
  rw [roundDouble_eq (x := ((6369560093874010 : ℕ) : ℝ) / 2 ^ 55) 55 6369560093874010 (by norm_num) (by norm_num)
      (by rw [abs_lt]; constructor <;> norm_num)]
  rw [roundDouble_eq (x := ((6369560093874010 : ℕ) : ℝ) / 2 ^ 55 + ((4503599627370496 : ℕ) : ℝ) / 2 ^ 124) 55 6369560093874010 (by norm_num)
      (by norm_num) (by rw [abs_lt]; constructor <;> norm_num)]
  rw [roundDouble_eq 52 4503599627370496 (by norm_num) (by norm_num) (by rw [abs_lt]; constructor <;> norm_num)]
  norm_num

theorem dot_nearlyB (acos : ℝ → ℝ) : (doubleArith acos).dot nearlyB nearlyB = 1 := by
  unfold doubleArith nearlyB
  dsimp only
  rw [roundDouble_eq (x := 7574423867897148 / 2 ^ 54 * (7574423867897148 / 2 ^ 54)) 55 6369560093874015 (by norm_num) (by norm_num)
      (by rw [abs_lt]; constructor <;> norm_num),
    roundDouble_eq (x := 8172310822647667 / 2 ^ 53 * (8172310822647667 / 2 ^ 53)) 53 7414809231272489 (by norm_num) (by norm_num)
      (by rw [abs_lt]; constructor <;> norm_num), mul_zero, roundDouble_zero, add_zero, add_zero]
  rw [roundDouble_eq (x := ((6369560093874015 : ℕ) : ℝ) / 2 ^ 55) 55 6369560093874015 (by norm_num) (by norm_num)
      (by rw [abs_lt]; constructor <;> norm_num)]
  rw [roundDouble_eq (x := ((6369560093874015 : ℕ) : ℝ) / 2 ^ 55) 55 6369560093874015 (by norm_num) (by norm_num)
      (by rw [abs_lt]; constructor <;> norm_num)]
  rw [roundDouble_eq 52 4503599627370496 (by norm_num) (by norm_num) (by rw [abs_lt]; constructor <;> norm_num)]
  norm_num

theorem inverse_nearlyB (acos : ℝ → ℝ) : (doubleArith acos).inverse nearlyB = .ok nearlyB.conj := by
  unfold Arith.inverse Arith.divScalar
  rw [dot_nearlyB, if_neg one_ne_zero]
  congr 1
  have e : ∀ q : Quat, (doubleArith acos).quot q 1 = ⟨roundDouble q.x, roundDouble q.y, roundDouble q.z, roundDouble q.w⟩ := by
    intro q
    simp only [Arith.quot, div_one]
    rfl
  rw [e]
  ext
  · change roundDouble (-(7574423867897148 / 2 ^ 54)) = -(7574423867897148 / 2 ^ 54)
    rw [roundDouble_neg, round_xB]
  · change roundDouble (-0) = -0
    rw [roundDouble_neg, roundDouble_zero]
  · change roundDouble (-0) = -0
    rw [roundDouble_neg, roundDouble_zero]
  · exact round_wB

theorem product_nearly (acos : ℝ → ℝ) : ((doubleArith acos).mul nearlyA nearlyB.conj).w = 4503599627370497 / 2 ^ 52 := by
  unfold Arith.mul doubleArith nearlyA nearlyB Quat.conj
  dsimp only
  rw [mul_neg (7574423867897145 / 2 ^ 54), roundDouble_neg, neg_zero, mul_zero, mul_zero, roundDouble_zero, sub_zero, sub_zero, sub_neg_eq_add,
    roundDouble_eq (x := 7574423867897145 / 2 ^ 54 * (7574423867897148 / 2 ^ 54)) 55 6369560093874013 (by norm_num) (by norm_num)
      (by rw [abs_lt]; constructor <;> norm_num),
    roundDouble_eq (x := 8172310822647668 / 2 ^ 53 * (8172310822647667 / 2 ^ 53)) 53 7414809231272490 (by norm_num) (by norm_num)
      (by rw [abs_lt]; constructor <;> norm_num)]
  have e : roundDouble (((7414809231272490 : ℕ) : ℝ) / 2 ^ 53 + ((6369560093874013 : ℕ) : ℝ) / 2 ^ 55) = ((4503599627370497 : ℕ) : ℝ) / 2 ^ 52 :=
    roundDouble_eq 52 4503599627370497 (by norm_num) (by norm_num) (by rw [abs_lt]; constructor <;> norm_num)
  have e2 : roundDouble (((4503599627370497 : ℕ) : ℝ) / 2 ^ 52) = ((4503599627370497 : ℕ) : ℝ) / 2 ^ 52 :=
    roundDouble_eq 52 4503599627370497 (by norm_num) (by norm_num) (by rw [abs_lt]; constructor <;> norm_num)
  rw [e, e2, e2]
  norm_num

theorem normalize_of_dot_one (acos : ℝ → ℝ) {q : Quat} (h : (doubleArith acos).dot q q = 1) (hx : roundDouble q.x = q.x)
    (hy : roundDouble q.y = q.y) (hz : roundDouble q.z = q.z) (hw : roundDouble q.w = q.w) : (doubleArith acos).normalize q = q := by
  have hn : (doubleArith acos).norm q = 1 := by
    unfold Arith.norm
    rw [h, Real.sqrt_one]
    exact round_one
  unfold Arith.normalize
  rw [hn, if_pos (by norm_num)]
  unfold Arith.quot
  simp only [div_one]
  ext
  · exact hx
  · exact hy
  · exact hz
  · exact hw

theorem angle_nearly (acos : ℝ → ℝ) : (doubleArith acos).angleBetween nearlyA nearlyB = .error .nonFinite := by
  unfold Arith.angleBetween
  rw [if_neg, inverse_nearlyB, Py.ok_bind]
  · dsimp only
    rw [product_nearly, if_neg]
    norm_num
  · intro h
    have := h.2.2.1
    unfold npIsclose nearlyA nearlyB at this
    norm_num at this

/-- **C89** is refuted for almost equal orientations: there are two quaternions with `float64` entries, of length one up to `1e-15`, which `normalize`
leaves as they are and whose rotations differ by less than `1e-10` radians, for which `angle_between_quaternions` calls `np.arccos` with a
number above one, so that the angle, and with it the error of the orientation, is not a number. -/
theorem C89_angle_refuted (acos : ℝ → ℝ) : ∃ p q : Quat,
    (∀ x ∈ [p.x, p.y, p.z, p.w, q.x, q.y, q.z, q.w], Spec.IsDouble x) ∧ |Spec.len p - 1| ≤ 1e-15 ∧ |Spec.len q - 1| ≤ 1e-15 ∧
      0 < Spec.halfAngle p q ∧ 2 * Spec.halfAngle p q ≤ 1e-10 ∧
      (doubleArith acos).normalize p = p ∧ (doubleArith acos).normalize q = q ∧
      (doubleArith acos).angleBetween p q = .error .nonFinite ∧
      ∀ t s : Vec3, (doubleArith acos).orientationError ⟨t, p⟩ ⟨s, q⟩ = .error .nonFinite := by
  have nA : (doubleArith acos).normalize nearlyA = nearlyA :=
    normalize_of_dot_one acos (dot_nearlyA acos) round_xA roundDouble_zero round_z round_wA
  have nB : (doubleArith acos).normalize nearlyB = nearlyB :=
    normalize_of_dot_one acos (dot_nearlyB acos) round_xB roundDouble_zero roundDouble_zero round_wB
  have lenA : Spec.len nearlyA = Real.sqrt ((7574423867897145 / 2 ^ 54) ^ 2 + 0 ^ 2 + (1 / 2 ^ 36) ^ 2 + (8172310822647668 / 2 ^ 53) ^ 2) := rfl
  have lenB : Spec.len nearlyB = Real.sqrt ((7574423867897148 / 2 ^ 54) ^ 2 + 0 ^ 2 + 0 ^ 2 + (8172310822647667 / 2 ^ 53) ^ 2) := rfl
  have posA : 0 < Spec.len nearlyA := by rw [lenA]; apply Real.sqrt_pos.mpr; norm_num
  have posB : 0 < Spec.len nearlyB := by rw [lenB]; apply Real.sqrt_pos.mpr; norm_num
  have hC : ∀ x : ℝ, x = (nearlyA.x * nearlyB.x + nearlyA.y * nearlyB.y + nearlyA.z * nearlyB.z + nearlyA.w * nearlyB.w) /
      (Spec.len nearlyA * Spec.len nearlyB) → x < 1 ∧ 1 - 4e-22 ≤ x := by
    rintro x rfl
    have e : Spec.len nearlyA * Spec.len nearlyB = Real.sqrt (((7574423867897145 / 2 ^ 54) ^ 2 + 0 ^ 2 + (1 / 2 ^ 36) ^ 2 + (8172310822647668 / 2 ^ 53) ^ 2) *
        ((7574423867897148 / 2 ^ 54) ^ 2 + 0 ^ 2 + 0 ^ 2 + (8172310822647667 / 2 ^ 53) ^ 2)) := by
      rw [lenA, lenB, Real.sqrt_mul (by positivity)]
    have hD : nearlyA.x * nearlyB.x + nearlyA.y * nearlyB.y + nearlyA.z * nearlyB.z + nearlyA.w * nearlyB.w =
        7574423867897145 / 2 ^ 54 * (7574423867897148 / 2 ^ 54) + 8172310822647668 / 2 ^ 53 * (8172310822647667 / 2 ^ 53) := by
      unfold nearlyA nearlyB
      ring
    constructor
    · rw [div_lt_one (mul_pos posA posB), e, hD]
      apply Real.lt_sqrt_of_sq_lt
      norm_num
    · rw [le_div_iff₀ (mul_pos posA posB), e, hD, mul_comm, ← le_div_iff₀ (by norm_num)]
      apply Real.sqrt_le_iff.mpr
      constructor <;> norm_num
  obtain ⟨c1, c2⟩ := hC _ rfl
  refine ⟨nearlyA, nearlyB, ?_, ?_, ?_, ?_, ?_, nA, nB, angle_nearly acos, ?_⟩
  · have zero : Spec.IsDouble 0 := ⟨0, 0, by norm_num, by simp⟩
    have h1 := isDouble_div 7574423867897145 54 (by norm_num)
    have h2 := isDouble_div 1 36 (by norm_num)
    have h3 := isDouble_div 8172310822647668 53 (by norm_num)
    have h4 := isDouble_div 7574423867897148 54 (by norm_num)
    have h5 := isDouble_div 8172310822647667 53 (by norm_num)
    push_cast at h1 h2 h3 h4 h5
    intro x hx
    simp only [List.mem_cons, List.not_mem_nil, or_false] at hx
    rcases hx with rfl | rfl | rfl | rfl | rfl | rfl | rfl | rfl
    · exact h1
    · exact zero
    · exact h2
    · exact h3
    · exact h4
    · exact zero
    · exact zero
    · exact h5
  · rw [lenA, abs_le]
    constructor
    · have : (1 - 1e-15 : ℝ) ≤ Real.sqrt ((7574423867897145 / 2 ^ 54) ^ 2 + 0 ^ 2 + (1 / 2 ^ 36) ^ 2 + (8172310822647668 / 2 ^ 53) ^ 2) :=
        Real.le_sqrt_of_sq_le (by norm_num)
      linarith
    · have : Real.sqrt ((7574423867897145 / 2 ^ 54) ^ 2 + 0 ^ 2 + (1 / 2 ^ 36) ^ 2 + (8172310822647668 / 2 ^ 53) ^ 2) ≤ 1 + 1e-15 :=
        Real.sqrt_le_iff.mpr ⟨by norm_num, by norm_num⟩
      linarith
  · rw [lenB, abs_le]
    constructor
    · have : (1 - 1e-15 : ℝ) ≤ Real.sqrt ((7574423867897148 / 2 ^ 54) ^ 2 + 0 ^ 2 + 0 ^ 2 + (8172310822647667 / 2 ^ 53) ^ 2) :=
        Real.le_sqrt_of_sq_le (by norm_num)
      linarith
    · have : Real.sqrt ((7574423867897148 / 2 ^ 54) ^ 2 + 0 ^ 2 + 0 ^ 2 + (8172310822647667 / 2 ^ 53) ^ 2) ≤ 1 + 1e-15 :=
        Real.sqrt_le_iff.mpr ⟨by norm_num, by norm_num⟩
      linarith
  · exact Real.arccos_pos.mpr c1
  · have h := arccos_close (x := (nearlyA.x * nearlyB.x + nearlyA.y * nearlyB.y + nearlyA.z * nearlyB.z + nearlyA.w * nearlyB.w) /
      (Spec.len nearlyA * Spec.len nearlyB)) (y := 1) ⟨by norm_num at c2; linarith, c1.le⟩ ⟨by norm_num, le_rfl⟩
    rw [Real.arccos_one, sub_zero] at h
    have h2 : Real.sqrt (|(nearlyA.x * nearlyB.x + nearlyA.y * nearlyB.y + nearlyA.z * nearlyB.z + nearlyA.w * nearlyB.w) /
      (Spec.len nearlyA * Spec.len nearlyB) - 1| / 2) ≤ 1.5e-11 := by
      apply Real.sqrt_le_iff.mpr ⟨by norm_num, ?_⟩
      rw [abs_sub_comm, abs_of_pos (by linarith)]
      norm_num at c2 ⊢
      linarith
    have h3 := mul_le_mul_of_nonneg_left h2 Real.pi_pos.le
    have h4 := Real.pi_lt_d2
    have h5 := le_trans (le_abs_self _) (h.trans h3)
    unfold Spec.halfAngle
    norm_num at h4 h5 ⊢
    linarith
  · intro t s
    unfold Arith.orientationError
    dsimp only
    have wA : ¬ nearlyA.w < 0 := by unfold nearlyA; norm_num
    have wB : ¬ nearlyB.w < 0 := by unfold nearlyB; norm_num
    rw [nA, nB, if_neg wA, if_neg wB, angle_nearly, Py.error_bind]

end HandEye
