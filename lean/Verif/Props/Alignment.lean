import Verif.Props.PoseError

/-! # Properties C35-C36: errors of an alignment -/

namespace HandEye

/-- The steps of a successful `evaluate_alignment`. -/
theorem evaluateAlignment_eq_ok {ot pt : ℝ} {A B : List Pose} {r : ℝ × ℝ × List Bool} :
    evaluateAlignment ot pt A B = .ok r ↔ A.length = B.length ∧ A ≠ [] ∧
      ∃ es, List.Forall₂ (fun p e => computePoseError p.1 p.2 = .ok e) (A.zip B) es ∧
        r = (Real.sqrt ((es.map fun e => e.1 ^ 2).sum / A.length),
          Real.sqrt ((es.map fun e => e.2 ^ 2).sum / A.length),
          es.map fun e => decide (e.2 < ot ∧ e.1 < pt)) := by
  unfold evaluateAlignment
  constructor
  · intro h
    obtain ⟨_, h0, h⟩ := Py.bind_eq_ok.mp h
    obtain ⟨es, h1, h⟩ := Py.bind_eq_ok.mp h
    obtain ⟨mp, h2, h⟩ := Py.bind_eq_ok.mp h
    obtain ⟨mo, h3, h⟩ := Py.bind_eq_ok.mp h
    obtain ⟨hn, rfl⟩ := npDiv_eq_ok.mp h2
    obtain ⟨_, rfl⟩ := npDiv_eq_ok.mp h3
    refine ⟨pyAssert_eq_ok.mp h0, ?_, es, Py.mapM_eq_ok.mp h1, (Except.ok.inj h).symm⟩
    rintro rfl
    simp at hn
  · rintro ⟨h0, hA, es, h1, rfl⟩
    have hn : (A.length : ℝ) ≠ 0 := by simpa using hA
    rw [pyAssert_pos h0, Py.ok_bind, Py.mapM_eq_ok.mpr h1, Py.ok_bind]
    dsimp only
    rw [npDiv_ok hn, Py.ok_bind, npDiv_ok hn, Py.ok_bind]
    rfl

theorem sum_sq_le {α : Type} (l : List α) (f : α → ℝ) (M : ℝ) (h : ∀ x ∈ l, f x ^ 2 ≤ M) :
    (l.map fun x => f x ^ 2).sum ≤ l.length * M := by
  induction l with
  | nil => simp
  | cons a l ih =>
    have h1 := h a (List.mem_cons_self)
    have h2 := ih fun x hx => h x (List.mem_cons_of_mem _ hx)
    simp only [List.map_cons, List.sum_cons, List.length_cons, Nat.cast_add, Nat.cast_one]
    linarith

theorem sum_sq_nonneg {α : Type} (l : List α) (f : α → ℝ) : 0 ≤ (l.map fun x => f x ^ 2).sum := by
  apply List.sum_nonneg
  simp only [List.mem_map]
  rintro _ ⟨x, _, rfl⟩
  positivity

theorem sum_sq_zero {α : Type} (l : List α) (f : α → ℝ) :
    (l.map fun x => f x ^ 2).sum = 0 ↔ ∀ x ∈ l, f x = 0 := by
  induction l with
  | nil => simp
  | cons a l ih =>
    have := sum_sq_nonneg l f
    simp only [List.map_cons, List.sum_cons, List.mem_cons, forall_eq_or_imp, ← ih]
    constructor
    · intro h
      have h2 : (f a) ^ 2 = 0 := by nlinarith [sq_nonneg (f a)]
      exact ⟨by simpa using h2, by linarith⟩
    · rintro ⟨h1, h2⟩
      rw [h1, h2]; norm_num

/-- Root mean squares: square, zero, upper bound. -/
theorem rms_facts {α : Type} (l : List α) (f : α → ℝ) (hl : l ≠ []) (hf : ∀ x ∈ l, 0 ≤ f x) :
    0 ≤ Real.sqrt ((l.map fun x => f x ^ 2).sum / l.length) ∧
    l.length * Real.sqrt ((l.map fun x => f x ^ 2).sum / l.length) ^ 2 = (l.map fun x => f x ^ 2).sum ∧
    (Real.sqrt ((l.map fun x => f x ^ 2).sum / l.length) = 0 ↔ ∀ x ∈ l, f x = 0) ∧
    ∃ x ∈ l, Real.sqrt ((l.map fun x => f x ^ 2).sum / l.length) ≤ f x := by
  have hn : (0 : ℝ) < l.length := by exact_mod_cast List.length_pos_of_ne_nil hl
  have h0 := sum_sq_nonneg l f
  have h1 : 0 ≤ (l.map fun x => f x ^ 2).sum / l.length := by positivity
  refine ⟨Real.sqrt_nonneg _, ?_, ?_, ?_⟩
  · rw [Real.sq_sqrt h1]; field_simp
  · rw [Real.sqrt_eq_zero h1, div_eq_zero_iff, ← sum_sq_zero l f]
    constructor
    · rintro (h | h)
      · exact h
      · exact absurd h hn.ne'
    · exact Or.inl
  · by_contra hc
    push Not at hc
    have hs := Real.sqrt_nonneg ((l.map fun x => f x ^ 2).sum / l.length)
    have hsq := Real.sq_sqrt h1
    generalize hr : Real.sqrt ((l.map fun x => f x ^ 2).sum / l.length) = r at hc hs hsq
    have hlt : ∀ (m : List α), m ≠ [] → (∀ x ∈ m, 0 ≤ f x ∧ f x < r) →
        (m.map fun x => f x ^ 2).sum < m.length * r ^ 2 := by
      intro m
      induction m with
      | nil => intro h; exact absurd rfl h
      | cons a m ih =>
        intro _ hm
        obtain ⟨ha0, ha⟩ := hm a List.mem_cons_self
        have hlt' : f a ^ 2 < r ^ 2 := pow_lt_pow_left₀ ha ha0 (by norm_num)
        simp only [List.map_cons, List.sum_cons, List.length_cons, Nat.cast_add, Nat.cast_one]
        by_cases hm0 : m = []
        · subst hm0; simpa using hlt'
        · have := ih hm0 fun x hx => hm x (List.mem_cons_of_mem _ hx)
          linarith
    have := hlt l hl fun x hx => ⟨hf x hx, hc x hx⟩
    rw [hsq] at this
    rw [mul_div_cancel₀ _ hn.ne'] at this
    exact lt_irrefl _ this

theorem computePoseError_nonneg {A B : Pose} {e : ℝ × ℝ} (h : computePoseError A B = .ok e)
    (hA : A.q.norm > 1e-8) (hB : B.q.norm > 1e-8) : 0 ≤ e.1 ∧ 0 ≤ e.2 := by
  obtain ⟨d, h1, h2, -, -⟩ := C34_value A B hA hB
  rw [h] at h1
  cases h1
  exact ⟨Real.sqrt_nonneg _, h2⟩

/-- C35: two equally long non-empty lists of poses (with usable quaternions) are evaluated, and the
result is what the documentation says: a pose is flagged iff both of its errors are strictly below the
thresholds; the two numbers are the root mean squares of the errors, zero iff all errors are zero and
never above the largest error. -/
theorem C35_evaluation (ot pt : ℝ) (A B : List Pose) (hl : A.length = B.length) (hA : A ≠ [])
    (qA : ∀ p ∈ A, p.q.norm > 1e-8) (qB : ∀ p ∈ B, p.q.norm > 1e-8) :
    ∃ rp ro flags, ∃ es : List (ℝ × ℝ), evaluateAlignment ot pt A B = .ok (rp, ro, flags) ∧
      es.length = A.length ∧ flags.length = A.length ∧
      (∀ (i : ℕ) a b, A[i]? = some a → B[i]? = some b → ∃ e, es[i]? = some e ∧ computePoseError a b = .ok e) ∧
      (∀ (i : ℕ) (e : ℝ × ℝ), es[i]? = some e → (flags[i]? = some true ↔ e.1 < pt ∧ e.2 < ot)) ∧
      (0 ≤ rp ∧ A.length * rp ^ 2 = (es.map fun e => e.1 ^ 2).sum ∧ (rp = 0 ↔ ∀ e ∈ es, e.1 = 0) ∧
        ∃ e ∈ es, rp ≤ e.1) ∧
      (0 ≤ ro ∧ A.length * ro ^ 2 = (es.map fun e => e.2 ^ 2).sum ∧ (ro = 0 ↔ ∀ e ∈ es, e.2 = 0) ∧
        ∃ e ∈ es, ro ≤ e.2) := by
  have hq : ∀ p ∈ A.zip B, p.1.q.norm > 1e-8 ∧ p.2.q.norm > 1e-8 := fun p hp =>
    ⟨qA _ (List.of_mem_zip hp).1, qB _ (List.of_mem_zip hp).2⟩
  have hex : ∀ p : Pose × Pose, ∃ e, p ∈ A.zip B → computePoseError p.1 p.2 = .ok e := by
    intro p
    by_cases hp : p ∈ A.zip B
    · obtain ⟨d, h, -⟩ := C34_value p.1 p.2 (hq p hp).1 (hq p hp).2
      exact ⟨_, fun _ => h⟩
    · exact ⟨(0, 0), fun h => absurd h hp⟩
  choose g hg using hex
  have hF : List.Forall₂ (fun p e => computePoseError p.1 p.2 = .ok e) (A.zip B) ((A.zip B).map g) := by
    rw [List.forall₂_map_right_iff]
    exact List.forall₂_same.mpr hg
  have hlen : ((A.zip B).map g).length = A.length := by simp [hl]
  have hne : (A.zip B).map g ≠ [] := by
    intro h
    rw [h] at hlen
    exact hA (List.length_eq_zero_iff.mp hlen.symm)
  have hnn : ∀ e ∈ (A.zip B).map g, 0 ≤ e.1 ∧ 0 ≤ e.2 := by
    intro e he
    obtain ⟨p, hp, rfl⟩ := List.mem_map.mp he
    exact computePoseError_nonneg (hg p hp) (hq p hp).1 (hq p hp).2
  refine ⟨_, _, _, (A.zip B).map g, evaluateAlignment_eq_ok.mpr ⟨hl, hA, _, hF, rfl⟩, hlen,
    by rw [List.length_map, hlen], ?_, ?_, ?_, ?_⟩
  · intro i a b ha hb
    have hz : (A.zip B)[i]? = some (a, b) := List.getElem?_zip_eq_some.mpr ⟨ha, hb⟩
    refine ⟨g (a, b), by rw [List.getElem?_map, hz]; rfl, hg (a, b) (List.mem_of_getElem? hz)⟩
  · intro i e he
    rw [List.getElem?_map, he]
    simp [and_comm]
  · rw [← hlen]
    exact rms_facts _ (fun e => e.1) hne fun e he => (hnn e he).1
  · rw [← hlen]
    exact rms_facts _ (fun e => e.2) hne fun e he => (hnn e he).2

/-- C35: lists of different lengths, or no poses at all, are never evaluated. -/
theorem C35_rejects (ot pt : ℝ) (A B : List Pose) (h : A.length ≠ B.length ∨ A = []) :
    ¬ ∃ r, evaluateAlignment ot pt A B = .ok r := by
  rintro ⟨r, hr⟩
  obtain ⟨h1, h2, -⟩ := evaluateAlignment_eq_ok.mp hr
  rcases h with h | h
  · exact h h1
  · exact h2 h

/-- One perfect pair and one pair 4 apart: RMSE `√8`, first pair an inlier for a threshold of 2. -/
example : evaluateAlignment 1 2 [⟨⟨0, 0, 0⟩, ⟨0, 0, 0, 1⟩⟩, ⟨⟨0, 0, 0⟩, ⟨0, 0, 0, 1⟩⟩]
    [⟨⟨0, 0, 0⟩, ⟨0, 0, 0, 1⟩⟩, ⟨⟨0, 4, 0⟩, ⟨0, 0, 0, 1⟩⟩] = .ok (Real.sqrt 8, 0, [true, false]) := by
  rw [evaluateAlignment_eq_ok]
  refine ⟨rfl, by simp, [(0, 0), (4, 0)], .cons (C34_self _) (.cons ?_ .nil), ?_⟩
  · dsimp only
    rw [computePoseError_eq, C11_self, Py.ok_bind]
    simp [Spec.dist, npDegrees]
  · norm_num

/-- Poses that agree up to the sign of a unit quaternion have no error. -/
theorem poseError_same {A B : Pose} (hp : A.pos = B.pos) (hu : B.q.norm = 1)
    (hq : A.q = B.q ∨ A.q = -B.q) : computePoseError A B = .ok (0, 0) := by
  rcases hq with hq | hq
  · have : A = B := by cases A; cases B; cases hp; cases hq; rfl
    rw [this]; exact C34_self _
  · have d1 := Quat.norm_eq_one.mp hu
    have hpos : posQ A.q = posQ B.q ∨ posQ A.q = -posQ B.q := by
      unfold posQ
      rw [hq, Quat.normalize_unit d1, Quat.normalize_unit (by simpa using d1)]
      split <;> split <;> simp
    have hd : Spec.dist A.pos B.pos = 0 := by rw [hp]; simp [Spec.dist]
    have hpi := Real.pi_pos
    rw [computePoseError_eq, hd]
    rcases hpos with h | h
    · rw [h, C11_self, Py.ok_bind]; simp [npDegrees]
    · have hu' : (posQ A.q).norm = 1 := by
        rw [Quat.norm_eq_one]
        apply posQ_dot
        rw [hq, Quat.norm_neg, hu]; norm_num
      rw [show posQ B.q = -posQ A.q by rw [h]; simp, C11_antipode _ hu', Py.ok_bind]
      have : npDegrees (2 * Real.pi) = 360 := by unfold npDegrees; field_simp; norm_num
      rw [this]
      norm_num

theorem toPose_pm {a b : DQuat} (hb : Spec.IsUnit b) (h : a = b ∨ a = -b) :
    ∃ p p', (Prod.fst <$> a.toPose : Py Pose) = .ok p ∧ (Prod.fst <$> b.toPose : Py Pose) = .ok p' ∧
      p.pos = p'.pos ∧ p'.q.norm = 1 ∧ (p.q = p'.q ∨ p.q = -p'.q) := by
  have hbr := DQuat.IsUnit.rot hb
  rcases h with rfl | rfl
  · rw [DQuat.toPose_unit hbr]
    refine ⟨_, _, rfl, rfl, rfl, ?_, Or.inl rfl⟩
    rw [Quat.norm_eq_one]
    dsimp only
    split <;> simpa using hbr
  · rw [DQuat.toPose_unit hbr, DQuat.toPose_unit (by simpa using hbr)]
    refine ⟨_, _, rfl, rfl, ?_, ?_, ?_⟩
    · ext <;> simp
    · rw [Quat.norm_eq_one]
      dsimp only
      split <;> simpa using hbr
    · dsimp only
      split <;> split <;> simp

theorem enforcePositive_unit {a : DQuat} (h : Spec.IsUnit a) :
    a.enforcePositiveQRotW = .ok (posW a) := by
  have hn : a.rot.norm > 1e-8 := by rw [DQuat.IsUnit.norm h]; norm_num
  unfold DQuat.enforcePositiveQRotW
  rw [DQuat.norm_ok hn, Py.ok_bind, pyAssert_pos hn, Py.ok_bind]
  rfl

/-- The hand poses that a calibration `X` predicts from the eye poses, on exact data. -/
theorem alignedHandPose_exact {b w X e : DQuat} (hX : Spec.IsUnit X) (hb : Spec.IsUnit b)
    (h : Spec.HandEyeEq b X w ∨ Spec.HandEyeEq b X (-w)) (he : e = X.conj ∨ e = -X.conj) :
    ∃ u, alignedHandPose e b w = .ok u ∧ (u = X.conj * b ∨ u = -(X.conj * b)) := by
  have hw' : ∀ w, Spec.HandEyeEq b X w → w * X.conj = X.conj * b := by
    intro w h
    have h1 := handEyeEq_iff.mp h
    calc w * X.conj = X.conj * X * w * X.conj := by rw [DQuat.conj_mul_unit hX, one_mul]
      _ = X.conj * (X * w) * X.conj := by rw [mul_assoc X.conj X w]
      _ = X.conj * (b * X) * X.conj := by rw [h1]
      _ = X.conj * b * (X * X.conj) := by rw [← mul_assoc, ← mul_assoc]
      _ = X.conj * b := by rw [DQuat.mul_conj_unit hX, mul_one]
  have hu : Spec.IsUnit (X.conj * b) := DQuat.isUnit_mul (DQuat.isUnit_conj hX) hb
  have hw : w * X.conj = X.conj * b ∨ w * X.conj = -(X.conj * b) := by
    rcases h with h | h
    · exact Or.inl (hw' w h)
    · right; rw [← hw' _ h, neg_mul, neg_neg]
  have hwe : w * e = X.conj * b ∨ w * e = -(X.conj * b) := by
    rcases he with rfl | rfl
    · exact hw
    · rcases hw with hw | hw
      · right; rw [mul_neg, hw]
      · left; rw [mul_neg, hw, neg_neg]
  have hue : Spec.IsUnit (w * e) := by
    rcases hwe with h | h <;> rw [h]
    · exact hu
    · exact DQuat.isUnit_neg hu
  unfold alignedHandPose
  rw [DQuat.normalize_unit (DQuat.IsUnit.rot hue), Py.ok_bind]
  refine ⟨_, rfl, ?_⟩
  split
  · rcases hwe with h | h <;> rw [h]
    · exact Or.inr rfl
    · exact Or.inl (neg_neg _)
  · exact hwe

/-- C36: for exact data up to the signs of the eye poses, whose hand poses are expressed relative to the first one,
and the true calibration X, both pose lists are computed, corresponding poses have no error, and the evaluation
reports RMSE 0 and only inliers for all positive thresholds. -/
theorem C36_perfect_up_to_sign (bs ws : List DQuat) (X : DQuat) (hX : Spec.IsUnit X)
    (hb : ∀ b ∈ bs, Spec.IsUnit b)
    (h : List.Forall₂ (fun b w => Spec.HandEyeEq b X w ∨ Spec.HandEyeEq b X (-w)) bs ws)
    (h0 : bs.head? = some ⟨⟨0, 0, 0, 1⟩, ⟨0, 0, 0, 0⟩⟩) :
    ∃ pB pW, getAlignedPoses bs ws X = .ok (pB, pW) ∧ pB.length = bs.length ∧
      List.Forall₂ (fun a b => computePoseError a b = .ok (0, 0)) pB pW ∧
      ∀ ot pt : ℝ, 0 < ot → 0 < pt →
        evaluateAlignment ot pt pB pW = .ok (0, 0, List.replicate bs.length true) := by
  have hlen : bs.length = ws.length := h.length_eq
  have hne : bs ≠ [] := by rintro rfl; simp at h0
  have hXc := DQuat.isUnit_conj hX
  -- the predicted hand poses
  have hex : ∀ p : DQuat × DQuat, ∃ u, p ∈ bs.zip ws → alignedHandPose (posW X.conj) p.1 p.2 = .ok u ∧
      (u = X.conj * p.1 ∨ u = -(X.conj * p.1)) := by
    intro p
    by_cases hp : p ∈ bs.zip ws
    · obtain ⟨u, hu⟩ := alignedHandPose_exact hX (hb _ (List.of_mem_zip hp).1)
        ((List.forall₂_iff_zip.mp h).2 hp) (posW_eq_or X.conj)
      exact ⟨u, fun _ => hu⟩
    · exact ⟨p.1, fun h => absurd h hp⟩
  choose g hg using hex
  have hm : (bs.zip ws).mapM (fun p => alignedHandPose (posW X.conj) p.1 p.2) = .ok ((bs.zip ws).map g) :=
    Py.mapM_ok fun p hp => (hg p hp).1
  have hgu : ∀ p ∈ bs.zip ws, Spec.IsUnit (g p) := by
    intro p hp
    have := DQuat.isUnit_mul hXc (hb _ (List.of_mem_zip hp).1)
    rcases (hg p hp).2 with h | h <;> rw [h]
    · exact this
    · exact DQuat.isUnit_neg this
  have hpos : pyPos ((bs.zip ws).map g).length 0 = some 0 := by
    have : 0 < bs.length := List.length_pos_of_ne_nil hne
    exact pyPos_natCast (k := 0) (by simp [← hlen, this])
  have hal := align_unit hpos (fun a ha => by
    obtain ⟨p, hp, rfl⟩ := List.mem_map.mp ha; exact hgu p hp) true
  obtain ⟨b0, bs', rfl⟩ := List.exists_cons_of_ne_nil hne
  obtain ⟨w0, ws', rfl⟩ := List.exists_cons_of_ne_nil (l := ws) (by rintro rfl; simp at hlen)
  have hb0 : b0 = 1 := by
    simp only [List.head?_cons, Option.some.injEq] at h0
    rw [h0]; rfl
  rw [List.rotate_zero] at hal
  have hg0 : g (b0, w0) = X.conj ∨ g (b0, w0) = -X.conj := by
    have := (hg (b0, w0) (by simp)).2
    simpa [hb0] using this
  -- the rebased predictions are the given hand poses up to sign
  have hreb : ∀ p ∈ (b0 :: bs').zip (w0 :: ws'),
      rebase (g (b0, w0)).conj true (g p) = p.1 ∨ rebase (g (b0, w0)).conj true (g p) = -p.1 := by
    intro p hp
    have hone : ∀ a b : DQuat, (a = X.conj ∨ a = -X.conj) → (b = X.conj * p.1 ∨ b = -(X.conj * p.1)) →
        a.conj * b = p.1 ∨ a.conj * b = -p.1 := by
      have hc : X.conj.conj * (X.conj * p.1) = p.1 := by
        rw [DQuat.conj_conj, ← mul_assoc, DQuat.mul_conj_unit hX, one_mul]
      have hn : (-X.conj).conj = -X.conj.conj := DQuat.ext' (by simp) (by simp)
      rintro a b (rfl | rfl) (rfl | rfl)
      · exact Or.inl hc
      · right; rw [mul_neg, hc]
      · right; rw [hn, neg_mul, hc]
      · left; rw [hn, neg_mul_neg, hc]
    have h1 := hone _ _ hg0 (hg p hp).2
    rcases rebase_eq_or (g (b0, w0)).conj (g p) true with h | h <;> rw [h]
    · exact h1
    · rcases h1 with h1 | h1 <;> rw [h1]
      · exact Or.inr rfl
      · exact Or.inl (neg_neg _)
  have hp2 : ∀ p : DQuat × DQuat, ∃ q : Pose × Pose, p ∈ (b0 :: bs').zip (w0 :: ws') →
      (Prod.fst <$> (rebase (g (b0, w0)).conj true (g p)).toPose : Py Pose) = .ok q.2 ∧
      (Prod.fst <$> p.1.toPose : Py Pose) = .ok q.1 ∧ computePoseError q.1 q.2 = .ok (0, 0) := by
    intro p
    by_cases hp : p ∈ (b0 :: bs').zip (w0 :: ws')
    · have hbu := hb _ (List.of_mem_zip hp).1
      obtain ⟨q, q', h1, h2, h3, h4, h5⟩ := toPose_pm hbu (hreb p hp)
      refine ⟨(q', q), fun _ => ⟨h1, h2, poseError_same h3.symm ?_ ?_⟩⟩
      · rcases h5 with h5 | h5 <;> dsimp only <;> rw [h5]
        · exact h4
        · rw [Quat.norm_neg]; exact h4
      · rcases h5 with h5 | h5
        · exact Or.inl h5.symm
        · right; dsimp only; rw [h5, neg_neg]
    · exact ⟨⟨⟨p.1.rot.vec, p.1.rot⟩, ⟨p.1.rot.vec, p.1.rot⟩⟩, fun h => absurd h hp⟩
  choose k hk using hp2
  have hB : (b0 :: bs').mapM (fun d => (Prod.fst <$> d.toPose : Py Pose)) =
      .ok ((((b0 :: bs').zip (w0 :: ws')).map k).map Prod.fst) := by
    have : (b0 :: bs') = ((b0 :: bs').zip (w0 :: ws')).map Prod.fst := by
      rw [List.map_fst_zip (by rw [hlen])]
    rw [Py.mapM_eq_ok, List.map_map, List.forall₂_map_right_iff]
    conv => arg 2; rw [this]
    rw [List.forall₂_map_left_iff]
    exact List.forall₂_same.mpr fun p hp => (hk p hp).2.1
  have hW : (((b0 :: bs').zip (w0 :: ws')).map g |>.map (rebase (g (b0, w0)).conj true)).mapM
      (fun d => (Prod.fst <$> d.toPose : Py Pose)) =
      .ok ((((b0 :: bs').zip (w0 :: ws')).map k).map Prod.snd) := by
    rw [Py.mapM_eq_ok, List.map_map, List.map_map, List.forall₂_map_right_iff, List.forall₂_map_left_iff]
    exact List.forall₂_same.mpr fun p hp => (hk p hp).1
  have hF : List.Forall₂ (fun a b => computePoseError a b = .ok (0, 0))
      ((((b0 :: bs').zip (w0 :: ws')).map k).map Prod.fst)
      ((((b0 :: bs').zip (w0 :: ws')).map k).map Prod.snd) := by
    rw [List.map_map, List.map_map, List.forall₂_map_right_iff, List.forall₂_map_left_iff]
    exact List.forall₂_same.mpr fun p hp => (hk p hp).2.2
  have hzl : ((b0 :: bs').zip (w0 :: ws')).length = (b0 :: bs').length := by
    rw [List.length_zip, hlen, min_self]
  refine ⟨_, _, ?_, ?_, hF, ?_⟩
  · unfold getAlignedPoses
    rw [pyAssert_pos hlen.symm, Py.ok_bind, DQuat.inverse_unit hX, Py.ok_bind,
      DQuat.normalize_unit (DQuat.IsUnit.rot hXc), Py.ok_bind, enforcePositive_unit hXc, Py.ok_bind, hm,
      Py.ok_bind]
    rw [hal, Py.ok_bind]
    have e : (((b0 :: bs').zip (w0 :: ws')).map g)[0]'(pyPos_some hpos).1 = g (b0, w0) := rfl
    rw [e, hW, Py.ok_bind, hB]
    rfl
  · rw [List.length_map, List.length_map, hzl]
  · intro ot pt hot hpt
    rw [evaluateAlignment_eq_ok]
    refine ⟨hF.length_eq, by simp, List.replicate (b0 :: bs').length (0, 0), ?_, ?_⟩
    · rw [← hzl]
      rw [List.zip_map', ← List.map_const']
      rw [List.map_map, List.forall₂_map_right_iff, List.forall₂_map_left_iff]
      exact List.forall₂_same.mpr fun p hp => (hk p hp).2.2
    · simp [hot, hpt]

/-- C36, for exact data. -/
theorem C36_perfect_calibration (bs ws : List DQuat) (X : DQuat) (hX : Spec.IsUnit X)
    (hb : ∀ b ∈ bs, Spec.IsUnit b) (h : Spec.Exact bs ws X)
    (h0 : bs.head? = some ⟨⟨0, 0, 0, 1⟩, ⟨0, 0, 0, 0⟩⟩) :
    ∃ pB pW, getAlignedPoses bs ws X = .ok (pB, pW) ∧ pB.length = bs.length ∧
      List.Forall₂ (fun a b => computePoseError a b = .ok (0, 0)) pB pW ∧
      ∀ ot pt : ℝ, 0 < ot → 0 < pt →
        evaluateAlignment ot pt pB pW = .ok (0, 0, List.replicate bs.length true) :=
  C36_perfect_up_to_sign bs ws X hX hb (h.imp fun _ _ => Or.inl) h0

/-- The sample data of C25-C28 meets the hypotheses. -/
example : ∃ pB pW, getAlignedPoses sampleB sampleW sampleX = .ok (pB, pW) ∧ pB.length = 3 ∧
    evaluateAlignment 1 0.02 pB pW = .ok (0, 0, [true, true, true]) := by
  obtain ⟨h1, h2, -, -⟩ := sample_data
  obtain ⟨pB, pW, h, hl, -, he⟩ := C36_perfect_calibration sampleB sampleW sampleX h1 (by
    simp only [sampleB, List.forall_mem_cons]
    refine ⟨?_, ?_, ?_, by simp⟩ <;> rw [DQuat.isUnit_iff] <;> norm_num [Quat.dot]) h2 rfl
  exact ⟨pB, pW, h, hl, he 1 0.02 (by norm_num) (by norm_num)⟩

end HandEye
