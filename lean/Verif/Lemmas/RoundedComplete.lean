import Verif.Lemmas.RoundedBaseline
import Verif.Model.RoundedRansac
import Verif.Props.RoundedDual
import Verif.Props.HandEye2
import Verif.Props.Ransac3

/-! # Lemmas: the scalar parts of recorded pairs of poses after the alignment, in floating-point arithmetic -/

open Quaternion

namespace HandEye

theorem Spec.Machine.fl_zero {u : ℝ} {A : Arith} (h : Spec.Machine u A) : A.fl 0 = 0 := by
  have := h.rounds 0
  rw [abs_zero, mul_zero, sub_zero] at this
  exact abs_nonpos_iff.mp this

/-- Half of a doubled number. -/
theorem half_double_near {u : ℝ} {A : Arith} (h : Spec.Machine u A) (x : ℝ) : |A.fl (0.5 * A.fl (x + x)) - x| ≤ 2.01 * u * |x| := by
  have hu := h.nonneg
  have hs := h.small
  have h1 := h.rounds (x + x)
  have h2 := h.rounds (0.5 * A.fl (x + x))
  have e : |x + x| = 2 * |x| := by rw [← two_mul, abs_mul, abs_two]
  rw [e] at h1
  have h3 : |0.5 * A.fl (x + x) - x| ≤ u * |x| := by
    rw [show 0.5 * A.fl (x + x) - x = 0.5 * (A.fl (x + x) - (x + x)) by ring, abs_mul, abs_of_pos (by norm_num : (0 : ℝ) < 0.5)]
    linarith
  have h4 : |0.5 * A.fl (x + x)| ≤ (1 + u) * |x| := by
    have := abs_sub_abs_le_abs_sub (0.5 * A.fl (x + x)) x
    linarith
  have h5 := abs_sub_le (A.fl (0.5 * A.fl (x + x))) (0.5 * A.fl (x + x)) x
  have h6 := mul_le_mul_of_nonneg_left h4 hu
  have h7 : u * (u * |x|) ≤ 1 / 1000 * (u * |x|) := mul_le_mul_of_nonneg_right hs (by positivity)
  have h8 : 0 ≤ u * |x| := by positivity
  rw [show u * ((1 + u) * |x|) = u * |x| + u * (u * |x|) by ring] at h6
  rw [show 2.01 * u * |x| = 2.01 * (u * |x|) by ring]
  linarith

/-- What `scalar` returns: it never raises. -/
theorem scalar_near {u : ℝ} {A : Arith} (h : Spec.Machine u A) (a : DQuat) :
    ∃ r d, A.scalar a = .ok ⟨⟨0, 0, 0, r⟩, ⟨0, 0, 0, d⟩⟩ ∧ |r - a.rot.w| ≤ 2.01 * u * |a.rot.w| ∧ |d - a.dual.w| ≤ 2.01 * u * |a.dual.w| := by
  refine ⟨A.fl (0.5 * A.fl (a.rot.w + a.rot.w)), A.fl (0.5 * A.fl (a.dual.w + a.dual.w)), ?_, half_double_near h _, half_double_near h _⟩
  unfold Arith.scalar
  simp only [Arith.smul, Arith.add, Quat.conj, add_neg_cancel, h.fl_zero, mul_zero]
  rw [pyAssert_pos]
  · rfl
  · norm_num [npIsclose]

/-- Nearby scalar parts match. -/
theorem scalarMatch_near {u tol : ℝ} {A : Arith} (h : Spec.Machine u A) (ht : 0 ≤ tol) {w b : DQuat}
    (h1 : |w.rot.w - b.rot.w| + 2.01 * u * (|w.rot.w| + |b.rot.w|) ≤ tol) (h2 : |w.dual.w - b.dual.w| + 2.01 * u * (|w.dual.w| + |b.dual.w|) ≤ tol) :
    A.scalarMatch tol w b = .ok true := by
  obtain ⟨r, d, e1, r1, d1⟩ := scalar_near h w
  obtain ⟨r', d', e2, r2, d2⟩ := scalar_near h b
  unfold Arith.scalarMatch
  rw [e1, e2]
  have key : ∀ x x' y y' : ℝ, |x - y| ≤ 2.01 * u * |y| → |x' - y'| ≤ 2.01 * u * |y'| → |y - y'| + 2.01 * u * (|y| + |y'|) ≤ tol →
      |x - x'| ≤ tol + 1e-5 * |x'| := by
    intro x x' y y' k1 k2 k3
    have k4 := abs_sub_le x y x'
    have k5 := abs_sub_le y y' x'
    rw [abs_sub_comm y' x'] at k5
    have k6 : (0 : ℝ) ≤ 1e-5 * |x'| := by positivity
    nlinarith
  have hz : |(0 : ℝ) - 0| ≤ tol + 1e-5 * |(0 : ℝ)| := by simpa using ht
  have hc : DQuat.allclose ⟨⟨0, 0, 0, r⟩, ⟨0, 0, 0, d⟩⟩ ⟨⟨0, 0, 0, r'⟩, ⟨0, 0, 0, d'⟩⟩ tol :=
    ⟨⟨hz, hz, hz, key _ _ _ _ r1 r2 h1⟩, hz, hz, hz, key _ _ _ _ d1 d2 h2⟩
  simp only [Py.ok_bind, Py.pure_eq, decide_eq_true hc]

/-- The aligned poses have no negative scalar parts. -/
theorem Arith.rebase_w_nonneg (A : Arith) (inv a : DQuat) : 0 ≤ (A.rebase inv true a).rot.w := by
  unfold Arith.rebase
  simp only [if_true]
  split_ifs with h
  · rw [DQuat.neg_rot, Quat.neg_w]; linarith
  · exact not_lt.mp h

theorem alignPaths_w_nonneg {A : Arith} {v l : List DQuat} {i : ℤ} (h : A.alignPaths v i true = .ok l) : ∀ a ∈ l, 0 ≤ a.rot.w := by
  obtain ⟨k, a, inv, _, _, _, rfl⟩ := alignPaths_ok h
  intro c hc
  obtain ⟨d, _, rfl⟩ := List.mem_map.mp hc
  exact Arith.rebase_w_nonneg A inv d

/-- The scalar parts of such a pair. -/
theorem goodPair_match {u tol η D : ℝ} {A : Arith} (h : Spec.Machine u A) (hη : 0 ≤ η) (hD : 0 ≤ D) (hε : 2 * η + 5 * u * (1 + 2 * D + η) ≤ tol) {X : DQuat}
    (hX : Spec.IsUnit X) {s : DQuat × DQuat} (hs : GoodPair η η D X s) (p1 : 0 ≤ s.1.rot.w) (p2 : 0 ≤ s.2.rot.w) :
    A.scalarMatch tol s.2 s.1 = .ok true ∧ A.scalarMatch tol s.1 s.2 = .ok true := by
  have hu := h.nonneg
  obtain ⟨b₀, w₀, e, n1, n2, t, r1, d1, r2, d2⟩ := hs
  obtain ⟨s1, s2⟩ := C24_scalar_parts b₀ X w₀ hX e
  obtain ⟨n3, n4⟩ := nearDQ_parts hη n1
  have c1 := (Arith.abs_component (s.1.rot - b₀.rot)).2.2.2
  have c2 := (Arith.abs_component (s.1.dual - b₀.dual)).2.2.2
  rw [Quat.toH_sub, Quat.sub_w] at c1 c2
  have b1 := (abs_le.mp (c1.trans n3))
  have hbpos : η < b₀.rot.w := by
    rcases lt_abs.mp t with h | h
    · exact h
    · linarith [b1.1, b1.2]
  have n5 : Spec.NearDQ η s.2 w₀ := by
    rcases n2 with n2 | ⟨_, n2⟩
    · exact n2
    · exfalso
      have hn : Spec.NearDQ η s.2 (-w₀) := by
        unfold Spec.NearDQ
        refine le_trans (le_of_eq (Finset.sum_congr rfl fun j _ => ?_)) n2
        rw [vec8_neg]
        ring
      obtain ⟨n6, _⟩ := nearDQ_parts hη hn
      have c3 := (Arith.abs_component (s.2.rot - (-w₀).rot)).2.2.2
      rw [Quat.toH_sub, Quat.sub_w, DQuat.neg_rot, Quat.neg_w] at c3
      have := (abs_le.mp (c3.trans n6)).2
      linarith
  obtain ⟨n6, n7⟩ := nearDQ_parts hη n5
  have c3 := (Arith.abs_component (s.2.rot - w₀.rot)).2.2.2
  have c4 := (Arith.abs_component (s.2.dual - w₀.dual)).2.2.2
  rw [Quat.toH_sub, Quat.sub_w] at c3 c4
  have m1 := (Arith.abs_component b₀.rot).2.2.2
  have m2 := (Arith.abs_component b₀.dual).2.2.2
  rw [r1] at m1
  have key : ∀ {x y z M : ℝ}, |x - z| ≤ η → |y - z| ≤ η → |z| ≤ M → M ≤ 1 + 2 * D → |y - x| + 2.01 * u * (|y| + |x|) ≤ tol := by
    intro x y z M k1 k2 k3 k4
    have k5 := abs_sub_le y z x
    rw [abs_sub_comm z x] at k5
    have k6 := abs_sub_abs_le_abs_sub x z
    have k7 := abs_sub_abs_le_abs_sub y z
    have k8 : u * (|y| + |x|) ≤ u * (2 * (1 + 2 * D + η)) := mul_le_mul_of_nonneg_left (by linarith) hu
    have k9 : 0 ≤ u * (1 + 2 * D + η) := by positivity
    nlinarith
  have ht : 0 ≤ tol := le_trans (by positivity) hε
  rw [← s1] at c3
  rw [← s2] at c4
  refine ⟨scalarMatch_near h ht (key (c1.trans n3) (c3.trans n6) m1 (by linarith)) (key (c2.trans n4) (c4.trans n7) (m2.trans d1) (by linarith)),
    scalarMatch_near h ht (key (c3.trans n6) (c1.trans n3) m1 (by linarith)) (key (c4.trans n7) (c2.trans n4) (m2.trans d1) (by linarith))⟩

/-- The recorded poses can be aligned at any of them. -/
theorem align_recorded {u δ θ D : ℝ} {A : Arith} (h : Spec.Machine u A) (hu : u ≤ 4e-10) (hδ : δ ≤ 1 / 100) (hD : 60 * u * (D + θ) ≤ 1e-8) (enf : Bool) {v : List DQuat}
    (hv : ∀ a ∈ v, ∃ a₀, Spec.RecordedPose δ θ D a a₀) {i : ℤ} {k : ℕ} (hk : Spec.Names v.length i k) :
    ∃ l, A.alignPaths v i enf = .ok l := by
  obtain ⟨a, ha⟩ : ∃ a, v[k]? = some a := ⟨_, List.getElem?_eq_getElem hk.1⟩
  obtain ⟨a₀, ra⟩ := hv a (List.mem_of_getElem? ha)
  have hd := ra.dual
  have hs := ra.size
  rw [gap_eq] at hd
  rw [len_eq] at hs
  have hle : Spec.len a.dual ≤ D + θ := by
    rw [len_eq]
    have := norm_sub_norm_le a.dual.toH a₀.dual.toH
    linarith
  have hlen : |Spec.len a.rot - 1| ≤ 1 / 100 := by
    have hr := ra.rot
    rw [gap_eq] at hr
    have := (abs_norm_sub_norm_le a.rot.toH a₀.rot.toH).trans (hr.trans hδ)
    rwa [(isUnit_norm ra.unit).1, ← len_eq] at this
  obtain ⟨l, _, hl, _⟩ := C90_align h hu v i k hk a ha hlen
    (le_trans (mul_le_mul_of_nonneg_left hle (by linarith [h.nonneg])) hD) enf
  exact ⟨l, hl⟩

/-- All scalar parts of recorded pairs match after an alignment. -/
theorem aligned_match {A : Arith} {u δ θ D tol : ℝ} (h : Spec.Machine u A) (hu : u ≤ 4e-10) (hδ0 : 0 ≤ δ) (hδ : δ ≤ 1 / 100) (hθ : 0 ≤ θ) (hD0 : 0 ≤ D)
    (hD : 60 * u * (D + θ) ≤ 1e-8) (hε : 2 * Spec.relativeError u δ θ D + 5 * u * (1 + 2 * D + Spec.relativeError u δ θ D) ≤ tol) {g X : DQuat}
    (hg : Spec.IsUnit g) (hX : Spec.IsUnit X) {L L₀ : List (DQuat × DQuat)} (hmem : ∀ q ∈ L, ∃ q₀ ∈ L₀, Spec.RecordedPair δ θ D q q₀)
    (hf : ∀ p ∈ L₀, Spec.FitsMotion g X p) (ht : ∀ p ∈ L₀, ∀ q ∈ L₀, Spec.relativeError u δ θ D < Spec.cosHalf p.1.rot q.1.rot) {i : ℤ} {k : ℕ}
    (hk : Spec.Names L.length i k) :
    ∃ bs ws, A.alignPaths (L.map Prod.fst) i true = .ok bs ∧ A.alignPaths (L.map Prod.snd) i true = .ok ws ∧ bs.length = L.length ∧ ws.length = L.length ∧
      ∀ s ∈ ws.zip bs, A.scalarMatch tol s.1 s.2 = .ok true ∧ A.scalarMatch tol s.2 s.1 = .ok true := by
  obtain ⟨bs, hb⟩ := align_recorded (A := A) (δ := δ) (v := L.map Prod.fst) (i := i) (k := k) h hu hδ hD true (by
    intro a ha
    obtain ⟨q, hq, rfl⟩ := List.mem_map.mp ha
    obtain ⟨q₀, _, r⟩ := hmem q hq
    exact ⟨_, r.1⟩) (by rwa [List.length_map])
  obtain ⟨ws, hw⟩ := align_recorded (A := A) (δ := δ) (v := L.map Prod.snd) (i := i) (k := k) h hu hδ hD true (by
    intro a ha
    obtain ⟨q, hq, rfl⟩ := List.mem_map.mp ha
    obtain ⟨q₀, _, r⟩ := hmem q hq
    exact ⟨_, r.2⟩) (by rwa [List.length_map])
  obtain ⟨l1, l2, hgood⟩ := aligned_pairs h hδ hg hX hmem hf ht hb hw
  refine ⟨bs, ws, hb, hw, l1, l2, ?_⟩
  intro s hs
  rw [← List.zip_swap, List.mem_map] at hs
  obtain ⟨t, ht', rfl⟩ := hs
  have p1 := alignPaths_w_nonneg hb _ (List.of_mem_zip (a := t.1) (b := t.2) ht').1
  have p2 := alignPaths_w_nonneg hw _ (List.of_mem_zip (a := t.1) (b := t.2) ht').2
  exact goodPair_match h (relativeError_nonneg h.nonneg hδ0 hθ hD0) hD0 hε hX (hgood t ht') p1 p2

/-- All flags are true. -/
theorem flags_true {A : Arith} {tol : ℝ} {l : List (DQuat × DQuat)} (h : ∀ s ∈ l, A.scalarMatch tol s.1 s.2 = .ok true) :
    l.mapM (fun p => A.scalarMatch tol p.1 p.2) = .ok (List.replicate l.length true) := by
  rw [Py.mapM_ok (g := fun _ => true) h, List.map_const']

theorem allMatch_true {A : Arith} {tol : ℝ} : ∀ {ws bs : List DQuat}, (∀ s ∈ ws.zip bs, A.scalarMatch tol s.1 s.2 = .ok true) →
    A.allMatch tol ws bs = .ok true
  | [], _, _ => by rw [Arith.allMatch]; rfl; simp
  | _ :: _, [], _ => by rw [Arith.allMatch]; rfl; simp
  | w :: ws, b :: bs, h => by
    rw [Arith.allMatch, h (w, b) (by simp), Py.ok_bind, if_pos rfl]
    exact allMatch_true fun s hs => h s (by simp [hs])

/-- What a match means for the assertions of the solver. -/
theorem scalarMatch_true {A : Arith} {tol : ℝ} {w b : DQuat} (h : A.scalarMatch tol w b = .ok true) :
    ∃ sw sb, A.scalar w = .ok sw ∧ A.scalar b = .ok sb ∧ sw.allclose sb tol := by
  unfold Arith.scalarMatch at h
  obtain ⟨sw, h1, h⟩ := Py.bind_eq_ok.mp h
  obtain ⟨sb, h2, h⟩ := Py.bind_eq_ok.mp h
  exact ⟨sw, sb, h1, h2, of_decide_eq_true (Except.ok.inj h)⟩

theorem gate_ok {A : Arith} {tol : ℝ} : ∀ {bs ws : List DQuat}, ws.length = bs.length → (∀ s ∈ ws.zip bs, A.scalarMatch tol s.1 s.2 = .ok true) →
    A.gate tol bs ws = .ok ()
  | [], _, _, _ => by rw [Arith.gate]
  | _ :: _, [], hl, _ => by simp at hl
  | b :: bs, w :: ws, hl, h => by
    obtain ⟨sw, sb, h1, h2, h3⟩ := scalarMatch_true (h (w, b) (by simp))
    rw [Arith.gate, h1, Py.ok_bind, h2, Py.ok_bind, pyAssert_pos h3, Py.ok_bind]
    exact gate_ok (by simpa using hl) fun s hs => h s (by simp [hs])

theorem setupT_ok {A : Arith} : ∀ {bs ws : List DQuat}, ws.length = bs.length → (∀ s ∈ ws.zip bs, A.scalarMatch 5e-2 s.2 s.1 = .ok true) →
    ∃ T, A.setupT bs ws = .ok T
  | [], _, _, _ => ⟨[], by rw [Arith.setupT]⟩
  | _ :: _, [], hl, _ => by simp at hl
  | b :: bs, w :: ws, hl, h => by
    obtain ⟨sb, sw, h1, h2, h3⟩ := scalarMatch_true (h (w, b) (by simp))
    obtain ⟨T, hT⟩ := setupT_ok (A := A) (bs := bs) (ws := ws) (by simpa using hl) fun s hs => h s (by simp [hs])
    refine ⟨sRows (A.sMatrix b w) ++ T, ?_⟩
    rw [Arith.setupT, Arith.setupS, h1, Py.ok_bind, h2, Py.ok_bind, pyAssert_pos h3, hT]
    rfl

/-- The first of the aligned poses is the identity, up to the tolerance of the solver. -/
theorem alignPaths_first {A : Arith} {v l : List DQuat} {i : ℤ} {enf : Bool} (h : A.alignPaths v i enf = .ok l) :
    ∃ f, pyAt l 0 = .ok f ∧ f.allclose DQuat.identity 1e-8 := by
  unfold Arith.alignPaths at h
  obtain ⟨_, _, h⟩ := Py.bind_eq_ok.mp h
  obtain ⟨_, _, h⟩ := Py.bind_eq_ok.mp h
  obtain ⟨f, h1, h⟩ := Py.bind_eq_ok.mp h
  obtain ⟨_, h2, h⟩ := Py.bind_eq_ok.mp h
  cases h
  refine ⟨f, h1, ?_⟩
  by_contra hc
  rw [pyAssert_neg hc] at h2
  cases h2

/-- The solver on aligned poses whose scalar parts match. -/
theorem calibrate_aligned {A : Arith} {tol : ℝ} {vb vw bs ws : List DQuat} {i j : ℤ} (hb : A.alignPaths vb i true = .ok bs)
    (hw : A.alignPaths vw j true = .ok ws) (hl : ws.length = bs.length) (h1 : ∀ s ∈ ws.zip bs, A.scalarMatch tol s.1 s.2 = .ok true)
    (h2 : ∀ s ∈ ws.zip bs, A.scalarMatch 5e-2 s.2 s.1 = .ok true) :
    ∃ T, A.setupT bs ws = .ok T ∧ ∀ svd : Svd, A.calibrate svd bs ws tol true = (do
      let (s, V) ← svd T
      let dq ← A.kernel (splitRow (V 6)) (splitRow (V 7))
      return ⟨dq, s, badSingularValues s, ws⟩) := by
  obtain ⟨f, f1, f2⟩ := alignPaths_first hb
  obtain ⟨e, e1, e2⟩ := alignPaths_first hw
  obtain ⟨T, hT⟩ := setupT_ok hl h2
  refine ⟨T, hT, fun svd => ?_⟩
  unfold Arith.calibrate
  rw [f1, Py.ok_bind, pyAssert_pos f2, Py.ok_bind, e1, Py.ok_bind, pyAssert_pos e2, Py.ok_bind, if_pos rfl,
    enforceSameSign_nonneg hl.ge (alignPaths_w_nonneg hb) (alignPaths_w_nonneg hw), Py.ok_bind]
  dsimp only
  rw [gate_ok hl h1, Py.ok_bind, hT, Py.ok_bind]

end HandEye
