import Verif.Props.RoundedOutliers

/-! # Property C120: the samples of RANSAC with outliers -/

namespace HandEye

theorem allMatch_flags {A : Arith} {tol : ℝ} : ∀ {ws bs : List DQuat} {fl : List Bool}, (ws.zip bs).mapM (fun s => A.scalarMatch tol s.1 s.2) = .ok fl →
    A.allMatch tol ws bs = .ok (fl.all id)
  | [], _, fl, h => by
    rw [List.zip_nil_left, List.mapM_nil] at h
    cases h
    rw [Arith.allMatch]
    · rfl
    · simp
  | _ :: _, [], fl, h => by
    rw [List.zip_nil_right, List.mapM_nil] at h
    cases h
    rw [Arith.allMatch]
    · rfl
    · simp
  | w :: ws, b :: bs, fl, h => by
    rw [List.zip_cons_cons, List.mapM_cons] at h
    obtain ⟨f, h1, h⟩ := Py.bind_eq_ok.mp h
    obtain ⟨fs, h2, h⟩ := Py.bind_eq_ok.mp h
    cases h
    rw [Arith.allMatch, h1, Py.ok_bind]
    cases f with
    | false => rfl
    | true => rw [if_pos rfl, allMatch_flags h2]; rfl

/-- The pairs of a sample. -/
theorem sample_visible {u δ θ D η tol : ℝ} {m : ℕ} {g X : DQuat} {bs ws : List DQuat} {L₀ : List (DQuat × DQuat)} (hlen : ws.length = bs.length)
    (h : Spec.VisibleOutliers u δ θ D η tol m g X bs ws L₀) {sample : List ℕ} {L : List (DQuat × DQuat)} (hs : sample.map (L₀[·]?) = L.map some) :
    ∃ b w, sample.mapM (pyAt bs) = .ok b ∧ sample.mapM (pyAt ws) = .ok w ∧ b.length = sample.length ∧ w.length = sample.length ∧
      Spec.VisibleOutliers u δ θ D η tol (L.length + 1) g X b w L := by
  have hl := h.recorded.length_eq
  rw [List.length_zip, hlen, min_self] at hl
  have hsub : ∀ q ∈ L, q ∈ L₀ := by
    intro q hq
    have : some q ∈ sample.map (L₀[·]?) := by rw [hs]; exact List.mem_map_of_mem hq
    obtain ⟨i, _, hi⟩ := List.mem_map.mp this
    exact List.mem_of_getElem? hi
  have hrec : ∃ b w, sample.mapM (pyAt bs) = .ok b ∧ sample.mapM (pyAt ws) = .ok w ∧ b.length = sample.length ∧ w.length = sample.length ∧
      List.Forall₂ (Spec.RecordedPair δ θ D) (b.zip w) L := by
    clear hsub
    induction sample generalizing L with
    | nil =>
      cases L with
      | nil => exact ⟨[], [], rfl, rfl, rfl, rfl, .nil⟩
      | cons => cases hs
    | cons i sample ih =>
      cases L with
      | nil => cases hs
      | cons q L =>
        rw [List.map_cons, List.map_cons, List.cons.injEq] at hs
        obtain ⟨b, w, h1, h2, h3, h4, h5⟩ := ih hs.2
        obtain ⟨hi, rfl⟩ := List.getElem?_eq_some_iff.mp hs.1
        have hib : i < bs.length := by omega
        have hiw : i < ws.length := by omega
        have hiz : i < (bs.zip ws).length := by rw [h.recorded.length_eq]; exact hi
        refine ⟨bs[i] :: b, ws[i] :: w, ?_, ?_, by simp [h3], by simp [h4], .cons ?_ h5⟩
        · rw [List.mapM_cons, pyAt_eq_ok.mpr (List.getElem?_eq_getElem hib), Py.ok_bind, h1]; rfl
        · rw [List.mapM_cons, pyAt_eq_ok.mpr (List.getElem?_eq_getElem hiw), Py.ok_bind, h2]; rfl
        · have := List.Forall₂.get h.recorded hiz hi
          simpa using this
  obtain ⟨b, w, h1, h2, h3, h4, h5⟩ := hrec
  refine ⟨b, w, h1, h2, h3, h4, h5, fun p hp q hq => h.hand p (hsub p hp) q (hsub q hq), fun p hp q hq => h.eye p (hsub p hp) q (hsub q hq),
    fun p hp hf q hq => h.visible p (hsub p hp) hf q (hsub q hq), fun p _ _ => ?_⟩
  exact Nat.lt_succ_of_le List.countP_le_length

open Classical in
/-- **C120**, samples: if the first pair of a sample fits, the sample passes the test of RANSAC exactly if all its pairs fit. -/
theorem C120_sample {A : Arith} {u : ℝ} (hA : Spec.Machine u A) (hu : u ≤ 4e-10) (δ θ D : ℝ) (hδ0 : 0 ≤ δ) (hδ : δ ≤ 1 / 100) (hθ : 0 ≤ θ) (hD0 : 0 ≤ D)
    (hD : 60 * u * (D + θ) ≤ 1e-8) (g X : DQuat) (hg : Spec.IsUnit g) (hX : Spec.IsUnit X) (bs ws : List DQuat) (hlen : ws.length = bs.length)
    (L₀ : List (DQuat × DQuat)) (cfg : HandEyeConfig) (hε : Spec.neededTolerance u δ θ D ≤ cfg.ransac_sample_rejection_scalar_part_equality_tolerance) (m : ℕ)
    (hout : Spec.VisibleOutliers u δ θ D (Spec.relativeError u δ θ D) cfg.ransac_sample_rejection_scalar_part_equality_tolerance m g X bs ws L₀)
    (sample : List ℕ) (p : DQuat × DQuat) (L : List (DQuat × DQuat)) (hs : sample.map (L₀[·]?) = (p :: L).map some) (hp : Spec.FitsMotion g X p)
    (hl : sample.length = cfg.ransac_sample_size) (h1 : 1 < cfg.ransac_sample_size) :
    ∃ b w, A.sampleTest cfg bs ws sample = .ok (decide (∀ q ∈ p :: L, Spec.FitsMotion g X q), b, w) := by
  obtain ⟨b, w, e1, e2, e3, e4, hv⟩ := sample_visible hlen hout hs
  obtain ⟨b', w', a1, a2, _, _, hf⟩ := C120_flags hA hu δ θ D hδ0 hδ hθ hD0 hD g X hg hX b w (by omega) _ _ hε _ hv 0 p rfl hp
  refine ⟨b', w', ?_⟩
  rw [List.drop_zero, List.take_zero, List.append_nil] at hf
  unfold Arith.sampleTest
  rw [e2, Py.ok_bind, e1, Py.ok_bind, pyAssert_pos (by omega), Py.ok_bind, if_pos h1]
  rw [show ((0 : ℕ) : ℤ) = 0 from rfl] at a1 a2
  rw [a1, Py.ok_bind, a2, Py.ok_bind, allMatch_flags hf, Py.ok_bind, List.all_map]
  have : (p :: L).all (id ∘ fun q => decide (Spec.FitsMotion g X q)) = decide (∀ q ∈ p :: L, Spec.FitsMotion g X q) := by
    rw [Bool.eq_iff_iff, List.all_eq_true, decide_eq_true_iff]
    simp only [Function.comp, id, decide_eq_true_iff]
  rw [this]
  rfl

open Classical in
/-- **C120**, RANSAC with a classification by scalar parts and without prefilter: a sample whose first pair fits is rejected at once if it has an outlier, and
otherwise its inliers are exactly the pairs that fit (in the order of the aligned poses). -/
theorem C120_ransac {A : Arith} {u : ℝ} (hA : Spec.Machine u A) (hu : u ≤ 4e-10) (δ θ D : ℝ) (hδ0 : 0 ≤ δ) (hδ : δ ≤ 1 / 100) (hθ : 0 ≤ θ) (hD0 : 0 ≤ D)
    (hD : 60 * u * (D + θ) ≤ 1e-8) (g X : DQuat) (hg : Spec.IsUnit g) (hX : Spec.IsUnit X) (bs ws : List DQuat) (hlen : ws.length = bs.length)
    (L₀ : List (DQuat × DQuat)) (cfg : HandEyeConfig) (hc : cfg.ransac_inlier_classification = .scalarPartEquality)
    (hε : Spec.neededTolerance u δ θ D ≤ cfg.ransac_sample_rejection_scalar_part_equality_tolerance) (m : ℕ)
    (hout : Spec.VisibleOutliers u δ θ D (Spec.relativeError u δ θ D) cfg.ransac_sample_rejection_scalar_part_equality_tolerance m g X bs ws L₀)
    (svd : Svd) (i : ℕ) (sample : List ℕ) (p : DQuat × DQuat) (L : List (DQuat × DQuat)) (hs : (i :: sample).map (L₀[·]?) = (p :: L).map some)
    (hp : Spec.FitsMotion g X p) (hl : (i :: sample).length = cfg.ransac_sample_size) (h1 : 1 < cfg.ransac_sample_size) :
    ((∃ q ∈ L, ¬ Spec.FitsMotion g X q) → A.evaluateSample svd cfg bs ws bs ws (i :: sample) = .ok .prerejected) ∧
    ((∀ q ∈ L, Spec.FitsMotion g X q) → ∃ bs' ws', A.alignPaths bs i true = .ok bs' ∧ A.alignPaths ws i true = .ok ws' ∧
      A.evaluateSample svd cfg bs ws bs ws (i :: sample) = (do
        match ← A.buildCandidate svd cfg (i :: sample) ⟨none, bs', (L₀.drop i ++ L₀.take i).map fun q => decide (Spec.FitsMotion g X q)⟩ ws' with
        | none => return .rejected
        | some c => return .candidate c)) := by
  obtain ⟨b, w, ht⟩ := C120_sample hA hu δ θ D hδ0 hδ hθ hD0 hD g X hg hX bs ws hlen L₀ cfg hε m hout (i :: sample) p L hs hp hl h1
  constructor
  · rintro ⟨q, hq, hn⟩
    rw [decide_eq_false (fun h => hn (h q (List.mem_cons_of_mem _ hq)))] at ht
    unfold Arith.evaluateSample
    rw [ht]
    rfl
  · intro hf
    rw [decide_eq_true (by
      intro q hq
      rcases List.mem_cons.mp hq with rfl | hq
      · exact hp
      · exact hf q hq)] at ht
    rw [List.map_cons, List.map_cons, List.cons.injEq] at hs
    obtain ⟨bs', ws', a1, a2, _, _, hfl⟩ := C120_flags hA hu δ θ D hδ0 hδ hθ hD0 hD g X hg hX bs ws hlen L₀ _ hε m hout i p hs.1 hp
    refine ⟨bs', ws', a1, a2, ?_⟩
    have hcl : A.classify svd cfg b w bs' ws' = .ok (some ⟨none, bs', (L₀.drop i ++ L₀.take i).map fun q => decide (Spec.FitsMotion g X q)⟩) := by
      unfold Arith.classify
      rw [hc]
      dsimp only
      unfold Arith.classifyByScalar
      rw [hfl]
      rfl
    unfold Arith.evaluateSample
    rw [ht, Py.ok_bind]
    dsimp only
    rw [if_pos rfl, show pyAt (i :: sample) 0 = .ok i from rfl, Py.ok_bind, a1, Py.ok_bind, a2, Py.ok_bind, hcl, Py.ok_bind]
    rfl

/-- The configuration of the examples: samples of two pairs, classified by scalar parts. -/
def pairConfig : HandEyeConfig :=
  { twoConfig with ransac_sample_size := 2, ransac_inlier_classification := .scalarPartEquality, ransac_sample_rejection_scalar_part_equality_tolerance := 1e-2 }

/-- The sample of the second pair and the outlier does not pass. -/
example (acos : ℝ → ℝ) : ∃ b w, (doubleArith acos).sampleTest pairConfig turnsAndRest turnsAndOutlier [1, 3] = .ok (false, b, w) := by
  obtain ⟨b, w, h⟩ := C120_sample (machine_double acos) (by norm_num) 0 0 0 le_rfl (by norm_num) le_rfl le_rfl (by norm_num) _ _ turn_unit
    turn_unit turnsAndRest turnsAndOutlier rfl _ pairConfig two_tolerance 2 (turned_visible turned_error _ le_rfl) [1, 3] _ [_] rfl (turned_fits _ _ _ _) rfl (by decide)
  refine ⟨b, w, h.trans ?_⟩
  classical
  rw [decide_eq_false]
  exact fun hf => turned_not_fits (hf _ (by simp))

/-- RANSAC rejects this sample at once, and not the one of the second and the third pair. -/
example (acos : ℝ → ℝ) (svd : Svd) :
    (doubleArith acos).evaluateSample svd pairConfig turnsAndRest turnsAndOutlier turnsAndRest turnsAndOutlier [1, 3] = .ok .prerejected ∧
    (doubleArith acos).evaluateSample svd pairConfig turnsAndRest turnsAndOutlier turnsAndRest turnsAndOutlier [1, 2] ≠ .ok .prerejected := by
  constructor
  · exact (C120_ransac (machine_double acos) (by norm_num) 0 0 0 le_rfl (by norm_num) le_rfl le_rfl (by norm_num) _ _ turn_unit
      turn_unit turnsAndRest turnsAndOutlier rfl _ pairConfig rfl two_tolerance 2 (turned_visible turned_error _ le_rfl) svd 1 [3] _ [_] rfl (turned_fits _ _ _ _) rfl
      (by decide)).1 ⟨_, List.mem_singleton_self _, turned_not_fits⟩
  · obtain ⟨b, w, _, _, h⟩ := (C120_ransac (machine_double acos) (by norm_num) 0 0 0 le_rfl (by norm_num) le_rfl le_rfl (by norm_num) _ _ turn_unit
      turn_unit turnsAndRest turnsAndOutlier rfl _ pairConfig rfl two_tolerance 2 (turned_visible turned_error _ le_rfl) svd 1 [2] _ [_] rfl (turned_fits _ _ _ _) rfl
      (by decide)).2 (by simpa using turned_fits _ _ _ _)
    rw [h]
    intro hc
    obtain ⟨r, _, hr⟩ := Py.bind_eq_ok.mp hc
    cases r <;> cases hr

end HandEye
