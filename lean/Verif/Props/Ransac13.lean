import Verif.Props.Ransac12
import Verif.Spec.Supported
import Verif.Props.Ransac7
import Verif.Lemmas.ChanceFirst

/-! # Property C109: with which probability RANSAC reports which of two mountings -/

namespace HandEye

theorem foldl_none {outs : List SampleOutcome} (h : ∀ c, SampleOutcome.candidate c ∉ outs) : outs.foldl upd none = none := by
  induction outs with
  | nil => rfl
  | cons o outs ih =>
    have ih := ih fun c hc => h c (List.mem_cons_of_mem _ hc)
    rw [List.foldl_cons]
    cases o with
    | prerejected => exact ih
    | rejected => exact ih
    | candidate d => exact absurd List.mem_cons_self (h d)

/-- A run that reports a calibration, and whose first candidate has no orientation error, reports this candidate. -/
theorem first_candidate_reported {svd : Svd} {rng : ℕ → List ℕ} {cfg : HandEyeConfig} {bs ws bf wf : List DQuat} {fuel : ℕ} {r : CalibrationResult}
    (h : ransac svd rng cfg bs ws fuel = .ok (some r)) (hs : r.success = true) (hf : filteredPoses cfg bs ws = .ok (bf, wf))
    {k : ℕ} (hbefore : ∀ j < k, ∀ s, drawSample cfg rng wf.length j = .ok s → ∀ c, evaluateSample svd cfg bs ws bf wf s ≠ .ok (.candidate c))
    {s : List ℕ} (hd : drawSample cfg rng wf.length k = .ok s)
    {c : Candidate} (hc : evaluateSample svd cfg bs ws bf wf s = .ok (.candidate c)) (h0 : c.rmse_orientation = 0) :
    r.dq_H_E = some c.dq_H_E ∧ r.num_inliers = c.num_inliers ∧ r.rmse = some (c.rmse_position, c.rmse_orientation) := by
  obtain ⟨-, -, bf', wf', st, h1, hfin, h3⟩ := ransac_some h
  rw [hf] at h1
  obtain ⟨rfl, rfl⟩ := Prod.mk.inj (Except.ok.inj h1)
  obtain ⟨samples, outs, hcourse, -, i5⟩ := finished_course hfin
  have hz := List.forall₂_iff_get.mp hcourse.outcomes
  have hat : ∀ j (hj : j < outs.length), ∃ s, drawSample cfg rng wf.length j = .ok s ∧ evaluateSample svd cfg bs ws bf wf s = .ok outs[j] := by
    intro j hj
    have hj' : j < samples.length := by rw [hz.1]; exact hj
    exact ⟨samples[j], hcourse.drawn j _ (List.getElem?_eq_getElem hj'), hz.2 j hj' hj⟩
  have hpre : ∀ d, SampleOutcome.candidate d ∉ outs.take k := by
    intro d hd
    obtain ⟨j, hj, e⟩ := List.mem_iff_getElem.mp hd
    rw [List.length_take] at hj
    rw [List.getElem_take] at e
    obtain ⟨s', a1, a2⟩ := hat j (by omega)
    rw [e] at a2
    exact hbefore j (by omega) s' a1 d a2
  have hlen : k < outs.length := by
    by_contra hc
    rw [List.take_of_length_le (not_lt.mp hc)] at hpre
    rw [i5, foldl_none hpre] at h3
    simp only [ransacResult, Except.ok.injEq] at h3
    rw [← h3] at hs
    cases hs
  have hk : outs[k] = .candidate c := by
    obtain ⟨s', a1, a2⟩ := hat k hlen
    rw [hd] at a1
    cases a1
    rw [hc] at a2
    exact (Except.ok.inj a2).symm
  have hbest : st.best = some c := by
    rw [i5, ← List.take_append_drop k outs, List.foldl_append, foldl_none hpre, List.drop_eq_getElem_cons hlen, hk, List.foldl_cons]
    refine stays h0 fun d hd => ?_
    obtain ⟨n, hn1, hn2⟩ := List.mem_iff_getElem.mp (List.mem_of_mem_drop hd)
    obtain ⟨s', -, a2⟩ := hat n hn1
    rw [hn2] at a2
    exact candidate_nonneg a2
  rw [hbest] at h3
  have hcu : c.dq_H_E.rot.dot c.dq_H_E.rot = 1 := by
    obtain ⟨_, _, _, _, _, k, -, -, -, -, a3, a4⟩ := evaluateSample_candidate hc
    obtain ⟨cal, _, _, _, r1, -, -, -, r5, -⟩ := buildCandidate_some a4
    rw [r5]
    exact refine_rot a3 r1
  unfold ransacResult at h3
  dsimp only at h3
  rw [DQuat.toPose_unit hcu, Py.ok_bind] at h3
  rw [← Except.ok.inj h3]
  exact ⟨rfl, rfl, rfl⟩

/-- What becomes of a sample whose measurements fit one of two mountings with the same rotation. -/
theorem supported_outcome {svd : Svd} (hsvd : ∀ T s V, svd T = .ok (s, V) → Spec.IsSVD T s V)
    {cfg : HandEyeConfig} (hmode : cfg.ransac_inlier_classification = .scalarPartEquality) {tol : ℝ}
    (ht : cfg.ransac_sample_rejection_scalar_part_equality_tolerance = tol) (htol : 0 ≤ tol) (hsize : 0 < cfg.ransac_sample_size)
    {bs ws : List DQuat} (hl : ws.length = bs.length) (hb : ∀ a ∈ bs, Spec.IsUnit a) (hw : ∀ a ∈ ws, Spec.IsUnit a)
    {g X : DQuat} (hX : Spec.Supported tol cfg.min_num_inliers bs ws g X) (hrot : ∀ q ∈ bs.zip ws, QSame q.2.rot (g.rot * q.1.rot * X.rot))
    (hsolve : ∀ B W, Spec.Exact B W X → (∀ b ∈ B, Spec.IsUnit b) → Spec.TwoAxes B → B.head? = some ⟨⟨0, 0, 0, 1⟩, ⟨0, 0, 0, 0⟩⟩ →
      ∃ r, computeHandEyeCalibration svd B W cfg.hand_eye_calibration_scalar_part_equality_tolerance = .ok r)
    {s : List ℕ} (hs : Spec.IsSample ws.length cfg.ransac_sample_size s) (hfit : Spec.AllFit g X bs ws s) :
    ∃ c, evaluateSample svd cfg bs ws bs ws s = .ok (.candidate c) ∧ Spec.SameUpToSign c.dq_H_E X ∧
      c.num_inliers = Spec.number (Spec.Fits g X) (bs.zip ws) ∧ c.rmse_orientation = 0 := by
  obtain ⟨i0, s', rfl⟩ : ∃ i0 s', s = i0 :: s' := by
    cases s with
    | nil => simp [Spec.IsSample] at hs; omega
    | cons a l => exact ⟨a, l, rfl⟩
  have hi0 : i0 < ws.length := hs.2.2 i0 List.mem_cons_self
  obtain ⟨p, hp⟩ : ∃ p, (bs.zip ws)[i0]? = some p := ⟨_, List.getElem?_eq_getElem (by rw [List.length_zip]; omega)⟩
  have hpm := List.mem_of_getElem? hp
  have hpf := hfit i0 List.mem_cons_self p hp
  have hu : ∀ m ∈ bs.zip ws, Spec.IsUnit m.1 := fun m hm => hb _ (List.of_mem_zip hm).1
  obtain ⟨x1, x2, x3, x4, x5, x6⟩ := hX
  obtain ⟨s1, s2⟩ := agree_good htol x1 x2 hu hpm hpf (x4 p hpm hpf)
  have hcl : Clusters tol cfg.min_num_inliers bs ws p g X :=
    ⟨x1, x2, x3, x4 p hpm hpf, by rw [s1]; exact x5, by rw [s2]; exact x6⟩
  obtain ⟨o, o1, o2⟩ := cluster_outcome hsvd hmode ht htol hl hb hw hs hp hcl hsolve
  obtain ⟨c, rfl, c1, c2, c3, c4⟩ := o2 fun i hi q hq =>
    fits_agree htol x1 x2 (hu p hpm) (hu q (List.mem_of_getElem? hq)) hpf (hfit i hi q hq)
  refine ⟨c, o1, c1, by rw [c3, s2], c4 fun q hq => ?_⟩
  have e1 : X.rot * X.rot.conj = 1 := by simpa using congrArg DQuat.rot (DQuat.mul_conj_unit x2)
  have e2 : g.rot.conj * g.rot = 1 := by simpa using congrArg DQuat.rot (DQuat.conj_mul_unit x1)
  have e3 : ∀ a b c : Quat, (a * b * c).conj = c.conj * b.conj * a.conj := by
    intro a b c; ext <;> simp <;> ring
  have e4 : p.1.rot.conj * q.1.rot * X.rot = X.rot * ((g.rot * p.1.rot * X.rot).conj * (g.rot * q.1.rot * X.rot)) := by
    rw [e3]
    calc p.1.rot.conj * q.1.rot * X.rot
        = (X.rot * X.rot.conj) * p.1.rot.conj * (g.rot.conj * g.rot) * q.1.rot * X.rot := by rw [e1, e2]; noncomm_ring
      _ = _ := by noncomm_ring
  rw [e4]
  exact (show QSame X.rot X.rot from Or.inl rfl).mul ((hrot p hpm).symm.conj.mul (hrot q hq).symm)

theorem chance_fits {g X : DQuat} {bs ws : List DQuat} (hlen : (bs.zip ws).length = ws.length) (k : ℕ) :
    Spec.chance (fun d : Spec.Draw ws.length k => Spec.AllFit g X bs ws (Spec.numbers d)) =
      (Spec.number (Spec.Fits g X) (bs.zip ws)).descFactorial k / ws.length.descFactorial k := by
  classical
  rw [← card_indices hlen fun q => Spec.Fits g X q, ← chance_within]
  refine chance_congr fun d => ?_
  unfold Spec.AllFit Spec.numbers
  simp only [Finset.mem_filter, Finset.mem_univ, true_and, List.mem_ofFn, forall_exists_index, forall_apply_eq_imp_iff]
  refine forall_congr' fun i => ?_
  rw [List.getElem?_eq_getElem (by rw [hlen]; exact (d i).2)]
  simp

theorem fits_disjoint {g X g' X' : DQuat} {bs ws : List DQuat} (hlen : (bs.zip ws).length = ws.length) {k : ℕ} (hk : 0 < k)
    (hone : ∀ p ∈ bs.zip ws, ¬ (Spec.Fits g X p ∧ Spec.Fits g' X' p)) (d : Spec.Draw ws.length k) (ha : Spec.AllFit g X bs ws (Spec.numbers d)) :
    ¬ Spec.AllFit g' X' bs ws (Spec.numbers d) := by
  intro hb
  have h0 : (d ⟨0, hk⟩ : ℕ) ∈ Spec.numbers d := List.mem_ofFn.mpr ⟨_, rfl⟩
  have hq := List.getElem?_eq_getElem (l := bs.zip ws) (i := (d ⟨0, hk⟩ : ℕ)) (by rw [hlen]; exact (d _).2)
  exact hone _ (List.mem_of_getElem? hq) ⟨ha _ h0 _ hq, hb _ h0 _ hq⟩

/-- With two mountings that are told apart, exactly the samples that fit one of them lead to a calibration. -/
theorem leads_iff_either {svd : Svd} (hsvd : ∀ T s V, svd T = .ok (s, V) → Spec.IsSVD T s V)
    {cfg : HandEyeConfig} (hmode : cfg.ransac_inlier_classification = .scalarPartEquality) {tol : ℝ}
    (ht : cfg.ransac_sample_rejection_scalar_part_equality_tolerance = tol) (htol : 0 ≤ tol) (hsize : 0 < cfg.ransac_sample_size)
    {bs ws : List DQuat} (hl : ws.length = bs.length) (hb : ∀ a ∈ bs, Spec.IsUnit a) (hw : ∀ a ∈ ws, Spec.IsUnit a)
    {g X g' X' : DQuat} (hX : Spec.Supported tol cfg.min_num_inliers bs ws g X) (hX' : Spec.Supported tol cfg.min_num_inliers bs ws g' X')
    (hg : g.rot = g'.rot) (hr : X.rot = X'.rot) (hall : ∀ p ∈ bs.zip ws, Spec.Fits g X p ∨ Spec.Fits g' X' p)
    (hsolve : ∀ B W, (Spec.Exact B W X ∨ Spec.Exact B W X') → (∀ b ∈ B, Spec.IsUnit b) → Spec.TwoAxes B → B.head? = some ⟨⟨0, 0, 0, 1⟩, ⟨0, 0, 0, 0⟩⟩ →
      ∃ r, computeHandEyeCalibration svd B W cfg.hand_eye_calibration_scalar_part_equality_tolerance = .ok r)
    {s : List ℕ} (hs : Spec.IsSample ws.length cfg.ransac_sample_size s) :
    (Spec.LeadsToCalibration svd cfg tol (bs.zip ws) (bs.zip ws) s ↔ Spec.AllFit g X bs ws s ∨ Spec.AllFit g' X' bs ws s) ∧
    (Spec.AllFit g X bs ws s → ∃ c, evaluateSample svd cfg bs ws bs ws s = .ok (.candidate c) ∧ Spec.SameUpToSign c.dq_H_E X ∧
      c.num_inliers = Spec.number (Spec.Fits g X) (bs.zip ws) ∧ c.rmse_orientation = 0) ∧
    (Spec.AllFit g' X' bs ws s → ∃ c, evaluateSample svd cfg bs ws bs ws s = .ok (.candidate c) ∧ Spec.SameUpToSign c.dq_H_E X' ∧
      c.num_inliers = Spec.number (Spec.Fits g' X') (bs.zip ws) ∧ c.rmse_orientation = 0) := by
  have hrot : ∀ q ∈ bs.zip ws, QSame q.2.rot (g.rot * q.1.rot * X.rot) := by
    intro q hq
    left
    rcases hall q hq with h | h <;> rw [fits_iff] at h <;> rw [h]
    · simp
    · simp [hg, hr]
  have o := supported_outcome hsvd hmode ht htol hsize hl hb hw hX hrot (fun B W h => hsolve B W (Or.inl h)) hs
  have o' := supported_outcome hsvd hmode ht htol hsize hl hb hw hX' (by rw [← hg, ← hr]; exact hrot) (fun B W h => hsolve B W (Or.inr h)) hs
  refine ⟨⟨?_, fun h => ?_⟩, o, o'⟩
  · rintro ⟨k, f, q, -, hf1, hq, hc, hnum, -⟩
    rw [hq] at hf1
    obtain rfl : q = f := Option.some.inj hf1
    have hqm := List.mem_of_getElem? hq
    rcases hall q hqm with h | h
    · exact Or.inl fun i hi q' hq' => hX.apart q hqm h q' (List.mem_of_getElem? hq') (hc i hi q' hq')
    · exact Or.inr fun i hi q' hq' => hX'.apart q hqm h q' (List.mem_of_getElem? hq') (hc i hi q' hq')
  · obtain ⟨x, p1, p2⟩ := scalar_outcome (svd := svd) hmode ht htol hl hb hw hl hb hw le_rfl hsize hs
    rw [← p2]
    rcases h with h | h
    · obtain ⟨c, c1, -⟩ := o h
      rw [c1] at p1
      exact ⟨c, (Except.ok.inj p1).symm⟩
    · obtain ⟨c, c1, -⟩ := o' h
      rw [c1] at p1
      exact ⟨c, (Except.ok.inj p1).symm⟩

theorem fin_first {N : ℕ} {C : Fin N → Prop} (h : ∃ i, C i) : ∃ i, C i ∧ ∀ j < i, ¬ C j := by
  classical
  obtain ⟨i, hi⟩ := h
  induction i using WellFoundedLT.induction with
  | ind i ih =>
    by_cases hc : ∃ j < i, C j
    · obtain ⟨j, hj, hj'⟩ := hc
      exact ih j hj hj'
    · exact ⟨i, hi, fun j hj hj' => hc ⟨j, hj, hj'⟩⟩

/-- **C109**: let every measurement fit one of two mountings with the same rotation, both with enough measurements and told apart by the scalar parts.  The chance
that RANSAC has reported the first one within N samples is the chance that it has ended, times the share p / (p + p') that the samples of the first mounting
have among the samples that lead to a calibration. -/
theorem C109_chance (svd : Svd) (hsvd : ∀ T s V, svd T = .ok (s, V) → Spec.IsSVD T s V)
    (cfg : HandEyeConfig) (hmode : cfg.ransac_inlier_classification = .scalarPartEquality) (tol : ℝ)
    (ht : cfg.ransac_sample_rejection_scalar_part_equality_tolerance = tol) (htol : 0 ≤ tol)
    (hex : cfg.enable_exhaustive_search = false) (hpre : cfg.prefilter_poses_enabled = false)
    (hmax : 0 < cfg.ransac_max_number_iterations)
    (ho : 0 < cfg.ransac_outlier_probability) (ho' : cfg.ransac_outlier_probability < 1)
    (hp : cfg.ransac_success_probability_threshold < 1)
    (bs ws : List DQuat) (hl : ws.length = bs.length) (hb : ∀ a ∈ bs, Spec.IsUnit a) (hw : ∀ a ∈ ws, Spec.IsUnit a)
    (hsize : 0 < cfg.ransac_sample_size) (hn : cfg.ransac_sample_size < ws.length)
    (g X g' X' : DQuat) (hX : Spec.Supported tol cfg.min_num_inliers bs ws g X) (hX' : Spec.Supported tol cfg.min_num_inliers bs ws g' X')
    (hg : g.rot = g'.rot) (hr : X.rot = X'.rot) (hne : ¬ Spec.SameUpToSign X X')
    (hall : ∀ p ∈ bs.zip ws, Spec.Fits g X p ∨ Spec.Fits g' X' p) (hone : ∀ p ∈ bs.zip ws, ¬ (Spec.Fits g X p ∧ Spec.Fits g' X' p))
    (hsolve : ∀ B W, (Spec.Exact B W X ∨ Spec.Exact B W X') → (∀ b ∈ B, Spec.IsUnit b) → Spec.TwoAxes B → B.head? = some ⟨⟨0, 0, 0, 1⟩, ⟨0, 0, 0, 0⟩⟩ →
      ∃ r, computeHandEyeCalibration svd B W cfg.hand_eye_calibration_scalar_part_equality_tolerance = .ok r)
    (m : ℕ) (hm : Spec.EndsAfter cfg m) (p p' : ℝ)
    (hpp : p = (Spec.number (Spec.Fits g X) (bs.zip ws)).descFactorial cfg.ransac_sample_size / ws.length.descFactorial cfg.ransac_sample_size)
    (hpp' : p' = (Spec.number (Spec.Fits g' X') (bs.zip ws)).descFactorial cfg.ransac_sample_size / ws.length.descFactorial cfg.ransac_sample_size) (N : ℕ) :
    Spec.chance (fun ω : Fin N → Spec.Draw ws.length cfg.ransac_sample_size => ∃ r dq, ransac svd (Spec.calls ω) cfg bs ws N = .ok (some r) ∧
        r.success = true ∧ r.dq_H_E = some dq ∧ Spec.SameUpToSign dq X ∧ r.num_inliers = Spec.number (Spec.Fits g X) (bs.zip ws)) =
      p / (p + p') * (1 - ∑ j ∈ Finset.range m, N.choose j * (p + p') ^ j * (1 - (p + p')) ^ (N - j)) := by
  classical
  have := draw_nonempty hn.le
  have hf : filteredPoses cfg bs ws = .ok (bs, ws) := by
    unfold filteredPoses
    rw [hpre]
    rfl
  have hlen : (bs.zip ws).length = ws.length := by rw [List.length_zip]; omega
  have hlead := fun s hs => leads_iff_either hsvd hmode ht htol hsize hl hb hw hX hX' hg hr hall hsolve (s := s) hs
  set A : Spec.Draw ws.length cfg.ransac_sample_size → Prop := fun d => Spec.AllFit g X bs ws (Spec.numbers d) with hA
  set B : Spec.Draw ws.length cfg.ransac_sample_size → Prop := fun d => Spec.AllFit g' X' bs ws (Spec.numbers d) with hB
  have hpA : p = Spec.chance A := by rw [hpp, hA, chance_fits hlen]
  have hpB : p' = Spec.chance B := by rw [hpp', hB, chance_fits hlen]
  have hAB : ∀ d, A d → ¬ B d := fun d => fits_disjoint hlen hsize hone d
  have hm0 := hm.1.1
  have hev : ∀ ω : Fin N → Spec.Draw ws.length cfg.ransac_sample_size, (∃ r dq, ransac svd (Spec.calls ω) cfg bs ws N = .ok (some r) ∧
        r.success = true ∧ r.dq_H_E = some dq ∧ Spec.SameUpToSign dq X ∧ r.num_inliers = Spec.number (Spec.Fits g X) (bs.zip ws)) ↔
      (∃ i, A (ω i) ∧ ∀ j < i, ¬ B (ω j)) ∧ m - 1 + 1 ≤ (Finset.univ.filter fun i => A (ω i) ∨ B (ω i)).card := by
    intro ω
    rw [Nat.sub_add_cancel hm0]
    have hends := C108_ends svd (Spec.calls ω) cfg hmode tol ht htol hex hmax ho ho' hp bs ws bs ws hl hb hw hf hn.le hsize hn (calls_sample hn.le ω) m hm N
    simp only [calls_count] at hends
    have hcount : (Finset.univ.filter fun i => Spec.LeadsToCalibration svd cfg tol (bs.zip ws) (bs.zip ws) (Spec.numbers (ω i))).card =
        (Finset.univ.filter fun i => A (ω i) ∨ B (ω i)).card := by
      congr 1
      exact Finset.filter_congr fun i _ => (hlead _ (numbers_sample (ω i))).1
    rw [hcount] at hends
    have hdraw : ∀ i : Fin N, drawSample cfg (Spec.calls ω) ws.length i = .ok (Spec.numbers (ω i)) := by
      intro i
      have e : Spec.calls ω i = Spec.numbers (ω i) := by simp [Spec.calls]
      unfold drawSample
      rw [hex, e]
      simp [hn.le]
    have hbefore : ∀ i : Fin N, (∀ j < i, ¬ (A (ω j) ∨ B (ω j))) → ∀ j < (i : ℕ), ∀ s, drawSample cfg (Spec.calls ω) ws.length j = .ok s →
        ∀ c, evaluateSample svd cfg bs ws bs ws s ≠ .ok (.candidate c) := by
      intro i hi j hj s hs c hc
      have hjN : j < N := by omega
      rw [hdraw ⟨j, hjN⟩] at hs
      cases hs
      obtain ⟨x, p1, p2⟩ := scalar_outcome (svd := svd) hmode ht htol hl hb hw hl hb hw le_rfl hsize (numbers_sample (ω ⟨j, hjN⟩))
      rw [hc] at p1
      exact hi ⟨j, hjN⟩ hj ((hlead _ (numbers_sample _)).1.mp (p2.mp ⟨c, (Except.ok.inj p1).symm⟩))
    constructor
    · rintro ⟨r, dq, r1, r2, r3, r4, -⟩
      have hle : m ≤ (Finset.univ.filter fun i => A (ω i) ∨ B (ω i)).card := by
        by_contra hc
        rw [hends.2 (not_le.mp hc)] at r1
        cases r1
      refine ⟨?_, hle⟩
      obtain ⟨i, hi⟩ := Finset.card_pos.mp (lt_of_lt_of_le hm0 hle)
      obtain ⟨i, hi, hmin⟩ := fin_first (C := fun i => A (ω i) ∨ B (ω i)) ⟨i, by simpa using hi⟩
      rcases hi with hi | hi
      · exact ⟨i, hi, fun j hj hj' => hmin j hj (Or.inr hj')⟩
      · exfalso
        obtain ⟨c, c1, c2, -, c4⟩ := (hlead _ (numbers_sample (ω i))).2.2 hi
        obtain ⟨q1, -⟩ := first_candidate_reported r1 r2 hf (hbefore i hmin) (hdraw i) c1 c4
        rw [r3] at q1
        rw [Option.some.inj q1] at r4
        refine hne ?_
        rw [sameUpToSign_iff] at c2 r4 ⊢
        rcases c2 with c2 | c2 <;> rw [c2] at r4 <;> rcases r4 with r4 | r4
        · exact Or.inl r4.symm
        · right; rw [r4, neg_neg]
        · right; exact r4.symm
        · left; exact (neg_injective r4).symm
    · rintro ⟨⟨i, hi, hno⟩, hle⟩
      obtain ⟨i, hi, hmin⟩ : ∃ i, A (ω i) ∧ ∀ j < i, ¬ (A (ω j) ∨ B (ω j)) := by
        obtain ⟨k, hk, hkm⟩ := fin_first (C := fun i => A (ω i)) ⟨i, hi⟩
        refine ⟨k, hk, fun j hj => not_or.mpr ⟨hkm j hj, hno j (lt_of_lt_of_le hj (not_lt.mp fun h => hkm i h hi))⟩⟩
      obtain ⟨r, r1, r2⟩ := hends.1 hle
      obtain ⟨c, c1, c2, c3, c4⟩ := (hlead _ (numbers_sample (ω i))).2.1 hi
      obtain ⟨q1, q2, -⟩ := first_candidate_reported r1 r2 hf (hbefore i hmin) (hdraw i) c1 c4
      exact ⟨r, c.dq_H_E, r1, r2, q1, c2, by rw [q2, c3]⟩
  rw [chance_congr hev]
  have h := chance_first hAB N (m - 1)
  rw [Nat.sub_add_cancel hm0, ← hpA, ← hpB] at h
  have hA0 : 0 ≤ p := hpA ▸ chance_nonneg _
  have hB0 : 0 ≤ p' := hpB ▸ chance_nonneg _
  by_cases hz : p + p' = 0
  · have hz' : p = 0 := by linarith
    rw [hz', zero_div, zero_mul]
    refine chance_zero (E := fun ω : Fin N → Spec.Draw ws.length cfg.ransac_sample_size => _) ?_
    rintro ω ⟨⟨i, hi, -⟩, -⟩
    have := chance_pos _ hi
    rw [← hpA] at this
    linarith
  · rw [div_mul_eq_mul_div, eq_div_iff hz, mul_comm]
    rw [Nat.sub_add_cancel hm0]
    exact h

/-- **C109**: in the long run the chance that the first mounting is reported tends to the share of its samples.  So RANSAC does not always report the mounting
that more measurements fit, but that of the fewer ones with the probability a(a-1)…(a-k+1) / (a(a-1)…(a-k+1) + b(b-1)…(b-k+1)), for a of them and b others. -/
theorem C109_share (svd : Svd) (hsvd : ∀ T s V, svd T = .ok (s, V) → Spec.IsSVD T s V)
    (cfg : HandEyeConfig) (hmode : cfg.ransac_inlier_classification = .scalarPartEquality) (tol : ℝ)
    (ht : cfg.ransac_sample_rejection_scalar_part_equality_tolerance = tol) (htol : 0 ≤ tol)
    (hex : cfg.enable_exhaustive_search = false) (hpre : cfg.prefilter_poses_enabled = false)
    (hmax : 0 < cfg.ransac_max_number_iterations)
    (ho : 0 < cfg.ransac_outlier_probability) (ho' : cfg.ransac_outlier_probability < 1)
    (hp : cfg.ransac_success_probability_threshold < 1)
    (bs ws : List DQuat) (hl : ws.length = bs.length) (hb : ∀ a ∈ bs, Spec.IsUnit a) (hw : ∀ a ∈ ws, Spec.IsUnit a)
    (hsize : 0 < cfg.ransac_sample_size) (hn : cfg.ransac_sample_size < ws.length)
    (g X g' X' : DQuat) (hX : Spec.Supported tol cfg.min_num_inliers bs ws g X) (hX' : Spec.Supported tol cfg.min_num_inliers bs ws g' X')
    (hg : g.rot = g'.rot) (hr : X.rot = X'.rot) (hne : ¬ Spec.SameUpToSign X X')
    (hall : ∀ p ∈ bs.zip ws, Spec.Fits g X p ∨ Spec.Fits g' X' p) (hone : ∀ p ∈ bs.zip ws, ¬ (Spec.Fits g X p ∧ Spec.Fits g' X' p))
    (hsolve : ∀ B W, (Spec.Exact B W X ∨ Spec.Exact B W X') → (∀ b ∈ B, Spec.IsUnit b) → Spec.TwoAxes B → B.head? = some ⟨⟨0, 0, 0, 1⟩, ⟨0, 0, 0, 0⟩⟩ →
      ∃ r, computeHandEyeCalibration svd B W cfg.hand_eye_calibration_scalar_part_equality_tolerance = .ok r)
    (a b : ℕ) (ha : Spec.number (Spec.Fits g X) (bs.zip ws) = a) (hb' : Spec.number (Spec.Fits g' X') (bs.zip ws) = b) (hak : cfg.ransac_sample_size ≤ a) :
    Filter.Tendsto (fun N => Spec.chance fun ω : Fin N → Spec.Draw ws.length cfg.ransac_sample_size => ∃ r dq,
        ransac svd (Spec.calls ω) cfg bs ws N = .ok (some r) ∧ r.success = true ∧ r.dq_H_E = some dq ∧ Spec.SameUpToSign dq X ∧ r.num_inliers = a)
      Filter.atTop (nhds (a.descFactorial cfg.ransac_sample_size / (a.descFactorial cfg.ransac_sample_size + b.descFactorial cfg.ransac_sample_size))) := by
  obtain ⟨m, hm⟩ := endsAfter_exists hmax
  have hc := C109_chance svd hsvd cfg hmode tol ht htol hex hpre hmax ho ho' hp bs ws hl hb hw hsize hn g X g' X' hX hX' hg hr hne hall hone hsolve m hm _ _ rfl rfl
  rw [ha, hb'] at hc
  have hlen : (bs.zip ws).length = ws.length := by rw [List.length_zip]; omega
  have := draw_nonempty hn.le
  have hn0 : (0 : ℝ) < ws.length.descFactorial cfg.ransac_sample_size := by exact_mod_cast Nat.descFactorial_pos.mpr hn.le
  have ha0 : (0 : ℝ) < a.descFactorial cfg.ransac_sample_size := by exact_mod_cast Nat.descFactorial_pos.mpr hak
  have hor := chance_or (fits_disjoint (g := g) (X := X) (g' := g') (X' := X') hlen hsize hone)
  have hle := chance_le_one fun d : Spec.Draw ws.length cfg.ransac_sample_size => Spec.AllFit g X bs ws (Spec.numbers d) ∨ Spec.AllFit g' X' bs ws (Spec.numbers d)
  rw [hor, chance_fits hlen, chance_fits hlen, ha, hb'] at hle
  set p : ℝ := (a.descFactorial cfg.ransac_sample_size : ℝ) / ws.length.descFactorial cfg.ransac_sample_size with hpp
  set p' : ℝ := (b.descFactorial cfg.ransac_sample_size : ℝ) / ws.length.descFactorial cfg.ransac_sample_size with hpp'
  have h0 : 0 < p := div_pos ha0 hn0
  have h0' : 0 ≤ p' := by positivity
  have e : (a.descFactorial cfg.ransac_sample_size : ℝ) / (a.descFactorial cfg.ransac_sample_size + b.descFactorial cfg.ransac_sample_size) =
      p / (p + p') * (1 - 0) := by
    rw [hpp, hpp', ← add_div, div_div_div_cancel_right₀ hn0.ne', sub_zero, mul_one]
  rw [e]
  refine Filter.Tendsto.congr (fun N => (hc N).symm) (Filter.Tendsto.const_mul _ (Filter.Tendsto.const_sub _ ?_))
  exact (fewer_hasSum (add_pos_of_pos_of_nonneg h0 h0') hle m).summable.tendsto_atTop_zero

end HandEye
