import Verif.Lemmas.RoundedOutliers
import Verif.Lemmas.OutlierSigns
import Verif.Lemmas.Classic
import Verif.Props.RoundedBaseline

/-! # Recordings with outliers: signs and filters -/

namespace HandEye

theorem forall₂_sublist {α β : Type} {R : α → β → Prop} {l' l : List α} (hs : l'.Sublist l) : ∀ {m : List β}, List.Forall₂ R l m →
    ∃ m', m'.Sublist m ∧ List.Forall₂ R l' m' := by
  induction hs with
  | slnil => intro m h; cases h; exact ⟨[], .slnil, .nil⟩
  | cons a _ ih =>
    intro m h
    cases h with
    | cons h1 h2 => obtain ⟨m', e1, e2⟩ := ih h2; exact ⟨m', e1.cons _, e2⟩
  | cons_cons a _ ih =>
    intro m h
    cases h with
    | cons h1 h2 => obtain ⟨m', e1, e2⟩ := ih h2; exact ⟨_, e1.cons_cons _, .cons h1 e2⟩

theorem number_eq {P P' : DQuat × DQuat → Prop} {l l' : List (DQuat × DQuat)} (h : List.Forall₂ (fun a b => P a ↔ P' b) l l') :
    Spec.number P l = Spec.number P' l' := by
  classical
  unfold Spec.number
  induction h with
  | nil => rfl
  | cons h1 _ ih => simp only [List.countP_cons, ih, h1]

/-- Some pairs of a recording with outliers. -/
theorem visible_sublist {u δ θ D η tol : ℝ} {m : ℕ} {g X : DQuat} {bs ws : List DQuat} {L₀ : List (DQuat × DQuat)}
    (h : Spec.VisibleOutliers u δ θ D η tol m g X bs ws L₀) {bf wf : List DQuat} (hs : (bf.zip wf).Sublist (bs.zip ws)) :
    ∃ L₁, Spec.VisibleOutliers u δ θ D η tol m g X bf wf L₁ := by
  obtain ⟨L₁, h1, h2⟩ := forall₂_sublist hs h.recorded
  refine ⟨L₁, h2, fun p hp q hq => h.hand p (h1.subset hp) q (h1.subset hq), fun p hp q hq => h.eye p (h1.subset hp) q (h1.subset hq),
    fun p hp hf q hq => h.visible p (h1.subset hp) hf q (h1.subset hq), fun p hp hf => ?_⟩
  exact lt_of_le_of_lt (h1.countP_le) (h.few p (h1.subset hp) hf)

/-- The same pair, but maybe with the other sign for the eye. -/
def SamePair (p p' : DQuat × DQuat) : Prop := p'.1 = p.1 ∧ (p'.2 = p.2 ∨ p'.2 = -p.2)

theorem samePair_recorded {δ θ D : ℝ} : ∀ {bs ws ws' : List DQuat} {L₀ : List (DQuat × DQuat)}, ws.length = bs.length → enforceSameSign bs ws = .ok ws' →
    List.Forall₂ (Spec.RecordedPair δ θ D) (bs.zip ws) L₀ →
    ∃ L₁, List.Forall₂ (Spec.RecordedPair δ θ D) (bs.zip ws') L₁ ∧ List.Forall₂ SamePair L₀ L₁ := by
  intro bs
  induction bs with
  | nil => intro ws ws' L₀ _ _ h; rw [List.zip_nil_left] at h ⊢; cases h; exact ⟨[], .nil, .nil⟩
  | cons b bs ih =>
    intro ws ws' L₀ hl h hr
    cases ws with
    | nil => cases h
    | cons w ws =>
      rw [enforceSameSign] at h
      obtain ⟨r, h1, h2⟩ := Py.bind_eq_ok.mp h
      cases h2
      rw [List.zip_cons_cons] at hr ⊢
      cases hr with
      | cons r1 r2 =>
        rename_i p L
        obtain ⟨L₁, e1, e2⟩ := ih (by simpa using hl) h1 r2
        split_ifs
        · exact ⟨(p.1, -p.2) :: L₁, .cons ⟨r1.1, recorded_neg r1.2⟩ e1, .cons ⟨rfl, .inr rfl⟩ e2⟩
        · exact ⟨p :: L₁, .cons r1 e1, .cons ⟨rfl, .inl rfl⟩ e2⟩

theorem samePair_fits {g X : DQuat} {p p' : DQuat × DQuat} (h : SamePair p p') : Spec.FitsMotion g X p' ↔ Spec.FitsMotion g X p := by
  have : Spec.motion p'.2 = Spec.motion p.2 := by
    rcases h.2 with e | e
    · rw [e]
    · rw [e]; funext x; exact motion_neg _ _
  unfold Spec.FitsMotion
  rw [this, h.1]

theorem samePair_corresponds {tol : ℝ} {p p' q q' : DQuat × DQuat} (h : SamePair p p') (h' : SamePair q q') (hw : (p.2.conj * q.2).rot.w ≠ 0) :
    Spec.Corresponds tol p' q' ↔ Spec.Corresponds tol p q := by
  unfold Spec.Corresponds
  rw [h.1, h'.1, scalarParts_signs h.2 h'.2 hw]

/-- The signs that `enforce_same_sign` changes do not matter. -/
theorem visible_signs {u δ θ D η tol : ℝ} (hη : 0 ≤ η) {m : ℕ} {g X : DQuat} {bs ws : List DQuat} {L₀ : List (DQuat × DQuat)}
    (h : Spec.VisibleOutliers u δ θ D η tol m g X bs ws L₀) (hl : ws.length = bs.length) {ws' : List DQuat} (hs : enforceSameSign bs ws = .ok ws') :
    ∃ L₁, Spec.VisibleOutliers u δ θ D η tol m g X bs ws' L₁ := by
  obtain ⟨L₁, h1, h2⟩ := samePair_recorded hl hs h.recorded
  have hback : ∀ p' ∈ L₁, ∃ p ∈ L₀, SamePair p p' := by
    intro p' hp'
    obtain ⟨j, hj, rfl⟩ := List.getElem_of_mem hp'
    have hj2 : j < L₀.length := by rw [h2.length_eq]; exact hj
    exact ⟨_, List.getElem_mem hj2, List.Forall₂.get h2 hj2 hj⟩
  have hunit : ∀ p ∈ L₀, Spec.IsUnit p.2 := by
    intro p hp
    obtain ⟨j, hj, rfl⟩ := List.getElem_of_mem hp
    have hj2 : j < (bs.zip ws).length := by rw [h.recorded.length_eq]; exact hj
    exact (List.Forall₂.get h.recorded hj2 hj).2.unit
  have hw : ∀ p ∈ L₀, ∀ q ∈ L₀, (p.2.conj * q.2).rot.w ≠ 0 := by
    intro p hp q hq e
    have := h.eye p hp q hq
    rw [cosHalf_relative (hunit p hp) (hunit q hq), e, abs_zero] at this
    linarith
  refine ⟨L₁, h1, ?_, ?_, ?_, ?_⟩
  · intro p' hp' q' hq'
    obtain ⟨p, hp, e⟩ := hback p' hp'
    obtain ⟨q, hq, e'⟩ := hback q' hq'
    rw [e.1, e'.1]
    exact h.hand p hp q hq
  · intro p' hp' q' hq'
    obtain ⟨p, hp, e⟩ := hback p' hp'
    obtain ⟨q, hq, e'⟩ := hback q' hq'
    rw [cosHalf_pm (p := p.2.rot) (q := q.2.rot)]
    · exact h.eye p hp q hq
    · rcases e.2 with e | e <;> rw [e]
      · exact .inl rfl
      · exact .inr rfl
    · rcases e'.2 with e | e <;> rw [e]
      · exact .inl rfl
      · exact .inr rfl
  · intro p' hp' hf q' hq' hc
    obtain ⟨p, hp, e⟩ := hback p' hp'
    obtain ⟨q, hq, e'⟩ := hback q' hq'
    exact (samePair_fits e').mpr (h.visible p hp ((samePair_fits e).mp hf) q hq ((samePair_corresponds e e' (hw p hp q hq)).mp hc))
  · intro p' hp' hf
    obtain ⟨p, hp, e⟩ := hback p' hp'
    rw [← number_eq (P := Spec.Corresponds (Spec.testedTolerance u η D tol) p)]
    · exact h.few p hp (fun hc => hf ((samePair_fits e).mpr hc))
    · rw [List.forall₂_iff_zip] at h2 ⊢
      exact ⟨h2.1, fun hm => (samePair_corresponds e (h2.2 hm) (hw p hp _ (List.of_mem_zip hm).1)).symm⟩

/-- The calibration of the baseline algorithm comes from good pairs only. -/
theorem baseline_outliers {A : Arith} {u δ θ D η : ℝ} (hA : Spec.Machine u A) (hδ0 : 0 ≤ δ) (hδ : δ ≤ 1 / 100) (hθ : 0 ≤ θ) (hD : 0 ≤ D)
    (hη : η = Spec.relativeError u δ θ D) {g X : DQuat} (hg : Spec.IsUnit g) (hX : Spec.IsUnit X) {bs ws : List DQuat} {L₀ : List (DQuat × DQuat)}
    {svd : Svd} {cfg : HandEyeConfig} (hout : Spec.VisibleOutliers u δ θ D η 1e-2 (cfg.min_num_inliers + 1) g X bs ws L₀)
    {filter : List DQuat → List DQuat → Py (List DQuat × List DQuat)} (hfi : Spec.KeepsPairs filter) {c : Calibration}
    (h : A.baselineCalibration svd cfg filter bs ws = .ok (some c)) :
    CalibratedFrom A svd cfg.hand_eye_calibration_scalar_part_equality_tolerance η D X bs.length c := by
  have hη0 : 0 ≤ η := by rw [hη]; exact relativeError_nonneg hA.nonneg hδ0 hθ hD
  unfold Arith.baselineCalibration at h
  obtain ⟨_, hl, h⟩ := Py.bind_eq_ok.mp h
  obtain ⟨ws', hs', h⟩ := Py.bind_eq_ok.mp h
  obtain ⟨⟨bf, wf⟩, hfl, h⟩ := Py.bind_eq_ok.mp h
  obtain ⟨r, hfo, h⟩ := Py.bind_eq_ok.mp h
  obtain ⟨_, _, h⟩ := Py.bind_eq_ok.mp h
  obtain ⟨_, _, h⟩ := Py.bind_eq_ok.mp h
  have hlen := pyAssert_eq_ok.mp hl
  obtain ⟨z1, _⟩ := enforceSameSign_zip hs'
  obtain ⟨f1, f2⟩ := hfi bs ws' (bf, wf) (by omega) hfl
  dsimp only at f1 f2 hfo
  obtain ⟨L₁, h1⟩ := visible_signs hη0 hout hlen hs'
  obtain ⟨L₂, h2⟩ := visible_sublist h1 f2
  obtain ⟨e1, e2, e3⟩ := firstInliers_outliers hA hδ0 hδ hθ hD hη hg hX f1 h2 hfo
  have := f2.length_le
  simp only [List.length_zip] at this
  exact ⟨_, _, Except.ok.inj h, e1, by omega, e3⟩

end HandEye
