import Verif.Props.OutlierScript

/-! # C96: when the calibration script copes with outliers, and when not -/

namespace HandEye

/-- The axis of an aligned pose. -/
theorem aligned_axis {p₀ p : Pose} (hp₀ : p₀.q.norm = 1) (hp : p.q.norm = 1) {s : ℝ} (hs : 1e-12 < s)
    (hv : (Spec.turn p₀ p).x ^ 2 + (Spec.turn p₀ p).y ^ 2 + (Spec.turn p₀ p).z ^ 2 = s ^ 2) :
    ∃ e : ℝ, (e = 1 ∨ e = -1) ∧ Spec.HasAxis (rebase (DQuat.fromPose p₀).conj true (DQuat.fromPose p))
      ⟨e * (Spec.turn p₀ p).x / s, e * (Spec.turn p₀ p).y / s, e * (Spec.turn p₀ p).z / s⟩ := by
  have ht : Spec.turn p₀ p = ((DQuat.fromPose p₀).conj * DQuat.fromPose p).rot.vec := by
    unfold Spec.turn
    rw [← relative_toH hp₀ hp]
    rfl
  have hu := DQuat.isUnit_mul (DQuat.isUnit_conj (fromPose_isUnit hp₀)) (fromPose_isUnit hp)
  rw [ht] at hv ⊢
  generalize hz : (DQuat.fromPose p₀).conj * DQuat.fromPose p = z at *
  rcases rebase_eq_or (DQuat.fromPose p₀).conj (DQuat.fromPose p) true with h | h <;> rw [h, hz]
  · refine ⟨1, Or.inl rfl, ?_⟩
    have := hasAxis_rotation hu hs hv
    simpa [Quat.vec] using this
  · refine ⟨-1, Or.inr rfl, ?_⟩
    have := hasAxis_rotation (DQuat.isUnit_neg hu) hs (by simpa [Quat.vec] using hv)
    simpa [Quat.vec] using this

theorem farTurns_axes {p₀ p₁ p₂ : Pose} (h₀ : p₀.q.norm = 1) (h₁ : p₁.q.norm = 1) (h₂ : p₂.q.norm = 1)
    (h : Spec.FarTurns p₀ p₁ p₂) : ∃ n m, Spec.HasAxis (rebase (DQuat.fromPose p₀).conj true (DQuat.fromPose p₁)) n ∧
      Spec.HasAxis (rebase (DQuat.fromPose p₀).conj true (DQuat.fromPose p₂)) m ∧ n.dot m ≤ 0.95 := by
  obtain ⟨s₁, s₂, hs₁, hs₂, v1, v2, hd⟩ := h
  obtain ⟨e₁, he₁, a₁⟩ := aligned_axis h₀ h₁ hs₁ v1
  obtain ⟨e₂, he₂, a₂⟩ := aligned_axis h₀ h₂ hs₂ v2
  refine ⟨_, _, a₁, a₂, ?_⟩
  have hp₁ : 0 < s₁ := lt_trans (by norm_num) hs₁
  have hp₂ : 0 < s₂ := lt_trans (by norm_num) hs₂
  have hq : ∀ x y z x' y' z' : ℝ, (⟨e₁ * x / s₁, e₁ * y / s₁, e₁ * z / s₁⟩ : Vec3).dot ⟨e₂ * x' / s₂, e₂ * y' / s₂, e₂ * z' / s₂⟩ =
      (e₁ * e₂) * (x * x' + y * y' + z * z') / (s₁ * s₂) := by
    intro x y z x' y' z'
    unfold Vec3.dot
    field_simp
  rw [hq, div_le_iff₀ (mul_pos hp₁ hp₂)]
  have habs := abs_le.mp hd
  have hff : e₁ * e₂ = 1 ∨ e₁ * e₂ = -1 := by
    rcases he₁ with rfl | rfl <;> rcases he₂ with rfl | rfl <;> norm_num
  rcases hff with hff | hff <;> rw [hff] <;> linarith [habs.1, habs.2]

/-- The prefilter of the script on two tables. -/
theorem prefilter_tables {A B : List Pose} (hl : B.length = A.length) (hA : ∀ p ∈ A, p.q.norm = 1) (hB : ∀ p ∈ B, p.q.norm = 1)
    {p₀ q₀ : Pose} {A' B' : List Pose} (eA : A = p₀ :: A') (eB : B = q₀ :: B') (h : Spec.BothStartTurning A B) :
    ∃ bf wf, prefilterUsingScrewAxis (A.map fun p => rebase (DQuat.fromPose p₀).conj true (DQuat.fromPose p))
      (B.map fun p => rebase (DQuat.fromPose q₀).conj true (DQuat.fromPose p)) 0.95 = .ok (bf, wf) ∧ bf.length = wf.length ∧
      2 ≤ bf.length ∧ bf.length ≤ A.length := by
  obtain ⟨p, q, still, p₁, q₁, rest, p₂, q₂, hz, hstill, hm, f₁, f₂⟩ := h
  have h0 : p = p₀ ∧ q = q₀ := by
    rw [eA, eB, List.zip_cons_cons] at hz
    have := (List.cons.inj hz).1
    exact ⟨(congrArg Prod.fst this).symm, (congrArg Prod.snd this).symm⟩
  obtain ⟨rfl, rfl⟩ := h0
  obtain ⟨k, hk, hkm⟩ := List.mem_iff_getElem.mp hm
  have eA' : A = (A.zip B).map Prod.fst := (List.map_fst_zip (by omega)).symm
  have eB' : B = (A.zip B).map Prod.snd := (List.map_snd_zip (by omega)).symm
  have z1 : (A.zip B)[still.length + 1]? = some (p₁, q₁) := by rw [hz]; simp
  have z2 : (A.zip B)[still.length + 1 + (k + 1)]? = some (p₂, q₂) := by
    rw [hz, show still.length + 1 + (k + 1) = (still.length + (k + 1)) + 1 by omega, List.getElem?_cons_succ,
      List.getElem?_append_right (by omega), Nat.add_sub_cancel_left]
    simp [List.getElem?_eq_getElem hk, hkm]
  have getA : ∀ {i : ℕ} {m : Pose × Pose}, (A.zip B)[i]? = some m → A[i]? = some m.1 ∧ B[i]? = some m.2 := by
    intro i m h
    exact List.getElem?_zip_eq_some.mp h
  have hn0 := hA p (by rw [eA]; exact List.mem_cons_self)
  have hm0 := hB q (by rw [eB]; exact List.mem_cons_self)
  have inA : ∀ {i : ℕ} {r : Pose}, A[i]? = some r → r.q.norm = 1 := fun h => hA _ (List.mem_of_getElem? h)
  have inB : ∀ {i : ℕ} {r : Pose}, B[i]? = some r → r.q.norm = 1 := fun h => hB _ (List.mem_of_getElem? h)
  obtain ⟨n₁, n₂, a₁, a₂, a₃⟩ := farTurns_axes hn0 (inA (getA z1).1) (inA (getA z2).1) f₁
  obtain ⟨m₁, m₂, b₁, b₂, b₃⟩ := farTurns_axes hm0 (inB (getA z1).2) (inB (getA z2).2) f₂
  have unitOf : ∀ {L : List Pose} {r : Pose}, r.q.norm = 1 → (∀ p ∈ L, p.q.norm = 1) →
      ∀ a ∈ L.map (fun p => rebase (DQuat.fromPose r).conj true (DQuat.fromPose p)), Spec.IsUnit a := by
    intro L r hr hL a ha
    obtain ⟨p, hp, rfl⟩ := List.mem_map.mp ha
    have hu := DQuat.isUnit_mul (DQuat.isUnit_conj (fromPose_isUnit hr)) (fromPose_isUnit (hL p hp))
    rcases rebase_eq_or (DQuat.fromPose r).conj (DQuat.fromPose p) true with h | h <;> rw [h]
    · exact hu
    · exact DQuat.isUnit_neg hu
  have mapE : ∀ {L : List Pose} {i : ℕ} {r : Pose} (f : Pose → DQuat), L[i]? = some r → (L.map f)[i]? = some (f r) := by
    intro L i r f h
    rw [List.getElem?_map, h]
    rfl
  obtain ⟨bf, wf, r1, r2, r3, r4⟩ := prefilter_two (thr := 0.95) (t := still.length + 1) (j := still.length + 1 + (k + 1)) (by
      rw [List.length_map, List.length_map, hl]) (unitOf hn0 hA) (unitOf hm0 hB) (by omega) (by
      intro i hi
      have hlt : i < (A.zip B).length := by rw [hz]; simp; omega
      have hg := getA (List.getElem?_eq_getElem hlt)
      rw [mapE _ hg.1]
      have hnp := inA hg.1
      have hmot : ∀ x, Spec.poseMotion ((A.zip B)[i].1) x = Spec.poseMotion p x := by
        cases i with
        | zero => simp [hz]
        | succ i =>
          have : (A.zip B)[i + 1] = still[i]'(by omega) := by
            simp only [hz, List.getElem_cons_succ]
            rw [List.getElem_append_left]
          rw [this]
          exact hstill _ (List.getElem_mem _)
      rcases motion_ext (fromPose_isUnit hnp) (fromPose_isUnit hn0) (fun x => by
        rw [← poseMotion_eq hnp, ← poseMotion_eq hn0, hmot]) with e | e
      · rw [e]
        exact congrArg some (rebase_self (fromPose_isUnit hn0) true)
      · simp only [e, rebase, mul_neg, DQuat.conj_mul_unit (fromPose_isUnit hn0)]
        rw [if_pos trivial, if_pos (by simp), neg_neg]
        rfl) (mapE _ (getA z1).1) (mapE _ (getA z2).1) (mapE _ (getA z1).2) (mapE _ (getA z2).2) a₁ a₂ b₁ b₂ a₃ b₃
  exact ⟨bf, wf, r1, r2, r3, by rwa [List.length_map] at r4⟩

/-- C96, success: under the conditions of `C96_outliers`, if at least ten measurements are good and the first or the second one is among
them, and enough poses are left by the prefilter, the script ends normally (with a suitable one of the correct linear
algebra libraries, see C28).  Missing: for outliers at the beginning of the tables, see `C96_first_refuted`. -/
theorem C96_succeeds_partial : ∃ svd : Svd, (∀ T s V, svd T = .ok (s, V) → Spec.IsSVD T s V) ∧
    ∀ (g X : DQuat), Spec.IsUnit g → Spec.IsUnit X → X.rot.w ≠ 0 → ∀ A B : List Pose, (∀ p ∈ A, p.q.norm = 1) →
      (∀ p ∈ B, p.q.norm = 1) → B.length = A.length →
      (∀ p ∈ Spec.measurements A B, Spec.FitsMotion g X p → ∀ q ∈ Spec.measurements A B, Spec.Corresponds 0.01 p q →
        Spec.FitsMotion g X q) →
      (∀ p ∈ Spec.measurements A B, ¬ Spec.FitsMotion g X p →
        Spec.number (Spec.Corresponds 0.01 p) (Spec.measurements A B) < 10) →
      (∀ p ∈ A, ∀ q ∈ A, ¬ Spec.HalfTurn p q) → (∀ p ∈ B, ∀ q ∈ B, ¬ Spec.HalfTurn p q) →
      Spec.TurnsAboutTwoAxes (Spec.handsOf (Spec.FitsMotion g X) (Spec.measurements A B)) →
      10 ≤ Spec.number (Spec.FitsMotion g X) (Spec.measurements A B) →
      (∃ i < 2, ∃ m, (Spec.measurements A B)[i]? = some m ∧ Spec.FitsMotion g X m) → Spec.BothStartTurning A B →
      ∃ fuel, ∀ (rng : ℕ → List ℕ) (args : ScriptArgs), Given args.aligned_poses_B_H args.aligned_poses_H_B A →
        Given args.aligned_poses_W_E args.aligned_poses_E_W B →
        (args.calibration_output = true → args.time_offset_input.isSome) →
        ∃ out, calibrationScript svd rng fuel args = .ok (some out) := by
  obtain ⟨svd, hv, hgood⟩ := exists_good_svd
  refine ⟨svd, hv, ?_⟩
  intro g X hg hX hXw A B hA hB hl hvis hfew hnA hnB h2 hmin hfirst hst
  rw [measurements_eq hA hB] at hvis hfew h2 hmin hfirst
  have hlen : 10 ≤ A.length := by
    classical
    have := List.countP_le_length (p := fun m => decide (Spec.FitsMotion g X m))
      (l := (A.map DQuat.fromPose).zip (B.map DQuat.fromPose))
    rw [List.length_zip, List.length_map] at this
    unfold Spec.number at hmin
    omega
  obtain ⟨p₀, A', eA⟩ : ∃ p₀ A', A = p₀ :: A' := by
    cases A with
    | nil => simp at hlen
    | cons a l => exact ⟨a, l, rfl⟩
  obtain ⟨q₀, B', eB⟩ : ∃ q₀ B', B = q₀ :: B' := by
    cases B with
    | nil => rw [eA] at hl; simp at hl
    | cons a l => exact ⟨a, l, rfl⟩
  obtain ⟨bs, ws, d1, d2, eb, ew, hscript⟩ := script_tables hl hA hB hnA hnB eA eB
  obtain ⟨bf, wf, f1, f2, f3, f4⟩ := prefilter_tables hl hA hB eA eB hst
  rw [← d1, ← d2] at f1
  set cfg := getExhaustiveSearchScalarPartInliersConfig.config with hcfg
  have hthr : cfg.prefilter_dot_product_threshold = 0.95 := rfl
  have hsize : cfg.ransac_sample_size = 1 := rfl
  have hex : cfg.enable_exhaustive_search = true := rfl
  have hfil : filteredPoses cfg bs ws = .ok (bf, wf) := by
    unfold filteredPoses
    rw [if_pos (by rfl), hthr, f1, Py.ok_bind, pyAssert_pos f2.symm, Py.ok_bind]
    rfl
  have hbl : bs.length = A.length := by rw [d1, List.length_map]
  have hwl : ws.length = A.length := by rw [d2, List.length_map, hl]
  have hout : ∀ s, Spec.IsSample wf.length cfg.ransac_sample_size s → _ := fun s hs =>
    outcome_one (tol := 0.01) hv (cfg := cfg) rfl
      (by norm_num [hcfg, getExhaustiveSearchScalarPartInliersConfig, getBasicConfig]) (by norm_num) hg hX hXw
      (V := A.map DQuat.fromPose) (W := B.map DQuat.fromPose)
      (by rw [List.length_map, List.length_map, hl]) (poses_unit hA) (poses_unit hB) (poses_noHalfTurns hB hnB) hvis hfew h2
      (bs := bs) (ws := ws) (fun i => eb i) (fun i => ew i) hsize (bf := bf) (wf := wf) f2 (by rw [List.length_map]; omega) hs
  have hab : ∀ k, ∃ b, earlyAbort cfg k = .ok b := by
    intro k
    unfold earlyAbort
    rw [if_neg (by rw [hex]; simp)]
    exact ⟨false, rfl⟩
  have hsam : ∀ i < 2, Spec.IsSample wf.length cfg.ransac_sample_size [i] := by
    intro i hi
    exact ⟨hsize.symm, by simp, by simp; omega⟩
  obtain ⟨o, ho⟩ := ransac_ok (svd := svd) (rng := fun _ => [0]) (hwl.trans hbl.symm) (by rw [hsize, hwl]; omega) hfil
    (by rw [hsize]; omega) (fun _ => hsam 0 (by omega)) (fun s hs => (hout s hs).imp fun _ h => h.1) hab
    (wf.length.choose cfg.ransac_sample_size)
  cases o with
  | none =>
    exfalso
    refine C39_terminates svd (fun _ => [0]) cfg bs ws _ hex ?_ ho
    intro bf' wf' h
    rw [hfil] at h
    cases h
    exact le_rfl
  | some r =>
    have hsucc : r.success = true := by
      obtain ⟨bf', wf', samples, outs, k1, k2, -, -, k5⟩ := C39_exhaustive svd _ cfg bs ws _ r hex ho
      obtain ⟨bf'', wf'', samples', outs', m1, m2, m3, -⟩ := C38_success_iff svd _ cfg bs ws _ r ho
      rw [hfil] at k1 m1
      cases k1
      cases m1
      obtain ⟨rfl, rfl⟩ := course_unique k2 m2
      rw [m3]
      obtain ⟨i, hi, m, him, hfit⟩ := hfirst
      have hmem := (k5 [i]).mpr ⟨by simp, by simp; omega, hsize.symm⟩
      obtain ⟨n, hn'⟩ := List.getElem?_of_mem hmem
      obtain ⟨hlt, hns⟩ := List.getElem?_eq_some_iff.mp hn'
      have hz := List.forall₂_iff_get.mp k2.outcomes
      have hev := hz.2 n hlt (by rw [← hz.1]; exact hlt)
      simp only [List.get_eq_getElem] at hev
      rw [hns] at hev
      obtain ⟨o, o1, o2⟩ := hout [i] (hsam i hi)
      obtain ⟨c, rfl⟩ := o2 (by
          intro j hj m' hm'
          rw [List.mem_singleton.mp hj, him] at hm'
          cases hm'
          exact hfit) hmin (fun B' W' hE _ hT hh => hgood B' W' X hX hXw hE hT hh _
            (by norm_num [hcfg, getExhaustiveSearchScalarPartInliersConfig, getBasicConfig]))
      rw [hev] at o1
      exact ⟨c, by rw [← Except.ok.inj o1]; exact List.getElem_mem _⟩
    obtain ⟨dq', e1, e2, e3, -⟩ := ransac_outcome (tol := 0.01) hv rfl
      (by norm_num [hcfg, getExhaustiveSearchScalarPartInliersConfig, getBasicConfig]) (by norm_num) hg hX hXw
      (by rw [List.length_map, List.length_map, hl]) (poses_unit hA) (poses_unit hB) (poses_noHalfTurns hB hnB) hvis hfew h2
      (fun i => eb i) (fun i => ew i) ho hsucc
    refine ⟨wf.length.choose cfg.ransac_sample_size, fun rng args g1 g2 ht => ?_⟩
    obtain ⟨out, o1, -⟩ := outputs_of_result (args := args) hX hXw e1 e2 e3
    rw [hscript svd rng _ args g1 g2 ht, ransac_rng svd rng (fun _ => [0]) _ rfl, ho, Py.ok_bind, o1]
    exact ⟨out, rfl⟩

end HandEye
