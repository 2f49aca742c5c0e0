import Verif.Lemmas.OutlierSigns

/-! # C91 up to signs, and C96: the calibration script on tables with outliers -/

namespace HandEye

/-- C91 with free signs: as `C91_outliers`, where a measurement fits if the motions fit, so that each of the dual quaternions may
have either sign; no two poses of the eye differ by a half turn. -/
theorem C91_signs (svd : Svd) (hsvd : ∀ T s V, svd T = .ok (s, V) → Spec.IsSVD T s V)
    (rng : ℕ → List ℕ) (cfg : HandEyeConfig) (hmode : cfg.ransac_inlier_classification = .scalarPartEquality) (tol : ℝ)
    (ht : cfg.ransac_sample_rejection_scalar_part_equality_tolerance = tol) (htol : 0 ≤ tol)
    (g X : DQuat) (hg : Spec.IsUnit g) (hX : Spec.IsUnit X) (hXw : X.rot.w ≠ 0)
    (bs ws : List DQuat) (hb : ∀ a ∈ bs, Spec.IsUnit a) (hw : ∀ a ∈ ws, Spec.IsUnit a) (hnW : Spec.NoHalfTurns ws)
    (hvis : ∀ p ∈ bs.zip ws, Spec.FitsMotion g X p → ∀ q ∈ bs.zip ws, Spec.Corresponds tol p q → Spec.FitsMotion g X q)
    (hfew : ∀ p ∈ bs.zip ws, ¬ Spec.FitsMotion g X p → Spec.number (Spec.Corresponds tol p) (bs.zip ws) < cfg.min_num_inliers)
    (h2 : Spec.TurnsAboutTwoAxes (Spec.handsOf (Spec.FitsMotion g X) (bs.zip ws)))
    (fuel : ℕ) (r : CalibrationResult) (h : ransac svd rng cfg bs ws fuel = .ok (some r)) (hs : r.success = true) :
    ∃ dq, r.dq_H_E = some dq ∧ Spec.SameUpToSign dq X ∧ 0 ≤ dq.rot.w ∧
      r.num_inliers = Spec.number (Spec.FitsMotion g X) (bs.zip ws) ∧
      (cfg.ransac_evaluate_refined_model_on_inliers_only = true → r.rmse = some (0, 0)) :=
  ransac_outcome hsvd hmode ht htol hg hX hXw (ransac_some h).1 hb hw hnW hvis hfew h2 (fun _ => rfl) (fun _ => rfl) h hs

/-! ## The tables -/

theorem poseDual_eq {p : Pose} (h : p.q.norm = 1) : Spec.poseDual p = DQuat.fromPose p := by
  unfold Spec.poseDual DQuat.fromPose
  rw [Quat.normalize_unit (Quat.norm_eq_one.mp h)]
  have e : p.pos.toH * p.q.toH = ((⟨p.pos.x, p.pos.y, p.pos.z, 0⟩ : Quat) * p.q).toH := by
    rw [Quat.toH_mul]
    rfl
  rw [e]
  ext <;> norm_num [Quat.toH] <;> rfl

theorem measurements_eq {A B : List Pose} (hA : ∀ p ∈ A, p.q.norm = 1) (hB : ∀ p ∈ B, p.q.norm = 1) :
    Spec.measurements A B = (A.map DQuat.fromPose).zip (B.map DQuat.fromPose) := by
  unfold Spec.measurements
  rw [List.map_congr_left fun p hp => poseDual_eq (hA p hp), List.map_congr_left fun p hp => poseDual_eq (hB p hp)]

theorem poses_unit {A : List Pose} (hA : ∀ p ∈ A, p.q.norm = 1) : ∀ b ∈ A.map DQuat.fromPose, Spec.IsUnit b := by
  intro b hb
  obtain ⟨p, hp, rfl⟩ := List.mem_map.mp hb
  exact fromPose_isUnit (hA p hp)

theorem poses_noHalfTurns {A : List Pose} (hA : ∀ p ∈ A, p.q.norm = 1) (h : ∀ p ∈ A, ∀ q ∈ A, ¬ Spec.HalfTurn p q) :
    Spec.NoHalfTurns (A.map DQuat.fromPose) := by
  rw [noHalfTurns_iff]
  intro a ha b hb
  obtain ⟨p, hp, rfl⟩ := List.mem_map.mp ha
  obtain ⟨q, hq, rfl⟩ := List.mem_map.mp hb
  intro h0
  apply h p hp q hq
  unfold Spec.HalfTurn
  rw [← relative_toH (hA p hp) (hA q hq)]
  exact h0

/-- Aligning a second time, at any pose, is aligning once. -/
theorem align_again {v : List DQuat} (hu : ∀ a ∈ v, Spec.IsUnit a) (hne : Spec.NoHalfTurns v) {a₀ : DQuat} {l : List DQuat}
    (hv : v = a₀ :: l) : ∃ r, alignPathsAtIndex v = .ok r ∧ r = v.map (rebase a₀.conj true) ∧
      ∀ i : ℤ, alignPathsAtIndex r i = alignPathsAtIndex v i := by
  subst hv
  have h := align_unit (v := a₀ :: l) (pyPos_natCast (n := (a₀ :: l).length) (k := 0) (by simp)) hu true
  have h' : alignPathsAtIndex (a₀ :: l) = _ := h
  simp only [List.rotate_zero, List.getElem_cons_zero] at h'
  refine ⟨_, h', rfl, fun i => ?_⟩
  refine align_seen (DQuat.isUnit_conj (hu a₀ List.mem_cons_self)) hu ?_ i fun _ _ _ ha b hb =>
    noHalfTurns_iff.mp hne _ (List.mem_of_getElem? ha) b hb
  rw [List.forall₂_map_right_iff]
  exact List.forall₂_same.mpr fun b _ => rebase_eq_or a₀.conj b true

/-- What the calibration of the script works on. -/
theorem script_tables {A B : List Pose} (hl : B.length = A.length) (hA : ∀ p ∈ A, p.q.norm = 1) (hB : ∀ p ∈ B, p.q.norm = 1)
    (hnA : ∀ p ∈ A, ∀ q ∈ A, ¬ Spec.HalfTurn p q) (hnB : ∀ p ∈ B, ∀ q ∈ B, ¬ Spec.HalfTurn p q) {p₀ q₀ : Pose} {A' B' : List Pose}
    (eA : A = p₀ :: A') (eB : B = q₀ :: B') :
    ∃ bs ws, bs = A.map (fun p => rebase (DQuat.fromPose p₀).conj true (DQuat.fromPose p)) ∧
      ws = B.map (fun p => rebase (DQuat.fromPose q₀).conj true (DQuat.fromPose p)) ∧
      (∀ i : ℤ, alignPathsAtIndex bs i = alignPathsAtIndex (A.map DQuat.fromPose) i) ∧
      (∀ i : ℤ, alignPathsAtIndex ws i = alignPathsAtIndex (B.map DQuat.fromPose) i) ∧
      ∀ (svd : Svd) (rng : ℕ → List ℕ) (fuel : ℕ) (args : ScriptArgs),
      Given args.aligned_poses_B_H args.aligned_poses_H_B A → Given args.aligned_poses_W_E args.aligned_poses_E_W B →
      (args.calibration_output = true → args.time_offset_input.isSome) →
      calibrationScript svd rng fuel args = (do
        let r ← ransac svd rng getExhaustiveSearchScalarPartInliersConfig.config bs ws fuel
        writeOutputs args r) := by
  have hub := poses_unit hA
  have huw := poses_unit hB
  have hneA := poses_noHalfTurns hA hnA
  have hneB := poses_noHalfTurns hB hnB
  obtain ⟨bs, b1, b2, b3⟩ := align_again hub hneA (a₀ := DQuat.fromPose p₀) (l := A'.map DQuat.fromPose) (by rw [eA]; rfl)
  obtain ⟨ws, w1, w2, w3⟩ := align_again huw hneB (a₀ := DQuat.fromPose q₀) (l := B'.map DQuat.fromPose) (by rw [eB]; rfl)
  refine ⟨bs, ws, by rw [b2, List.map_map]; rfl, by rw [w2, List.map_map]; rfl, b3, w3, ?_⟩
  intro svd rng fuel args g1 g2 ht
  obtain ⟨i1, vb, j1, s1⟩ := given_input hA g1
  obtain ⟨i2, vw, j2, s2⟩ := given_input hB g2
  have hsb := align_signs hub s1 fun a ha b hb => noHalfTurns_iff.mp hneA a (List.mem_of_mem_head? ha) b hb
  have hsw := align_signs huw s2 fun a ha b hb => noHalfTurns_iff.mp hneB a (List.mem_of_mem_head? ha) b hb
  unfold calibrationScript
  rw [pyAssert_pos i1, Py.ok_bind, pyAssert_pos i2, Py.ok_bind, pyAssert_pos ht, Py.ok_bind, j1, Py.ok_bind, j2,
    Py.ok_bind, pyAssert_pos (by rw [← s1.length_eq, ← s2.length_eq, List.length_map, List.length_map, hl]), Py.ok_bind,
    hsb, b1, Py.ok_bind, hsw, w1, Py.ok_bind]

/-- Without a result, the script ends normally only if nothing is to be written. -/
theorem script_no_result {args : ScriptArgs} {r : CalibrationResult} (hr : r.dq_H_E = none) {out : ScriptOutput}
    (h : writeOutputs args (some r) = .ok (some out)) (ht : args.calibration_output = true → args.time_offset_input.isSome) :
    args.extrinsics_output = false ∧ args.calibration_output = false := by
  rw [C72_no_result args r hr] at h
  split at h
  · cases h
  · next hn =>
    push Not at hn
    obtain ⟨h1, h2⟩ := hn
    refine ⟨by simpa using h1, ?_⟩
    by_contra hcon
    have hcon : args.calibration_output = true := by simpa using hcon
    exact absurd (ht hcon) (by simpa using h2 hcon)

/-- C96: some rows of the two tables are exact measurements of two sensors on one body, with two rotation axes among them, and the
others are anything.  If no outlier has the scalar parts of a good measurement, seen from any good one, if seen from an outlier
fewer than ten measurements have matching scalar parts (up to 0.01), and if no two poses of a sensor differ by a half turn, then
whatever the calibration script writes is the true transform between the sensors. -/
theorem C96_outliers (svd : Svd) (hsvd : ∀ T s V, svd T = .ok (s, V) → Spec.IsSVD T s V)
    (rng : ℕ → List ℕ) (fuel : ℕ) (g X : DQuat) (hg : Spec.IsUnit g) (hX : Spec.IsUnit X) (hXw : X.rot.w ≠ 0)
    (A B : List Pose) (hA : ∀ p ∈ A, p.q.norm = 1) (hB : ∀ p ∈ B, p.q.norm = 1)
    (hvis : ∀ p ∈ Spec.measurements A B, Spec.FitsMotion g X p → ∀ q ∈ Spec.measurements A B, Spec.Corresponds 0.01 p q →
      Spec.FitsMotion g X q)
    (hfew : ∀ p ∈ Spec.measurements A B, ¬ Spec.FitsMotion g X p →
      Spec.number (Spec.Corresponds 0.01 p) (Spec.measurements A B) < 10)
    (hnA : ∀ p ∈ A, ∀ q ∈ A, ¬ Spec.HalfTurn p q) (hnB : ∀ p ∈ B, ∀ q ∈ B, ¬ Spec.HalfTurn p q)
    (h2 : Spec.TurnsAboutTwoAxes (Spec.handsOf (Spec.FitsMotion g X) (Spec.measurements A B))) (args : ScriptArgs)
    (h_B : Given args.aligned_poses_B_H args.aligned_poses_H_B A)
    (h_W : Given args.aligned_poses_W_E args.aligned_poses_E_W B) (out : ScriptOutput)
    (hout : calibrationScript svd rng fuel args = .ok (some out)) :
    (args.extrinsics_output = true → ∃ P, out.extrinsics = some P ∧ P.q.norm = 1 ∧ 0 < P.q.w ∧
      ∀ x, Spec.poseMotion P x = Spec.motion X x) ∧
    (args.calibration_output = true → ∃ f, out.calibration = some f ∧ some f.delay = args.time_offset_input ∧
      0 < f.w ∧ ∀ x, Spec.poseMotion ⟨⟨f.x, f.y, f.z⟩, ⟨f.i, f.j, f.k, f.w⟩⟩ x = Spec.motion X x) := by
  have hlen : B.length = A.length ∧ (args.calibration_output = true → args.time_offset_input.isSome) := by
    obtain ⟨-, vb, j1, s1⟩ := given_input hA h_B
    obtain ⟨-, vw, j2, s2⟩ := given_input hB h_W
    unfold calibrationScript at hout
    obtain ⟨-, -, hout⟩ := Py.bind_eq_ok.mp hout
    obtain ⟨-, -, hout⟩ := Py.bind_eq_ok.mp hout
    obtain ⟨u, hu, hout⟩ := Py.bind_eq_ok.mp hout
    rw [j1, Py.ok_bind, j2, Py.ok_bind] at hout
    obtain ⟨u', hu', -⟩ := Py.bind_eq_ok.mp hout
    refine ⟨?_, ?_⟩
    · by_contra hcon
      rw [pyAssert_neg (by
        rw [← s1.length_eq, ← s2.length_eq, List.length_map, List.length_map]
        exact fun h => hcon h.symm)] at hu'
      cases hu'
    · by_contra hcon
      rw [pyAssert_neg hcon] at hu
      cases hu
  obtain ⟨hl, ht⟩ := hlen
  rw [measurements_eq hA hB] at hvis hfew h2
  obtain ⟨p₀, A', eA⟩ : ∃ p₀ A', A = p₀ :: A' := by
    cases A with
    | nil =>
      obtain ⟨a, ha, -⟩ := h2
      simp [Spec.handsOf] at ha
    | cons a l => exact ⟨a, l, rfl⟩
  obtain ⟨q₀, B', eB⟩ : ∃ q₀ B', B = q₀ :: B' := by
    cases B with
    | nil => rw [eA] at hl; simp at hl
    | cons a l => exact ⟨a, l, rfl⟩
  obtain ⟨bs, ws, -, -, eb, ew, hscript⟩ := script_tables hl hA hB hnA hnB eA eB
  rw [hscript svd rng fuel args h_B h_W ht] at hout
  obtain ⟨r, hr, hout⟩ := Py.bind_eq_ok.mp hout
  cases r with
  | none => cases hout
  | some r =>
    have hsucc := ransac_success hr
    cases hdq : r.dq_H_E with
    | none =>
      obtain ⟨n1, n2⟩ := script_no_result hdq hout ht
      rw [n1, n2]
      exact ⟨fun h => by simp at h, fun h => by simp at h⟩
    | some dq =>
      rw [hdq] at hsucc
      obtain ⟨dq', e1, e2, e3, -⟩ := ransac_outcome (tol := 0.01) hsvd rfl
        (by norm_num [getExhaustiveSearchScalarPartInliersConfig, getBasicConfig]) (by norm_num) hg hX hXw
        (by rw [List.length_map, List.length_map, hl]) (poses_unit hA) (poses_unit hB) (poses_noHalfTurns hB hnB) hvis hfew h2
        (fun i => eb i) (fun i => ew i) hr hsucc
      obtain ⟨out', o1, o2, -, o4, -⟩ := outputs_of_result (args := args) hX hXw e1 e2 e3
      rw [o1] at hout
      cases hout
      refine ⟨o2, fun hc => ?_⟩
      obtain ⟨t, htt⟩ := Option.isSome_iff_exists.mp (ht hc)
      obtain ⟨f, f1, f2, f3⟩ := o4 hc t htt
      exact ⟨f, f1, by rw [f2, htt], f3⟩

end HandEye
