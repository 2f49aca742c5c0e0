import Verif.Props.Figures
import Verif.Props.AlignedPoses

/-!
# C83: the figures of the input data, of the filter and of the aligned poses

For: `plot_input_data`, `plot_angular_velocities` and `plot_time_stamped_poses` in
`/repo/hand_eye_calibration/python/hand_eye_calibration/time_alignment_plotting_tools.py`:77-224, and what `time_alignment.py`
passes to them.
-/

namespace HandEye

namespace Spec

/-- The curve shows the values in their order, over 0, 1, 2, ... -/
def Shows (c : Curve) (values : List ℝ) : Prop :=
  c.ys = values ∧ c.xs.length = values.length ∧ ∀ (i : ℕ) (x : ℝ), c.xs[i]? = some x → x = i

/-- The curves show the components of quaternions. -/
def ShowsQuats (c : QuatCurves) (qs : List Quat) : Prop :=
  Shows c.x (qs.map fun q => q.x) ∧ Shows c.y (qs.map fun q => q.y) ∧ Shows c.z (qs.map fun q => q.z) ∧
    Shows c.w (qs.map fun q => q.w)

/-- The curves show the components of vectors. -/
def ShowsVectors (c : Vec3Curves) (v : List Vec3) : Prop :=
  Shows c.x (v.map fun u => u.x) ∧ Shows c.y (v.map fun u => u.y) ∧ Shows c.z (v.map fun u => u.z)

end Spec

theorem plotY_shows (l : List ℝ) : Spec.Shows (plotY l) l := by
  refine ⟨rfl, by simp [plotY], fun i x h => ?_⟩
  unfold plotY at h
  rw [List.getElem?_map, Option.map_eq_some_iff] at h
  obtain ⟨k, hk, rfl⟩ := h
  obtain ⟨h1, h2⟩ := List.getElem?_eq_some_iff.mp hk
  rw [List.getElem_range] at h2
  rw [h2]

theorem plotVec3_shows (v : List Vec3) : Spec.ShowsVectors (plotVec3 v) v :=
  ⟨plotY_shows _, plotY_shows _, plotY_shows _⟩

theorem plotQuats_ok {qs : List Quat} (h : qs ≠ []) : ∃ c, plotQuats qs = .ok c ∧ Spec.ShowsQuats c qs := by
  unfold plotQuats
  rw [pyRequire_pos (by simpa using h), Py.ok_bind]
  exact ⟨_, rfl, plotY_shows _, plotY_shows _, plotY_shows _, plotY_shows _⟩

/-- C83 for the input data, as far as it holds: whenever the norms of the angular velocities of both signals can be computed,
the figure is drawn; its panels show the input orientations, the resampled orientations, and the norms after the filter.
Missing: the panel "Norm of angular velocity" does not show the norms before the filter, but the same curve as the panel
"Norm of angular velocity [median filter]" (see `C83_input_refuted`). -/
theorem C83_input_partial (times_A times_B samples_A samples_B norms_A norms_B : List ℝ) (qs_A qs_B interp_A interp_B : List Quat)
    (dt_A dt_B : ℝ) (cfg : FilteringConfig) (hdA : npMean (npDiff times_A) = .ok dt_A)
    (hdB : npMean (npDiff times_B) = .ok dt_B) (hqA : qs_A ≠ []) (hqB : qs_B ≠ [])
    (hrA : resampleQuaternions times_A qs_A (max dt_A dt_B) = .ok (interp_A, samples_A))
    (hrB : resampleQuaternions times_B qs_B (max dt_A dt_B) = .ok (interp_B, samples_B))
    (hnA : computeAngularVelocityNorms interp_A samples_A cfg.smoothing_kernel_size_A cfg.clipping_percentile_A = .ok norms_A)
    (hnB : computeAngularVelocityNorms interp_B samples_B cfg.smoothing_kernel_size_B cfg.clipping_percentile_B = .ok norms_B)
    (hlen : norms_A.length + 1 = samples_A.length) :
    ∃ a b, inputFigure times_A qs_A times_B qs_B cfg = .ok (a, b) ∧
      Spec.ShowsQuats a.input qs_A ∧ Spec.ShowsQuats b.input qs_B ∧
      Spec.ShowsQuats a.interpolated interp_A ∧ Spec.ShowsQuats b.interpolated interp_B ∧
      Spec.Shows a.norms_filtered norms_A ∧ Spec.Shows b.norms_filtered norms_B ∧
      a.norms = a.norms_filtered ∧ b.norms = b.norms_filtered := by
  have hne : ∀ {qs : List Quat} {s : List ℝ} {k : ℕ} {p : ℝ} {n : List ℝ},
      computeAngularVelocityNorms qs s k p = .ok n → qs ≠ [] := by
    rintro qs s k p n h rfl
    unfold computeAngularVelocityNorms pyRequire at h
    simp only [List.length_nil, ne_eq, not_true_eq_false, if_false] at h
    cases h
  obtain ⟨c₁, h1, h1'⟩ := plotQuats_ok hqA
  obtain ⟨c₂, h2, h2'⟩ := plotQuats_ok (hne hnA)
  obtain ⟨c₃, h3, h3'⟩ := plotQuats_ok hqB
  obtain ⟨c₄, h4, h4'⟩ := plotQuats_ok (hne hnB)
  have hmax : (if dt_A ≥ dt_B then dt_A else dt_B) = max dt_A dt_B := by
    split
    · next h => exact (max_eq_left h).symm
    · next h => exact (max_eq_right (not_le.mp h).le).symm
  refine ⟨⟨c₁, c₂, plotY norms_A, plotY norms_A⟩, ⟨c₃, c₄, plotY norms_B, plotY norms_B⟩, ?_, h1', h3', h2', h4',
    plotY_shows _, plotY_shows _, rfl, rfl⟩
  unfold inputFigure
  rw [hdA, Py.ok_bind, hdB, Py.ok_bind]
  dsimp only
  rw [hmax, hrA, Py.ok_bind]
  dsimp only
  rw [hrB, Py.ok_bind]
  dsimp only
  rw [hnA, Py.ok_bind, hnB, Py.ok_bind, pyAssert_pos (by rw [List.length_take]; omega), Py.ok_bind]
  unfold plotInputPanels
  rw [h1, Py.ok_bind, h2, Py.ok_bind, h3, Py.pure_eq, Py.ok_bind, Py.ok_bind, h4, Py.ok_bind, Py.pure_eq, Py.ok_bind]
  rfl

/-- A body turning about the x axis, in the positive sense, by `2 * h` per step. -/
noncomputable def turningBack (h : ℝ) (i : ℕ) : Quat := ⟨Real.sin (i * h), 0, 0, Real.cos (i * h)⟩

theorem turningBack_velocity {h : ℝ} (h0 : 0 < h) (h1 : h ≤ Real.pi / 2) (hc : 1e-12 + 1e-5 < 1 - Real.cos h) (i : ℕ) :
    angularVelocityBetweenQuaternions (turningBack h i) (turningBack h (i + 1)) 1 = .ok ⟨-h, 0, 0⟩ := by
  have hd : turningBack h i * (turningBack h (i + 1)).conj = ⟨-1 * Real.sin h, 0, 0, Real.cos h⟩ := by
    have e : (((i + 1 : ℕ) : ℝ) * h) = i * h + h := by push_cast; ring
    have hsc := Real.sin_sq_add_cos_sq (i * h)
    unfold turningBack
    rw [e, Real.sin_add, Real.cos_add]
    ext
    · simp; linear_combination -Real.sin h * hsc
    · simp
    · simp
    · simp; linear_combination Real.cos h * hsc
  have hu : (turningBack h (i + 1)).dot (turningBack h (i + 1)) = 1 := by
    simp only [turningBack, Quat.dot]
    linear_combination Real.sin_sq_add_cos_sq (((i + 1 : ℕ) : ℝ) * h)
  rw [velocity_x hu hd h0 h1 hc, neg_one_mul]

/-- C83 is false for the panel "Norm of angular velocity": for a body that turns at constant speed, the angular velocities
of the orientations in the panel next to it all have the norm `h`, but the panel shows zeros, because it shows
the filtered norms.  This holds for all lengths of the data, all rates, and all settings with percentiles of at least 99. -/
theorem C83_input_refuted (N : ℕ) (h : ℝ) (cfg : FilteringConfig) (hN : 2 ≤ N) (h0 : 0 < h) (h1 : h ≤ Real.pi / 2)
    (hc : 1e-12 + 1e-5 < 1 - Real.cos h) (hkA : 0 < cfg.smoothing_kernel_size_A) (hkB : 0 < cfg.smoothing_kernel_size_B)
    (hpA : 99 ≤ cfg.clipping_percentile_A) (hpA' : cfg.clipping_percentile_A ≤ 100)
    (hpB : 99 ≤ cfg.clipping_percentile_B) (hpB' : cfg.clipping_percentile_B ≤ 100) :
    ∃ a b, inputFigure (seconds N) ((List.range (N + 1)).map (turningBack h)) (seconds N)
        ((List.range (N + 1)).map (turningBack h)) cfg = .ok (a, b) ∧
      Spec.ShowsQuats a.interpolated ((List.range (N + 1)).map (turningBack h)) ∧
      Spec.Shows a.norms (List.replicate N 0) ∧
      ∀ i : ℕ, ∃ v, angularVelocityBetweenQuaternions (turningBack h i) (turningBack h (i + 1)) 1 = .ok v ∧ v.norm = h := by
  have hv := turningBack_velocity h0 h1 hc
  obtain ⟨-, -, -, -, a1⟩ := C63_refuted N cfg.smoothing_kernel_size_A h cfg.clipping_percentile_A hN hkA h0 hpA hpA'
  obtain ⟨-, -, -, -, b1⟩ := C63_refuted N cfg.smoothing_kernel_size_B h cfg.clipping_percentile_B hN hkB h0 hpB hpB'
  have nA := velocities hv _ _ a1
  have nB := velocities hv _ _ b1
  rw [List.map_replicate, Vec3.norm_eq_zero.mpr rfl] at nA nB
  have hne : (List.range (N + 1)).map (turningBack h) ≠ [] := by simp
  have hr := resample_seconds (N := N) (by omega) (turningBack h)
  obtain ⟨a, b, e1, -, -, e2, -, e3, -, e4, -⟩ := C83_input_partial (seconds N) (seconds N) (seconds N) (seconds N) _ _ _ _ _ _ 1
    1 cfg (seconds_mean (by omega)) (seconds_mean (by omega)) hne hne (by rw [max_self]; exact hr)
    (by rw [max_self]; exact hr) nA nB (by simp [seconds])
  refine ⟨a, b, e1, e2, by rw [e4]; exact e3, fun i => ⟨_, hv i, ?_⟩⟩
  unfold Vec3.norm Vec3.dot
  have : -h * -h + 0 * 0 + 0 * 0 = h ^ 2 := by ring
  rw [this, Real.sqrt_sq h0.le]

/-- The hypotheses are satisfiable: the default settings, a quarter turn per second. -/
example : ∃ a b, inputFigure (seconds 100) ((List.range 101).map (turningBack (Real.pi / 4))) (seconds 100)
      ((List.range 101).map (turningBack (Real.pi / 4))) {} = .ok (a, b) ∧ a.norms.ys = List.replicate 100 0 := by
  have hc : 1e-12 + 1e-5 < 1 - Real.cos (Real.pi / 4) := by
    rw [Real.cos_pi_div_four]
    have : Real.sqrt 2 < 1.5 := by
      rw [Real.sqrt_lt' (by norm_num)]; norm_num
    norm_num at this ⊢
    linarith
  obtain ⟨a, b, e1, -, e2, -⟩ := C83_input_refuted 100 (Real.pi / 4) {} (by norm_num) (by positivity)
    (by linarith [Real.pi_pos]) hc (by norm_num) (by norm_num) (by norm_num) (by norm_num) (by norm_num) (by norm_num)
  exact ⟨a, b, e1, e2.1⟩

/-- C83 for the filter: the figure shows the angular velocities before and after filtering, with as many values. -/
theorem C83_velocities (v : List Vec3) (k : ℕ) (p : ℝ) (hv : v ≠ []) (hk : 0 < k) (h0 : 0 ≤ p) (h1 : p ≤ 100) :
    ∃ before after filtered, plotVelocities v k p = .ok (before, after) ∧ filterAndSmooth v k p = .ok filtered ∧
      Spec.ShowsVectors before v ∧ Spec.ShowsVectors after filtered ∧ filtered.length = v.length := by
  obtain ⟨-, out, -, -, -, a1, a2, -⟩ := C48_filter v k p hv hk h0 h1
  refine ⟨_, _, out, ?_, a1, plotVec3_shows v, plotVec3_shows out, a2⟩
  unfold plotVelocities
  rw [a1, Py.ok_bind]
  rfl

/-- Three velocities. -/
example : ∃ before after, plotVelocities [⟨1, 0, 0⟩, ⟨0, 2, 0⟩, ⟨0, 0, 3⟩] 25 99.5 = .ok (before, after) ∧
    before.x.ys = [1, 0, 0] := by
  obtain ⟨b, a, -, h, -, h1, -⟩ := C83_velocities [⟨1, 0, 0⟩, ⟨0, 2, 0⟩, ⟨0, 0, 3⟩] 25 99.5 (by simp) (by norm_num)
    (by norm_num) (by norm_num)
  exact ⟨b, a, h, h1.1.1⟩

/-- C83 for the aligned poses: the figure is drawn whenever the poses are aligned; it shows all aligned poses of A on top, all
of B at the bottom, and both have the same number of them. -/
theorem C83_aligned (poses_A poses_B aligned_A aligned_B : List StampedPose) (time_offset : ℝ)
    (h : computeAlignedPoses poses_A poses_B time_offset = .ok (aligned_A, aligned_B)) :
    ∃ a b, alignedFigure poses_A poses_B time_offset = .ok (a, b) ∧
      Spec.ShowsQuats a.orientation (aligned_A.map fun p => p.pose.q) ∧
      Spec.ShowsVectors a.position (aligned_A.map fun p => p.pose.pos) ∧
      Spec.ShowsQuats b.orientation (aligned_B.map fun p => p.pose.q) ∧
      Spec.ShowsVectors b.position (aligned_B.map fun p => p.pose.pos) ∧
      aligned_A.length = aligned_B.length := by
  have hs : ∀ l : List StampedPose, Spec.ShowsQuats (plotStampedPoses l).orientation (l.map fun p => p.pose.q) := by
    intro l
    unfold plotStampedPoses Spec.ShowsQuats
    simp only [List.map_map]
    exact ⟨plotY_shows _, plotY_shows _, plotY_shows _, plotY_shows _⟩
  refine ⟨plotStampedPoses aligned_A, plotStampedPoses aligned_B, ?_, hs _, plotVec3_shows _, hs _, plotVec3_shows _, ?_⟩
  · unfold alignedFigure
    rw [h, Py.ok_bind]
    rfl
  · unfold computeAlignedPoses at h
    simp only [Py.bind_eq_ok] at h
    obtain ⟨_, _, _, _, _, _, _, _, _, _, _, _, _, _, _, ha, _, _, e⟩ := h
    cases e
    exact pyAssert_eq_ok.mp ha

/-- Two poses each: the one pose that is kept is shown. -/
example : ∃ a b, alignedFigure [⟨0, ⟨⟨5, 0, 0⟩, ⟨0, 0, 0, 1⟩⟩⟩, ⟨1, ⟨⟨6, 0, 0⟩, ⟨0, 0, 1, 0⟩⟩⟩]
    [⟨0, ⟨⟨5, 0, 0⟩, ⟨0, 0, 0, 1⟩⟩⟩, ⟨1, ⟨⟨6, 0, 0⟩, ⟨0, 0, 1, 0⟩⟩⟩] 0 = .ok (a, b) ∧ a.position.x.ys.length = 1 := by
  obtain ⟨RA, RB, h, h1, -⟩ := C62_refuted ⟨0, ⟨⟨5, 0, 0⟩, ⟨0, 0, 0, 1⟩⟩⟩ ⟨1, ⟨⟨6, 0, 0⟩, ⟨0, 0, 1, 0⟩⟩⟩ (by norm_num)
    (by simp [Quat.norm, Quat.dot]) (by simp [Quat.norm, Quat.dot])
  obtain ⟨a, b, e, -, h2, -⟩ := C83_aligned _ _ _ _ _ h
  refine ⟨a, b, e, ?_⟩
  rw [h2.1.1]
  have := congrArg List.length h1
  simpa using this

end HandEye
