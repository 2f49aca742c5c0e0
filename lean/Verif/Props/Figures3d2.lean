import Verif.Props.Figures3d
import Verif.Lemmas.Plots

/-!
# C84: the figures of trajectories and errors show the poses that they are given

For: `plot_poses` in `/repo/hand_eye_calibration/python/hand_eye_calibration/hand_eye_calibration_plotting_tools.py`:37-117.
-/

namespace HandEye

theorem least_three {a b c m : ℝ} (h : npAmin [a, b, c] = .ok m) : m ≤ a ∧ m ≤ b ∧ m ≤ c ∧ (m = a ∨ m = b ∨ m = c) := by
  obtain ⟨h1, h2⟩ := npAmin_eq_ok.mp h
  exact ⟨h2 a (by simp), h2 b (by simp), h2 c (by simp), by simpa using h1⟩

theorem greatest_three {a b c m : ℝ} (h : npAmax [a, b, c] = .ok m) : a ≤ m ∧ b ≤ m ∧ c ≤ m ∧ (m = a ∨ m = b ∨ m = c) := by
  obtain ⟨h1, h2⟩ := npAmax_eq_ok.mp h
  exact ⟨h2 a (by simp), h2 b (by simp), h2 c (by simp), by simpa using h1⟩

/-- The figure of up to five non-empty lists of poses. -/
theorem plotPoses_ok {poses_list : List (List Pose)} (plot_arrows : Bool) (h0 : poses_list ≠ [])
    (h5 : poses_list.length ≤ 5) (h : ∀ poses ∈ poses_list, poses ≠ []) :
    ∃ fig hi lo, plotPoses poses_list plot_arrows = .ok fig ∧ Spec.BoundingBox lo hi (poses_list.flatten.map Pose.pos) ∧
      npAmin [lo.x, lo.y, lo.z] = .ok fig.axis_min ∧ npAmax [hi.x, hi.y, hi.z] = .ok fig.axis_max ∧
      fig.arrow_size = (hi - lo).norm * 0.05 ∧ fig.paths = List.zipWith (fun poses color =>
        ⟨color, poses.map Pose.pos, poses.map (poseArrows plot_arrows fig.arrow_size)⟩) poses_list pathColors := by
  obtain ⟨hi, lo, hb, hbox⟩ := computeBbox3D_ok h0 h
  obtain ⟨mn, hmn⟩ := npAmin_ok (l := [lo.x, lo.y, lo.z]) (by simp)
  obtain ⟨mx, hmx⟩ := npAmax_ok (l := [hi.x, hi.y, hi.z]) (by simp)
  refine ⟨⟨mn, mx, (hi - lo).norm * 0.05, List.zipWith (fun poses color =>
    ⟨color, poses.map Pose.pos, poses.map (poseArrows plot_arrows ((hi - lo).norm * 0.05))⟩) poses_list pathColors⟩,
    hi, lo, ?_, hbox, hmn, hmx, rfl, rfl⟩
  unfold plotPoses
  rw [pyAssert_pos (by change _ < 6; omega), Py.ok_bind, hb, Py.ok_bind]
  dsimp only
  rw [hmn, Py.ok_bind, hmx, Py.ok_bind, Py.pure_eq]

/-- C84, positions: up to five non-empty trajectories are drawn, each as the line through all of its positions in their order and
in a colour of its own.  The three axes have the same limits; all positions are within them, and no smaller limits
would do. -/
theorem C84_positions (poses_list : List (List Pose)) (plot_arrows : Bool) (h0 : poses_list ≠ [])
    (h5 : poses_list.length ≤ 5) (h : ∀ poses ∈ poses_list, poses ≠ []) :
    ∃ fig, plotPoses poses_list plot_arrows = .ok fig ∧
      fig.paths.map PathDrawing.line = poses_list.map (fun poses => poses.map fun p => p.pos) ∧
      (fig.paths.map PathDrawing.color).Nodup ∧
      (∀ poses ∈ poses_list, ∀ p ∈ poses, (fig.axis_min ≤ p.pos.x ∧ p.pos.x ≤ fig.axis_max) ∧
        (fig.axis_min ≤ p.pos.y ∧ p.pos.y ≤ fig.axis_max) ∧ (fig.axis_min ≤ p.pos.z ∧ p.pos.z ≤ fig.axis_max)) ∧
      (∃ poses ∈ poses_list, ∃ p ∈ poses, p.pos.x = fig.axis_min ∨ p.pos.y = fig.axis_min ∨ p.pos.z = fig.axis_min) ∧
      (∃ poses ∈ poses_list, ∃ p ∈ poses, p.pos.x = fig.axis_max ∨ p.pos.y = fig.axis_max ∨ p.pos.z = fig.axis_max) := by
  obtain ⟨fig, hi, lo, e, ⟨lx, ly, lz, gx, gy, gz⟩, e1, e2, e3, e4⟩ := plotPoses_ok plot_arrows h0 h5 h
  obtain ⟨a1, a2, a3, a4⟩ := least_three e1
  obtain ⟨b1, b2, b3, b4⟩ := greatest_three e2
  have hc : pathColors.length = 6 := rfl
  have hmem : ∀ {f : Vec3 → ℝ} {m : ℝ}, m ∈ (poses_list.flatten.map Pose.pos).map f →
      ∃ poses ∈ poses_list, ∃ p ∈ poses, f p.pos = m := by
    intro f m hm
    rw [List.map_map] at hm
    obtain ⟨p, hp, e⟩ := List.mem_map.mp hm
    obtain ⟨poses, h1, h2⟩ := List.mem_flatten.mp hp
    exact ⟨poses, h1, p, h2, e⟩
  refine ⟨fig, e, ?_, ?_, ?_, ?_, ?_⟩
  · rw [e4, List.map_zipWith]
    apply List.ext_getElem
    · simp; omega
    · intro i h1 h2
      simp
  · rw [e4, List.map_zipWith]
    have : List.zipWith (fun (_ : List Pose) (col : PlotColor) => col) poses_list pathColors =
        pathColors.take poses_list.length := by
      apply List.ext_getElem
      · simp
      · intro i h1 h2
        simp
    rw [this]
    exact List.Nodup.sublist (List.take_sublist _ _) (by decide)
  · intro poses hp p hpp
    have hm : ∀ f : Vec3 → ℝ, f p.pos ∈ (poses_list.flatten.map Pose.pos).map f := by
      intro f
      rw [List.map_map]
      exact List.mem_map.mpr ⟨p, List.mem_flatten.mpr ⟨poses, hp, hpp⟩, rfl⟩
    exact ⟨⟨a1.trans (lx.2 _ (hm _)), (gx.2 _ (hm _)).trans b1⟩, ⟨a2.trans (ly.2 _ (hm _)), (gy.2 _ (hm _)).trans b2⟩,
      ⟨a3.trans (lz.2 _ (hm _)), (gz.2 _ (hm _)).trans b3⟩⟩
  · rcases a4 with e | e | e
    · obtain ⟨poses, h1, p, h2, h3⟩ := hmem lx.1
      exact ⟨poses, h1, p, h2, .inl (h3.trans e.symm)⟩
    · obtain ⟨poses, h1, p, h2, h3⟩ := hmem ly.1
      exact ⟨poses, h1, p, h2, .inr (.inl (h3.trans e.symm))⟩
    · obtain ⟨poses, h1, p, h2, h3⟩ := hmem lz.1
      exact ⟨poses, h1, p, h2, .inr (.inr (h3.trans e.symm))⟩
  · rcases b4 with e | e | e
    · obtain ⟨poses, h1, p, h2, h3⟩ := hmem gx.1
      exact ⟨poses, h1, p, h2, .inl (h3.trans e.symm)⟩
    · obtain ⟨poses, h1, p, h2, h3⟩ := hmem gy.1
      exact ⟨poses, h1, p, h2, .inr (.inl (h3.trans e.symm))⟩
    · obtain ⟨poses, h1, p, h2, h3⟩ := hmem gz.1
      exact ⟨poses, h1, p, h2, .inr (.inr (h3.trans e.symm))⟩

/-- Two poses, drawn as one trajectory. -/
example : ∃ fig, plotPoses [[⟨⟨0, 0, 0⟩, ⟨0, 0, 0, 1⟩⟩, ⟨⟨1, 2, 3⟩, ⟨0, 0, 1, 0⟩⟩]] true = .ok fig ∧ fig.axis_min ≤ 0 ∧
    3 ≤ fig.axis_max := by
  obtain ⟨fig, e, -, -, h, -⟩ := C84_positions [[⟨⟨0, 0, 0⟩, ⟨0, 0, 0, 1⟩⟩, ⟨⟨1, 2, 3⟩, ⟨0, 0, 1, 0⟩⟩]] true (by simp) (by simp)
    (by simp)
  exact ⟨fig, e, (h _ (List.mem_singleton.mpr rfl) _ (List.mem_cons_self ..)).1.1,
    (h _ (List.mem_singleton.mpr rfl) _ (List.mem_cons_of_mem _ (List.mem_cons_self ..))).2.2.2⟩

namespace Spec

/-- The three arrows show the axes of the frame at the pose, as long as `size`: they start at the position and point along
the turned axes `q e q*`, red for x, green for y, blue for z. -/
def ShowsFrame (arrows : List Arrow) (p : Pose) (size : ℝ) : Prop :=
  ∃ a b c, arrows = [a, b, c] ∧ a.color = .r ∧ b.color = .g ∧ c.color = .b ∧
    a.tail = p.pos ∧ b.tail = p.pos ∧ c.tail = p.pos ∧
    (a.head - a.tail).toH = size • (p.q.toH * (⟨1, 0, 0⟩ : Vec3).toH * star p.q.toH) ∧
    (b.head - b.tail).toH = size • (p.q.toH * (⟨0, 1, 0⟩ : Vec3).toH * star p.q.toH) ∧
    (c.head - c.tail).toH = size • (p.q.toH * (⟨0, 0, 1⟩ : Vec3).toH * star p.q.toH) ∧
    (a.head - a.tail).norm = size ∧ (b.head - b.tail).norm = size ∧ (c.head - c.tail).norm = size

end Spec

theorem poseArrows_frame {s : ℝ} (hs : 0 ≤ s) {p : Pose} (hp : p.q.norm = 1) : Spec.ShowsFrame (poseArrows true s p) p s := by
  have key : ∀ (v : Vec3) (col : PlotColor), ((axisArrow s p v col).head - (axisArrow s p v col).tail) = s • p.q.rotateVector v := by
    intro v col
    unfold axisArrow
    ext <;> simp
  have key2 : ∀ (v : Vec3), (s • p.q.rotateVector v).toH = s • (p.q.toH * v.toH * star p.q.toH) := by
    intro v
    rw [← C03_sandwich _ _ hp]
    ext <;> simp
  have key3 : ∀ v : Vec3, v.norm = 1 → (s • p.q.rotateVector v).norm = s := by
    intro v hv
    have h1 := (C03_isometry p.q v v hp).2
    rw [hv] at h1
    unfold Vec3.norm at h1 ⊢
    have : (s • p.q.rotateVector v).dot (s • p.q.rotateVector v) = s ^ 2 * (p.q.rotateVector v).dot (p.q.rotateVector v) := by
      simp only [Vec3.dot, Vec3.smul_x, Vec3.smul_y, Vec3.smul_z]; ring
    rw [this, Real.sqrt_mul (sq_nonneg s), h1, Real.sqrt_sq hs, mul_one]
  refine ⟨_, _, _, rfl, rfl, rfl, rfl, rfl, rfl, rfl, ?_, ?_, ?_, ?_, ?_, ?_⟩
  · rw [key, key2]
  · rw [key, key2]
  · rw [key, key2]
  · rw [key]; exact key3 _ (by simp [Vec3.norm, Vec3.dot])
  · rw [key]; exact key3 _ (by simp [Vec3.norm, Vec3.dot])
  · rw [key]; exact key3 _ (by simp [Vec3.norm, Vec3.dot])

/-- C84, orientations: at every pose (with a unit quaternion) the three arrows show its frame; all arrows have the same size,
a twentieth of the diagonal of the smallest box around all positions. -/
theorem C84_arrows_partial (poses_list : List (List Pose)) (h0 : poses_list ≠ []) (h5 : poses_list.length ≤ 5)
    (h : ∀ poses ∈ poses_list, poses ≠ []) (hu : ∀ poses ∈ poses_list, ∀ p ∈ poses, p.q.norm = 1) :
    ∃ fig hi lo, plotPoses poses_list true = .ok fig ∧ Spec.BoundingBox lo hi (poses_list.flatten.map fun p => p.pos) ∧
      fig.arrow_size = (hi - lo).norm / 20 ∧ fig.paths.length = poses_list.length ∧
      ∀ (i j : ℕ) (path : PathDrawing) (poses : List Pose) (p : Pose), fig.paths[i]? = some path →
        poses_list[i]? = some poses → poses[j]? = some p →
        ∃ arrows, path.arrows[j]? = some arrows ∧ Spec.ShowsFrame arrows p fig.arrow_size := by
  obtain ⟨fig, hi, lo, e, hbox, -, -, e3, e4⟩ := plotPoses_ok true h0 h5 h
  have hs : 0 ≤ fig.arrow_size := by
    rw [e3]; exact mul_nonneg (Real.sqrt_nonneg _) (by norm_num)
  refine ⟨fig, hi, lo, e, hbox, by rw [e3]; norm_num; ring, ?_, ?_⟩
  · rw [e4]
    have : pathColors.length = 6 := rfl
    simp; omega
  · intro i j path poses p h1 h2 h3
    rw [e4, List.getElem?_zipWith, h2] at h1
    cases hcol : pathColors[i]? with
    | none => rw [hcol] at h1; cases h1
    | some col =>
      rw [hcol] at h1
      cases h1
      refine ⟨poseArrows true fig.arrow_size p, by simp [h3], poseArrows_frame hs (hu poses ?_ p ?_)⟩
      · exact List.mem_of_getElem? h2
      · exact List.mem_of_getElem? h3

/-- Two poses one metre apart: arrows of five centimetres. -/
example : ∃ fig, plotPoses [[⟨⟨0, 0, 0⟩, ⟨0, 0, 0, 1⟩⟩, ⟨⟨1, 0, 0⟩, ⟨0, 0, 1, 0⟩⟩]] true = .ok fig ∧
    fig.arrow_size = 1 / 20 := by
  obtain ⟨fig, hi, lo, e, hb, e1, -⟩ := C84_arrows_partial [[⟨⟨0, 0, 0⟩, ⟨0, 0, 0, 1⟩⟩, ⟨⟨1, 0, 0⟩, ⟨0, 0, 1, 0⟩⟩]] (by simp)
    (by simp) (by simp) (by
      intro poses hp p hpp
      simp only [List.mem_singleton] at hp
      subst hp
      simp only [List.mem_cons, List.not_mem_nil, or_false] at hpp
      rcases hpp with rfl | rfl <;> simp [Quat.norm, Quat.dot])
  refine ⟨fig, e, ?_⟩
  obtain ⟨lx, ly, lz, gx, gy, gz⟩ := hb
  simp only [List.flatten_cons, List.flatten_nil, List.append_nil, List.map_cons, List.map_nil, Spec.IsLeast,
    Spec.IsGreatest, List.mem_cons, List.not_mem_nil, or_false, or_self, forall_eq_or_imp, forall_eq] at lx ly lz gx gy gz
  have hx : hi.x - lo.x = 1 := by
    have h1 : lo.x = 0 := by rcases lx.1 with h | h <;> linarith [lx.2.1, lx.2.2]
    have h2 : hi.x = 1 := by rcases gx.1 with h | h <;> linarith [gx.2.1, gx.2.2]
    rw [h1, h2]; ring
  rw [e1]
  have : (hi - lo).norm = 1 := by
    unfold Vec3.norm Vec3.dot
    change Real.sqrt ((hi.x - lo.x) * (hi.x - lo.x) + (hi.y - lo.y) * (hi.y - lo.y) + (hi.z - lo.z) * (hi.z - lo.z)) = 1
    rw [hx, ly.1, lz.1, gy.1, gz.1]; norm_num
  rw [this]

/-- C84 is false for a sensor that turns in place: all of its arrows have length zero, so that nothing of the orientations can
be seen. -/
theorem C84_arrows_refuted (t : Vec3) (qs : List Quat) (h : qs ≠ []) :
    ∃ fig, plotPoses [qs.map fun q => ⟨t, q⟩] true = .ok fig ∧
      ∀ path ∈ fig.paths, ∀ arrows ∈ path.arrows, ∀ a ∈ arrows, a.head = a.tail := by
  obtain ⟨fig, hi, lo, e, ⟨lx, ly, lz, gx, gy, gz⟩, -, -, e3, e4⟩ := plotPoses_ok (poses_list := [qs.map fun q => ⟨t, q⟩]) true
    (by simp) (by simp) (by simpa using h)
  have hmem : ∀ {f : Vec3 → ℝ} {m : ℝ}, m ∈ (([qs.map fun q => (⟨t, q⟩ : Pose)].flatten).map Pose.pos).map f → m = f t := by
    intro f m hm
    simp at hm
    exact hm.2.symm
  have hz : fig.arrow_size = 0 := by
    rw [e3]
    have : hi - lo = ⟨0, 0, 0⟩ := by
      ext
      · change hi.x - lo.x = 0; rw [hmem lx.1, hmem gx.1, sub_self]
      · change hi.y - lo.y = 0; rw [hmem ly.1, hmem gy.1, sub_self]
      · change hi.z - lo.z = 0; rw [hmem lz.1, hmem gz.1, sub_self]
    rw [Vec3.norm_eq_zero.mpr this, zero_mul]
  refine ⟨fig, e, ?_⟩
  intro path hp arrows ha a haa
  rw [e4] at hp
  simp only [pathColors, List.zipWith_cons_cons, List.zipWith_nil_left, List.mem_singleton] at hp
  subst hp
  simp only [List.mem_map] at ha
  obtain ⟨p, -, rfl⟩ := ha
  have key : ∀ (v : Vec3) (col : PlotColor), (axisArrow fig.arrow_size p v col).head = (axisArrow fig.arrow_size p v col).tail := by
    intro v col
    unfold axisArrow
    rw [hz]
    ext <;> simp
  simp only [poseArrows, if_true, List.mem_cons, List.not_mem_nil, or_false] at haa
  rcases haa with rfl | rfl | rfl <;> exact key _ _

/-- A sensor at the origin that turns by half a turn. -/
example : ∃ fig, plotPoses [[⟨⟨0, 0, 0⟩, ⟨0, 0, 0, 1⟩⟩, ⟨⟨0, 0, 0⟩, ⟨0, 0, 1, 0⟩⟩]] true = .ok fig ∧
    ∀ path ∈ fig.paths, ∀ arrows ∈ path.arrows, ∀ a ∈ arrows, a.head = a.tail :=
  C84_arrows_refuted ⟨0, 0, 0⟩ [⟨0, 0, 0, 1⟩, ⟨0, 0, 1, 0⟩] (by simp)

/-- C84 is false for six trajectories: six colours are defined, but the assertion wants fewer trajectories than colours. -/
theorem C84_six_refuted (poses_list : List (List Pose)) (plot_arrows : Bool) (h : 6 ≤ poses_list.length) :
    plotPoses poses_list plot_arrows = .error .assertion := by
  unfold plotPoses
  rw [pyAssert_neg (by change ¬ _ < 6; omega), Py.error_bind]

/-- Six trajectories of one pose each. -/
example : plotPoses (List.replicate 6 [⟨⟨0, 0, 0⟩, ⟨0, 0, 0, 1⟩⟩]) true = .error .assertion :=
  C84_six_refuted _ _ (by simp)

/-- C84: without trajectories, or with an empty one among them, nothing is drawn. -/
theorem C84_empty (poses_list : List (List Pose)) (plot_arrows : Bool) (h : poses_list = [] ∨ [] ∈ poses_list) :
    ¬ ∃ fig, plotPoses poses_list plot_arrows = .ok fig := by
  rintro ⟨fig, e⟩
  unfold plotPoses at e
  simp only [Py.bind_eq_ok] at e
  obtain ⟨_, _, ⟨hi, lo⟩, hb, _⟩ := e
  unfold computeBbox3D at hb
  simp only [Py.bind_eq_ok] at hb
  obtain ⟨mins, h1, maxs, h2, up, h3, low, h4, _⟩ := hb
  rcases h with rfl | h
  · have := Py.mapM_eq_ok.mp h1
    cases this
    unfold aminVec at h4
    simp only [Py.bind_eq_ok] at h4
    obtain ⟨x, hx, _⟩ := h4
    cases hx
  · obtain ⟨i, hi⟩ := List.mem_iff_getElem?.mp h
    have hall := Py.mapM_eq_ok.mp h1
    obtain ⟨hi1, hi2⟩ := List.getElem?_eq_some_iff.mp hi
    have hv := (List.forall₂_iff_get.mp hall).2 i hi1 (by rw [← hall.length_eq]; exact hi1)
    rw [List.get_eq_getElem, hi2] at hv
    unfold aminVec at hv
    simp only [Py.bind_eq_ok] at hv
    obtain ⟨x, hx, _⟩ := hv
    cases hx

/-- One trajectory with a pose and one without. -/
example : ¬ ∃ fig, plotPoses [[⟨⟨0, 0, 0⟩, ⟨0, 0, 0, 1⟩⟩], []] true = .ok fig := C84_empty _ _ (by simp)

/-- C84 is false for the heads of the arrows: they need not be within the limits of the axes (`auto_scale_xyz` gets the
limits of the positions again).  Here the sensor moves from (0,0,0) to (1,1,1) without turning. -/
theorem C84_heads_refuted :
    ∃ fig, plotPoses [[⟨⟨0, 0, 0⟩, ⟨0, 0, 0, 1⟩⟩, ⟨⟨1, 1, 1⟩, ⟨0, 0, 0, 1⟩⟩]] true = .ok fig ∧
      ∃ path ∈ fig.paths, ∃ arrows ∈ path.arrows, ∃ a ∈ arrows, fig.axis_max < a.head.x := by
  obtain ⟨fig, hi, lo, e, ⟨lx, ly, lz, gx, gy, gz⟩, -, e2, e3, e4⟩ := plotPoses_ok
    (poses_list := [[⟨⟨0, 0, 0⟩, ⟨0, 0, 0, 1⟩⟩, ⟨⟨1, 1, 1⟩, ⟨0, 0, 0, 1⟩⟩]]) true (by simp) (by simp) (by simp)
  simp only [List.flatten_cons, List.flatten_nil, List.append_nil, List.map_cons, List.map_nil, Spec.IsLeast,
    Spec.IsGreatest, List.mem_cons, List.not_mem_nil, or_false, forall_eq_or_imp, forall_eq] at lx ly lz gx gy gz
  have h1 : lo.x = 0 := by rcases lx.1 with h | h <;> linarith [lx.2.1, lx.2.2]
  have h2 : hi.x = 1 := by rcases gx.1 with h | h <;> linarith [gx.2.1, gx.2.2]
  have h3 : hi.y = 1 := by rcases gy.1 with h | h <;> linarith [gy.2.1, gy.2.2]
  have h4 : hi.z = 1 := by rcases gz.1 with h | h <;> linarith [gz.2.1, gz.2.2]
  have hm : fig.axis_max = 1 := by
    obtain ⟨-, -, -, h | h | h⟩ := greatest_three e2 <;> rw [h] <;> assumption
  have hs : 0 < fig.arrow_size := by
    rw [e3]
    apply mul_pos _ (by norm_num)
    unfold Vec3.norm
    apply Real.sqrt_pos.mpr
    change 0 < (hi.x - lo.x) * (hi.x - lo.x) + (hi.y - lo.y) * (hi.y - lo.y) + (hi.z - lo.z) * (hi.z - lo.z)
    rw [h1, h2]
    nlinarith [mul_self_nonneg (hi.y - lo.y), mul_self_nonneg (hi.z - lo.z)]
  refine ⟨fig, e, _, by rw [e4]; exact List.mem_cons_self .., _, List.mem_cons_of_mem _ (List.mem_cons_self ..), _,
    List.mem_cons_self .., ?_⟩
  rw [hm]
  have hr : (Quat.rotateVector ⟨0, 0, 0, 1⟩ ⟨1, 0, 0⟩).x = 1 := by
    have := C03_sandwich ⟨0, 0, 0, 1⟩ ⟨1, 0, 0⟩ (by simp [Quat.norm, Quat.dot])
    have h := congrArg (fun q => q.imI) this
    simpa using h
  change 1 < 1 + fig.arrow_size * (Quat.rotateVector ⟨0, 0, 0, 1⟩ ⟨1, 0, 0⟩).x
  rw [hr]; linarith

theorem everyNthGo_get {α : Type} {n : ℕ} (hn : n ≠ 0) : ∀ (k : ℕ) (l : List α), l.length ≤ k → ∀ i : ℕ,
    (everyNthGo n k l)[i]? = l[i * n]? := by
  intro k
  induction k with
  | zero =>
    intro l h i
    have : l = [] := List.length_eq_zero_iff.mp (by omega)
    subst this
    simp [everyNthGo]
  | succ k ih =>
    intro l h i
    cases l with
    | nil => simp [everyNthGo]
    | cons a l =>
      cases i with
      | zero => simp [everyNthGo]
      | succ i =>
        simp only [everyNthGo, List.getElem?_cons_succ]
        rw [ih _ (by simp at h ⊢; omega), List.getElem?_drop]
        have : (i + 1) * n = (n - 1 + i * n) + 1 := by
          rw [Nat.add_mul]; omega
        rw [this, List.getElem?_cons_succ]

/-- C84, thinning: `poses[::n]` for a positive `n` consists of the poses at the multiples of `n`, so that the first pose is
always there. -/
theorem C84_every_nth {α : Type} (l : List α) (n : ℕ) (hn : n ≠ 0) :
    ∃ r, everyNth l n = .ok r ∧ (∀ i : ℕ, r[i]? = l[i * n]?) ∧ (l ≠ [] → r ≠ []) := by
  refine ⟨everyNthGo n l.length l, ?_, everyNthGo_get hn _ _ le_rfl, ?_⟩
  · unfold everyNth
    rw [pyRequire_pos hn, Py.ok_bind, Py.pure_eq]
  · intro h e
    have := everyNthGo_get hn l.length l le_rfl 0
    rw [e] at this
    cases l with
    | nil => exact h rfl
    | cons a l => simp at this

/-- Every third of eight numbers. -/
example : everyNth [0, 1, 2, 3, 4, 5, 6, 7] 3 = .ok [0, 3, 6] := rfl

theorem everyNth_mem {α : Type} {l r : List α} {n : ℕ} (h : everyNth l n = .ok r) {a : α} (ha : a ∈ r) : a ∈ l := by
  unfold everyNth at h
  simp only [Py.bind_eq_ok] at h
  obtain ⟨_, h1, h2⟩ := h
  have hn : n ≠ 0 := by
    intro h0
    subst h0
    cases h1
  cases h2
  obtain ⟨i, hi⟩ := List.mem_iff_getElem?.mp ha
  rw [everyNthGo_get hn _ _ le_rfl] at hi
  exact List.mem_of_getElem? hi

namespace Spec

/-- The curve of the values against their numbers 0, 1, 2, …. -/
def CurveOf (c : Curve) (values : List ℝ) : Prop :=
  c.ys = values ∧ c.xs.length = values.length ∧ ∀ (i : ℕ) (x : ℝ), c.xs[i]? = some x → x = i

/-- The panel of errors: the errors in their order, and a horizontal line of the same length at their root mean square. -/
def ErrorPanel (errors rmse : Curve) (values : List ℝ) : Prop :=
  CurveOf errors values ∧ ∃ m, CurveOf rmse (List.replicate values.length m) ∧ 0 ≤ m ∧
    values.length * m ^ 2 = (values.map fun v => v ^ 2).sum ∧ (∃ v ∈ values, m ≤ v) ∧ ∃ v ∈ values, v ≤ m

end Spec

theorem plotY_curve (values : List ℝ) : Spec.CurveOf (plotY values) values := by
  refine ⟨rfl, by simp [plotY], ?_⟩
  intro i x h
  simp only [plotY, List.getElem?_map, Option.map_eq_some_iff] at h
  obtain ⟨j, hj, rfl⟩ := h
  obtain ⟨h1, h2⟩ := List.getElem?_eq_some_iff.mp hj
  simp at h2
  rw [h2]

/-- Some value is at most the root mean square. -/
theorem exists_le_rms {values : List ℝ} {m : ℝ} (hn : values ≠ []) (hm : 0 ≤ m)
    (h : values.length * m ^ 2 = (values.map fun v => v ^ 2).sum) : ∃ v ∈ values, v ≤ m := by
  by_contra hc
  push Not at hc
  have key : ∀ l : List ℝ, l ≠ [] → (∀ v ∈ l, m < v) → (l.length : ℝ) * m ^ 2 < (l.map fun v => v ^ 2).sum := by
    intro l
    induction l with
    | nil => intro h; exact absurd rfl h
    | cons a l ih =>
      intro _ h
      have ha : m ^ 2 < a ^ 2 := by
        have := h a (by simp)
        nlinarith
      simp only [List.length_cons, List.map_cons, List.sum_cons, Nat.cast_add, Nat.cast_one]
      by_cases hl : l = []
      · subst hl; simpa using ha
      · have := ih hl (fun v hv => h v (by simp [hv]))
        nlinarith
  exact absurd h (key values hn hc).ne

/-- C84, errors: for two equally long non-empty lists of poses with usable quaternions the figure shows the error in position
and the error in orientation of every pair, and in black their root mean squares; each black line runs between
the smallest and the largest of its errors. -/
theorem C84_errors (ot pt : ℝ) (A B : List Pose) (hl : A.length = B.length) (hA : A ≠ [])
    (qA : ∀ p ∈ A, p.q.norm > 1e-8) (qB : ∀ p ∈ B, p.q.norm > 1e-8) :
    ∃ fig, ∃ es : List (ℝ × ℝ), alignmentErrorsFigure ot pt A B = .ok fig ∧ es.length = A.length ∧
      (∀ (i : ℕ) a b, A[i]? = some a → B[i]? = some b → ∃ e, es[i]? = some e ∧ computePoseError a b = .ok e) ∧
      Spec.ErrorPanel fig.position fig.position_rmse (es.map fun e => e.1) ∧
      Spec.ErrorPanel fig.orientation fig.orientation_rmse (es.map fun e => e.2) := by
  obtain ⟨rp, ro, flags, es, e, h1, -, h3, -, ⟨hp0, hp1, -, vp, hvp, hp2⟩, ⟨ho0, ho1, -, vo, hvo, ho2⟩⟩ :=
    C35_evaluation ot pt A B hl hA qA qB
  have hes : (A.zip B).mapM (fun p => computePoseError p.1 p.2) = .ok es := by
    rw [Py.mapM_eq_ok]
    rw [List.forall₂_iff_get]
    refine ⟨by simp [h1, hl], ?_⟩
    intro i hi1 hi2
    simp only [List.length_zip] at hi1
    obtain ⟨e', he', hc⟩ := h3 i A[i] B[i] (List.getElem?_eq_getElem (by omega)) (List.getElem?_eq_getElem (by omega))
    obtain ⟨_, h6⟩ := List.getElem?_eq_some_iff.mp he'
    simp only [List.get_eq_getElem, List.getElem_zip]
    rw [hc, h6]
  have hne : es ≠ [] := by
    intro h0
    rw [h0] at h1
    exact hA (List.length_eq_zero_iff.mp h1.symm)
  refine ⟨⟨plotY (es.map Prod.fst), plotY (List.replicate (es.map Prod.fst).length rp), plotY (es.map Prod.snd),
    plotY (List.replicate (es.map Prod.fst).length ro)⟩, es, ?_, h1, h3, ?_, ?_⟩
  · unfold alignmentErrorsFigure
    rw [e, Py.ok_bind]
    dsimp only
    rw [hes, Py.ok_bind]
    unfold plotAlignmentErrors
    rw [pyAssert_pos (by simp), Py.ok_bind, Py.pure_eq]
  · have hsq : ((es.map fun e => e.1).length : ℝ) * rp ^ 2 = ((es.map fun e => e.1).map fun v => v ^ 2).sum := by
      rw [List.map_map, List.length_map, h1]; exact hp1
    exact ⟨plotY_curve _, rp, plotY_curve _, hp0, hsq, ⟨vp.1, List.mem_map.mpr ⟨vp, hvp, rfl⟩, hp2⟩,
      exists_le_rms (by simpa using hne) hp0 hsq⟩
  · have hsq : ((es.map fun e => e.2).length : ℝ) * ro ^ 2 = ((es.map fun e => e.2).map fun v => v ^ 2).sum := by
      rw [List.map_map, List.length_map, h1]; exact ho1
    refine ⟨plotY_curve _, ro, ?_, ho0, hsq, ⟨vo.2, List.mem_map.mpr ⟨vo, hvo, rfl⟩, ho2⟩,
      exists_le_rms (by simpa using hne) ho0 hsq⟩
    have : (es.map Prod.fst).length = (es.map fun e => e.2).length := by simp
    rw [← this]
    exact plotY_curve _

/-- Two poses, one of which is off by three metres. -/
example : ∃ fig, alignmentErrorsFigure 1 1 [⟨⟨0, 0, 0⟩, ⟨0, 0, 0, 1⟩⟩, ⟨⟨3, 0, 0⟩, ⟨0, 0, 0, 1⟩⟩]
    [⟨⟨0, 0, 0⟩, ⟨0, 0, 0, 1⟩⟩, ⟨⟨0, 0, 0⟩, ⟨0, 0, 0, 1⟩⟩] = .ok fig ∧ fig.position.ys.length = 2 := by
  have hq : (⟨0, 0, 0, 1⟩ : Quat).norm = 1 := by simp [Quat.norm, Quat.dot]
  obtain ⟨fig, es, e, hlen, -, ⟨⟨hy, -, -⟩, -⟩, -⟩ := C84_errors 1 1 [⟨⟨0, 0, 0⟩, ⟨0, 0, 0, 1⟩⟩, ⟨⟨3, 0, 0⟩, ⟨0, 0, 0, 1⟩⟩]
    [⟨⟨0, 0, 0⟩, ⟨0, 0, 0, 1⟩⟩, ⟨⟨0, 0, 0⟩, ⟨0, 0, 0, 1⟩⟩] rfl (by simp)
    (by
      intro p hp
      simp only [List.mem_cons, List.not_mem_nil, or_false] at hp
      rcases hp with rfl | rfl <;> rw [hq] <;> norm_num)
    (by
      intro p hp
      simp only [List.mem_cons, List.not_mem_nil, or_false, or_self] at hp
      rw [hp, hq]; norm_num)
  exact ⟨fig, e, by rw [hy, List.length_map, hlen]; rfl⟩

/-- C84, the evaluation with `visualize`: for two equally long non-empty lists of poses with usable quaternions and a positive
thinning both figures are drawn, and the second one has one line for each of the two lists, through the positions
of every n-th of its poses. -/
theorem C84_evaluation (ot pt : ℝ) (n : ℕ) (hn : n ≠ 0) (A B : List Pose) (hl : A.length = B.length) (hA : A ≠ [])
    (qA : ∀ p ∈ A, p.q.norm > 1e-8) (qB : ∀ p ∈ B, p.q.norm > 1e-8) :
    ∃ errors poses a b, evaluationFigures ot pt n A B = .ok (errors, poses) ∧ poses.paths.map PathDrawing.line = [a, b] ∧
      (∀ i : ℕ, a[i]? = (A[i * n]?).map fun p => p.pos) ∧ ∀ i : ℕ, b[i]? = (B[i * n]?).map fun p => p.pos := by
  obtain ⟨errors, es, e, -⟩ := C84_errors ot pt A B hl hA qA qB
  obtain ⟨a, ha, ga, na⟩ := C84_every_nth A n hn
  obtain ⟨b, hb, gb, nb⟩ := C84_every_nth B n hn
  have hB : B ≠ [] := by
    intro h
    rw [h] at hl
    exact hA (List.length_eq_zero_iff.mp hl)
  obtain ⟨fig, hf, hline, -⟩ := C84_positions [a, b] true (by simp) (by simp) (by simp [na hA, nb hB])
  refine ⟨errors, fig, a.map fun p => p.pos, b.map fun p => p.pos, ?_, by simpa using hline, ?_, ?_⟩
  · unfold evaluationFigures
    rw [e, Py.ok_bind, ha, Py.ok_bind, hb, Py.ok_bind, hf, Py.ok_bind, Py.pure_eq]
  · intro i
    rw [List.getElem?_map, ga]
  · intro i
    rw [List.getElem?_map, gb]

/-- One pose each. -/
example : ∃ errors poses, evaluationFigures 1 1 10 [⟨⟨0, 0, 0⟩, ⟨0, 0, 0, 1⟩⟩] [⟨⟨1, 0, 0⟩, ⟨0, 0, 0, 1⟩⟩] = .ok (errors, poses) := by
  have hq : (⟨0, 0, 0, 1⟩ : Quat).norm = 1 := by simp [Quat.norm, Quat.dot]
  obtain ⟨errors, poses, _, _, e, _⟩ := C84_evaluation 1 1 10 (by norm_num) [⟨⟨0, 0, 0⟩, ⟨0, 0, 0, 1⟩⟩] [⟨⟨1, 0, 0⟩, ⟨0, 0, 0, 1⟩⟩]
    rfl (by simp) (by simp only [List.mem_singleton, forall_eq]; rw [hq]; norm_num)
    (by simp only [List.mem_singleton, forall_eq]; rw [hq]; norm_num)
  exact ⟨errors, poses, e⟩

end HandEye
