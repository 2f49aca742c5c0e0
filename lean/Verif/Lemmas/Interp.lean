import Verif.Props.AlignedPoses
import Verif.Spec.Track

/-! # `np.interp` on increasing times -/

namespace HandEye

theorem countP_sorted {xp : List ℝ} (h : xp.Pairwise (· < ·)) {k : ℕ} (hk : k < xp.length) {x : ℝ}
    (h1 : xp[k] ≤ x) (h2 : ∀ hk' : k + 1 < xp.length, x < xp[k + 1]) :
    (xp.countP fun t => decide (t ≤ x)) = k + 1 := by
  rw [← List.take_append_drop (k + 1) xp, List.countP_append]
  have e1 : ((xp.take (k + 1)).countP fun t => decide (t ≤ x)) = k + 1 := by
    rw [List.countP_eq_length.mpr]
    · rw [List.length_take]; omega
    · intro t ht
      obtain ⟨i, hi, rfl⟩ := List.mem_iff_getElem.mp ht
      rw [List.length_take] at hi
      rw [List.getElem_take, decide_eq_true_iff]
      rcases Nat.lt_or_ge i k with hlt | hge
      · exact ((sorted_lt_iff h (by omega) hk).mpr hlt).le.trans h1
      · obtain rfl : i = k := by omega
        exact h1
  have e2 : ((xp.drop (k + 1)).countP fun t => decide (t ≤ x)) = 0 := by
    rw [List.countP_eq_zero]
    intro t ht
    obtain ⟨i, hi, rfl⟩ := List.mem_iff_getElem.mp ht
    rw [List.length_drop] at hi
    rw [List.getElem_drop, decide_eq_true_iff, not_le]
    have h3 := h2 (by omega)
    rcases Nat.eq_zero_or_pos i with rfl | hp
    · exact h3
    · exact h3.trans ((sorted_lt_iff h (by omega) (by omega)).mpr (by omega))
  rw [e1, e2]

theorem npInterp_recorded {xp fp : List ℝ} (h : xp.Pairwise (· < ·)) (hlen : fp.length = xp.length) {k : ℕ}
    (hk : k < xp.length) : npInterp xp fp xp[k] = fp[k] := by
  have hc := countP_sorted h hk le_rfl fun hk' => (sorted_lt_iff h hk hk').mpr (by omega)
  unfold npInterp
  rw [hc]
  dsimp only
  rw [if_neg (by omega), Nat.add_sub_cancel, getD_eq (hlen ▸ hk), getD_eq hk]
  split
  · rfl
  · rw [sub_self, mul_zero, zero_add]

theorem npInterp_between {xp fp : List ℝ} (h : xp.Pairwise (· < ·)) (hlen : fp.length = xp.length) {k : ℕ} {x : ℝ}
    (hk : k + 1 < xp.length) (h1 : xp[k] ≤ x) (h2 : x < xp[k + 1]) :
    npInterp xp fp x = fp[k] + (x - xp[k]) / (xp[k + 1] - xp[k]) * (fp[k + 1] - fp[k]) := by
  have hc := countP_sorted h (by omega) h1 fun _ => h2
  unfold npInterp
  rw [hc]
  dsimp only
  rw [if_neg (by omega), if_neg (by omega), Nat.add_sub_cancel, getD_eq (by omega), getD_eq (by omega),
    getD_eq (by omega), getD_eq (by omega)]
  ring

/-- At recorded times the interpolation returns the recorded rows. -/
theorem interpolate_recorded {poses rows : List StampedPose} (h : (poses.map StampedPose.t).Pairwise (· < ·))
    (hr : ∀ r ∈ rows, r ∈ poses) (hne : poses ≠ []) :
    interpolatePosesFromSamples poses (rows.map StampedPose.t) = .ok rows := by
  have hq : (rows.map StampedPose.t).mapM (resampleOne (poses.map StampedPose.t) (poses.map fun p => p.pose.q)) =
      .ok ((rows.map fun r => r.pose.q).map fun q => [q]) := by
    rw [Py.mapM_eq_ok, List.map_map, List.forall₂_map_right_iff, List.forall₂_map_left_iff]
    refine List.forall₂_same.mpr fun r hm => ?_
    obtain ⟨k, hk, rfl⟩ := List.mem_iff_getElem.mp (hr r hm)
    have hne' : poses.map StampedPose.t ≠ [] := by simpa using hne
    have := resampleOne_recorded (qs := poses.map fun p => p.pose.q) h (by simp) (List.head?_eq_some_head hne')
      (List.getLast?_eq_some_getLast hne') (k := k) (by simpa using hk)
    simp only [List.getElem_map] at this
    apply this
    · rw [List.head_eq_getElem]
      by_contra hc
      have := (sorted_lt_iff (i := k) (j := 0) h (by simpa using hk) _).mp (by rw [List.getElem_map]; exact not_le.mp hc)
      omega
    · rw [List.getLast_eq_getElem]
      by_contra hc
      have hlast : (poses.map StampedPose.t).length - 1 < (poses.map StampedPose.t).length := by
        rw [List.length_map]; omega
      have := (sorted_lt_iff (j := k) h hlast (by simpa using hk)).mp (by simpa using hc)
      rw [List.length_map] at this
      omega
  unfold interpolatePosesFromSamples resampleQuaternionsFromSamples
  dsimp only
  rw [hq, Py.ok_bind, flatten_singletons, pyAssert_pos (by simp), Py.ok_bind, Py.pure_eq, Py.ok_bind,
    pyRequire_pos (by simpa using hne), Py.ok_bind, Py.pure_eq, List.zipWith_map, List.zipWith_self]
  congr 1
  refine (List.map_congr_left fun r hm => ?_).trans (List.map_id rows)
  obtain ⟨k, hk, rfl⟩ := List.mem_iff_getElem.mp (hr r hm)
  have hi := fun (fp : List ℝ) (hl : fp.length = (poses.map StampedPose.t).length) =>
    npInterp_recorded h hl (k := k) (by simpa using hk)
  simp only [List.getElem_map] at hi
  rw [hi _ (by simp), hi _ (by simp), hi _ (by simp)]
  simp only [List.getElem_map]
  rfl

end HandEye
