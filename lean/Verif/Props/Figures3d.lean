import Verif.Model.Figures3d
import Verif.Props.Figures2
import Verif.Props.Quat1
import Verif.Props.Alignment

/-!
# C84: the figures of trajectories and errors show the poses that they are given

For: `/repo/hand_eye_calibration/python/hand_eye_calibration/hand_eye_calibration_plotting_tools.py`.
-/

namespace HandEye

namespace Spec

/-- `m` is the largest of the numbers of a list. -/
def IsGreatest (m : ℝ) (l : List ℝ) : Prop := m ∈ l ∧ ∀ x ∈ l, x ≤ m

/-- `lo` and `hi` are the corners of the smallest box around the points. -/
def BoundingBox (lo hi : Vec3) (points : List Vec3) : Prop :=
  IsLeast lo.x (points.map fun p => p.x) ∧ IsLeast lo.y (points.map fun p => p.y) ∧
    IsLeast lo.z (points.map fun p => p.z) ∧ IsGreatest hi.x (points.map fun p => p.x) ∧
    IsGreatest hi.y (points.map fun p => p.y) ∧ IsGreatest hi.z (points.map fun p => p.z)

end Spec

theorem npAmax_eq_ok {l : List ℝ} {m : ℝ} : npAmax l = .ok m ↔ Spec.IsGreatest m l := by
  unfold npAmax Spec.IsGreatest
  rw [← List.max?_eq_some_iff]
  cases l.max? with
  | none => simp
  | some a => simp

theorem npAmax_ok {l : List ℝ} (h : l ≠ []) : ∃ m, npAmax l = .ok m := by
  unfold npAmax
  cases hm : l.max? with
  | none => exact absurd (List.max?_eq_none_iff.mp hm) h
  | some a => exact ⟨a, rfl⟩

theorem aminVec_ok {l : List Vec3} (h : l ≠ []) : ∃ v, aminVec l = .ok v := by
  obtain ⟨x, hx⟩ := npAmin_ok (l := l.map Vec3.x) (by simpa using h)
  obtain ⟨y, hy⟩ := npAmin_ok (l := l.map Vec3.y) (by simpa using h)
  obtain ⟨z, hz⟩ := npAmin_ok (l := l.map Vec3.z) (by simpa using h)
  refine ⟨⟨x, y, z⟩, ?_⟩
  unfold aminVec
  rw [hx, Py.ok_bind, hy, Py.ok_bind, hz, Py.ok_bind, Py.pure_eq]

theorem amaxVec_ok {l : List Vec3} (h : l ≠ []) : ∃ v, amaxVec l = .ok v := by
  obtain ⟨x, hx⟩ := npAmax_ok (l := l.map Vec3.x) (by simpa using h)
  obtain ⟨y, hy⟩ := npAmax_ok (l := l.map Vec3.y) (by simpa using h)
  obtain ⟨z, hz⟩ := npAmax_ok (l := l.map Vec3.z) (by simpa using h)
  refine ⟨⟨x, y, z⟩, ?_⟩
  unfold amaxVec
  rw [hx, Py.ok_bind, hy, Py.ok_bind, hz, Py.ok_bind, Py.pure_eq]

theorem aminVec_eq_ok {l : List Vec3} {v : Vec3} (h : aminVec l = .ok v) :
    Spec.IsLeast v.x (l.map Vec3.x) ∧ Spec.IsLeast v.y (l.map Vec3.y) ∧ Spec.IsLeast v.z (l.map Vec3.z) := by
  unfold aminVec at h
  obtain ⟨x, hx, h⟩ := Py.bind_eq_ok.mp h
  obtain ⟨y, hy, h⟩ := Py.bind_eq_ok.mp h
  obtain ⟨z, hz, h⟩ := Py.bind_eq_ok.mp h
  cases h
  exact ⟨npAmin_eq_ok.mp hx, npAmin_eq_ok.mp hy, npAmin_eq_ok.mp hz⟩

theorem amaxVec_eq_ok {l : List Vec3} {v : Vec3} (h : amaxVec l = .ok v) :
    Spec.IsGreatest v.x (l.map Vec3.x) ∧ Spec.IsGreatest v.y (l.map Vec3.y) ∧ Spec.IsGreatest v.z (l.map Vec3.z) := by
  unfold amaxVec at h
  obtain ⟨x, hx, h⟩ := Py.bind_eq_ok.mp h
  obtain ⟨y, hy, h⟩ := Py.bind_eq_ok.mp h
  obtain ⟨z, hz, h⟩ := Py.bind_eq_ok.mp h
  cases h
  exact ⟨npAmax_eq_ok.mp hx, npAmax_eq_ok.mp hy, npAmax_eq_ok.mp hz⟩

theorem mapM_exists {α β : Type} {f : α → Py β} {l : List α} (h : ∀ a ∈ l, ∃ b, f a = .ok b) :
    ∃ bs, l.mapM f = .ok bs := by
  induction l with
  | nil => exact ⟨[], rfl⟩
  | cons a l ih =>
    obtain ⟨b, hb⟩ := h a (by simp)
    obtain ⟨bs, hbs⟩ := ih fun x hx => h x (by simp [hx])
    exact ⟨b :: bs, by rw [Py.mapM_cons, hb, Py.ok_bind, hbs, Py.ok_bind, Py.pure_eq]⟩

/-- An extreme of the extremes of several lists is one of all of their elements. -/
theorem extreme_flatten {r : ℝ → ℝ → Prop} (ht : ∀ a b c, r a b → r b c → r a c) {α : Type} {f : α → ℝ} {g : Vec3 → ℝ}
    {ls : List (List α)} {vs : List Vec3} {m : ℝ}
    (h : List.Forall₂ (fun l v => g v ∈ l.map f ∧ ∀ x ∈ l.map f, r (g v) x) ls vs)
    (hm : m ∈ vs.map g ∧ ∀ x ∈ vs.map g, r m x) : m ∈ ls.flatten.map f ∧ ∀ x ∈ ls.flatten.map f, r m x := by
  obtain ⟨h1, h2⟩ := List.forall₂_iff_get.mp h
  constructor
  · obtain ⟨v, hv, rfl⟩ := List.mem_map.mp hm.1
    obtain ⟨i, hi, rfl⟩ := List.getElem_of_mem hv
    obtain ⟨a, ha, e⟩ := List.mem_map.mp (h2 i (by omega) hi).1
    simp only [List.get_eq_getElem] at ha e
    exact List.mem_map.mpr ⟨a, List.mem_flatten.mpr ⟨_, List.getElem_mem _, ha⟩, e⟩
  · intro x hx
    obtain ⟨a, ha, rfl⟩ := List.mem_map.mp hx
    obtain ⟨l, hl, hal⟩ := List.mem_flatten.mp ha
    obtain ⟨i, hi, rfl⟩ := List.getElem_of_mem hl
    have := (h2 i hi (by omega)).2 (f a) (List.mem_map.mpr ⟨a, by simpa using hal, rfl⟩)
    simp only [List.get_eq_getElem] at this
    exact ht _ _ _ (hm.2 _ (List.mem_map.mpr ⟨_, List.getElem_mem _, rfl⟩)) this

/-- The box of `compute_bbox_3D` is the smallest box around all positions. -/
theorem computeBbox3D_ok {poses_list : List (List Pose)} (h0 : poses_list ≠ []) (h : ∀ poses ∈ poses_list, poses ≠ []) :
    ∃ hi lo, computeBbox3D poses_list = .ok (hi, lo) ∧ Spec.BoundingBox lo hi (poses_list.flatten.map Pose.pos) := by
  obtain ⟨mins, hmin⟩ := mapM_exists (f := fun poses : List Pose => aminVec (poses.map Pose.pos)) (l := poses_list)
    fun poses hp => aminVec_ok (by simpa using h poses hp)
  obtain ⟨maxs, hmax⟩ := mapM_exists (f := fun poses : List Pose => amaxVec (poses.map Pose.pos)) (l := poses_list)
    fun poses hp => amaxVec_ok (by simpa using h poses hp)
  have fmin := Py.mapM_eq_ok.mp hmin
  have fmax := Py.mapM_eq_ok.mp hmax
  have hl0 : 0 < poses_list.length := List.length_pos_of_ne_nil h0
  obtain ⟨lo, hlo⟩ := aminVec_ok (l := mins) (by
    intro e; have := fmin.length_eq; rw [e, List.length_nil] at this; omega)
  obtain ⟨hi, hhi⟩ := amaxVec_ok (l := maxs) (by
    intro e; have := fmax.length_eq; rw [e, List.length_nil] at this; omega)
  refine ⟨hi, lo, ?_, ?_⟩
  · unfold computeBbox3D
    rw [hmin, Py.ok_bind, hmax, Py.ok_bind, hhi, Py.ok_bind, hlo, Py.ok_bind, Py.pure_eq]
  · obtain ⟨a1, a2, a3⟩ := aminVec_eq_ok hlo
    obtain ⟨b1, b2, b3⟩ := amaxVec_eq_ok hhi
    have tr : ∀ a b c : ℝ, a ≥ b → b ≥ c → a ≥ c := fun a b c => ge_trans
    unfold Spec.BoundingBox
    simp only [List.map_map]
    refine ⟨?_, ?_, ?_, ?_, ?_, ?_⟩
    · exact extreme_flatten (r := (· ≤ ·)) (fun _ _ _ => le_trans) (g := Vec3.x) (fmin.imp fun l v hv => by
        have := (aminVec_eq_ok hv).1; rw [List.map_map] at this; exact this) a1
    · exact extreme_flatten (r := (· ≤ ·)) (fun _ _ _ => le_trans) (g := Vec3.y) (fmin.imp fun l v hv => by
        have := (aminVec_eq_ok hv).2.1; rw [List.map_map] at this; exact this) a2
    · exact extreme_flatten (r := (· ≤ ·)) (fun _ _ _ => le_trans) (g := Vec3.z) (fmin.imp fun l v hv => by
        have := (aminVec_eq_ok hv).2.2; rw [List.map_map] at this; exact this) a3
    · exact extreme_flatten (r := (· ≥ ·)) tr (g := Vec3.x) (fmax.imp fun l v hv => by
        have := (amaxVec_eq_ok hv).1; rw [List.map_map] at this; exact this) b1
    · exact extreme_flatten (r := (· ≥ ·)) tr (g := Vec3.y) (fmax.imp fun l v hv => by
        have := (amaxVec_eq_ok hv).2.1; rw [List.map_map] at this; exact this) b2
    · exact extreme_flatten (r := (· ≥ ·)) tr (g := Vec3.z) (fmax.imp fun l v hv => by
        have := (amaxVec_eq_ok hv).2.2; rw [List.map_map] at this; exact this) b3

end HandEye
