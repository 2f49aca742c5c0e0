import Verif.Lemmas.Plots
import Verif.Lemmas.TimeAlign
import Verif.Spec.Bins

/-! # Lemmas about the plots of the circle errors -/

namespace HandEye

theorem bisectRightGo_spec {a : List ℝ} {x : ℝ} (hs : a.Pairwise (· ≤ ·)) (lo hi : ℕ) (hh : hi ≤ a.length) (hl : lo ≤ hi)
    (h1 : ∀ (i : ℕ) (_ : i < a.length), i < lo → a[i] ≤ x) (h2 : ∀ (i : ℕ) (_ : i < a.length), hi ≤ i → x < a[i]) :
    bisectRightGo a x lo hi ≤ a.length ∧
      (∀ (i : ℕ) (h : i < a.length), i < bisectRightGo a x lo hi → a[i] ≤ x) ∧
      ∀ (i : ℕ) (h : i < a.length), bisectRightGo a x lo hi ≤ i → x < a[i] := by
  have hmono : ∀ (i j : ℕ) (hi : i < a.length) (hj : j < a.length), i ≤ j → a[i] ≤ a[j] := by
    intro i j hi hj hij
    rcases hij.eq_or_lt with rfl | hlt
    · exact le_rfl
    · exact List.pairwise_iff_getElem.mp hs i j hi hj hlt
  induction h : hi - lo using Nat.strong_induction_on generalizing lo hi with
  | _ n ih =>
    rw [bisectRightGo]
    by_cases hlt : lo < hi
    · have hm : (lo + hi) / 2 < a.length := by omega
      rw [dif_pos hlt, getD_eq hm]
      by_cases hx : x < a[(lo + hi) / 2]
      · rw [if_pos hx]
        refine ih ((lo + hi) / 2 - lo) (by omega) _ _ (by omega) (by omega) h1 ?_ rfl
        intro i hi' hil
        exact hx.trans_le (hmono _ i hm hi' hil)
      · rw [if_neg hx]
        refine ih (hi - ((lo + hi) / 2 + 1)) (by omega) _ _ hh (by omega) ?_ h2 rfl
        intro i hi' hil
        exact (hmono i _ hi' hm (by omega)).trans (not_lt.mp hx)
    · rw [dif_neg hlt]
      have : lo = hi := by omega
      subst this
      exact ⟨hh, h1, h2⟩

theorem bisectRight_spec {a : List ℝ} (hs : a.Pairwise (· ≤ ·)) (x : ℝ) :
    bisectRight a x ≤ a.length ∧ (∀ (i : ℕ) (h : i < a.length), i < bisectRight a x → a[i] ≤ x) ∧
      ∀ (i : ℕ) (h : i < a.length), bisectRight a x ≤ i → x < a[i] :=
  bisectRightGo_spec hs 0 a.length le_rfl (Nat.zero_le _) (fun i _ h => by omega) (fun i h1 h2 => by omega)

/-- The edges of `N` bins. -/
noncomputable def edges (s : MinMaxStep) (N : ℕ) : List ℝ := (List.range (N + 1)).map fun (i : ℕ) => s.start + i * s.step

theorem edges_length (s : MinMaxStep) (N : ℕ) : (edges s N).length = N + 1 := by simp [edges]

theorem edges_get (s : MinMaxStep) (N i : ℕ) (h : i < (edges s N).length) : (edges s N)[i] = s.start + i * s.step := by
  simp [edges]

theorem edges_sorted {s : MinMaxStep} (hs : 0 < s.step) (N : ℕ) : (edges s N).Pairwise (· ≤ ·) := by
  rw [List.pairwise_iff_getElem]
  intro i j hi hj hij
  rw [edges_get, edges_get]
  have : (i : ℝ) ≤ j := by exact_mod_cast hij.le
  nlinarith

theorem grid_edges {s : MinMaxStep} (hs : 0 < s.step) (hse : s.start ≤ s.end) {N : ℕ}
    (hN : Spec.BinCount s N) : s.grid = .ok (edges s N) := by
  unfold MinMaxStep.grid npArange edges
  rw [if_neg hs.ne']
  congr 3
  have hN' : N = ⌈(s.end - s.start) / s.step⌉₊ := by
    apply le_antisymm
    · apply hN.2
      have := Nat.le_ceil ((s.end - s.start) / s.step)
      rw [div_le_iff₀ hs] at this
      simp only [Set.mem_ofPred_eq]
      linarith
    · rw [Nat.ceil_le, div_le_iff₀ hs]
      have := hN.1
      simp only [Set.mem_ofPred_eq] at this
      linarith
  have e : (s.end + s.step - s.start) / s.step = (s.end - s.start) / s.step + 1 := by field_simp; ring
  have h0 : 0 ≤ (s.end - s.start) / s.step := div_nonneg (by linarith) hs.le
  rw [e, Int.ceil_add_one, hN', ← Int.natCast_ceil_eq_ceil h0]
  rfl

/-- Where a value lands. -/
theorem bisectRight_in {s : MinMaxStep} (hs : 0 < s.step) {N i : ℕ} (hi : i < N) {v : ℝ}
    (h1 : s.start + i * s.step ≤ v) (h2 : v < s.start + ((i : ℝ) + 1) * s.step) :
    bisectRight (edges s N) v = i + 1 := by
  obtain ⟨e0, e1, e2⟩ := bisectRight_spec (edges_sorted hs N) v
  rw [edges_length] at e0
  rcases lt_trichotomy (bisectRight (edges s N) v) (i + 1) with h | h | h
  · have := e2 i (by rw [edges_length]; omega) (by omega)
    rw [edges_get] at this
    linarith
  · exact h
  · have := e1 (i + 1) (by rw [edges_length]; omega) h
    rw [edges_get] at this
    push_cast at this
    linarith

theorem bisectRight_low {s : MinMaxStep} (hs : 0 < s.step) {N : ℕ} {v : ℝ} (h : v < s.start) :
    bisectRight (edges s N) v = 0 := by
  obtain ⟨e0, e1, e2⟩ := bisectRight_spec (edges_sorted hs N) v
  by_contra hne
  have := e1 0 (by rw [edges_length]; omega) (by omega)
  rw [edges_get] at this
  push_cast at this
  linarith

theorem bisectRight_high {s : MinMaxStep} (hs : 0 < s.step) {N : ℕ} {v : ℝ} (h : s.start + N * s.step ≤ v) :
    bisectRight (edges s N) v = N + 1 := by
  obtain ⟨e0, e1, e2⟩ := bisectRight_spec (edges_sorted hs N) v
  rw [edges_length] at e0
  by_contra hne
  have := e2 N (by rw [edges_length]; omega) (by omega)
  rw [edges_get] at this
  linarith

/-- Bins given by a function. -/
def binsOf (K J I : ℕ) (f : ℕ → ℕ → ℕ → List ℝ) : ErrorBins :=
  (List.range K).map fun k => (List.range J).map fun j => (List.range I).map fun i => f k j i

theorem emptyBins_eq (K J I : ℕ) : emptyBins K J I = binsOf K J I fun _ _ _ => [] := by
  simp [emptyBins, binsOf, List.map_const']

theorem pyAt_map_range {α : Type} (f : ℕ → α) {n k : ℕ} (h : k < n) : pyAt ((List.range n).map f) k = .ok (f k) := by
  rw [pyAt_get (by simpa using h)]
  simp

theorem cell_binsOf {K J I : ℕ} (f : ℕ → ℕ → ℕ → List ℝ) {k j i : ℕ} (hk : k < K) (hj : j < J) (hi : i < I) :
    (binsOf K J I f).cell k j i = .ok (f k j i) := by
  unfold ErrorBins.cell binsOf
  rw [pyAt_map_range _ hk, Py.ok_bind, pyAt_map_range _ hj, Py.ok_bind, pyAt_map_range _ hi]

theorem map_range_set {α : Type} (f : ℕ → α) (n k : ℕ) (v : α) :
    ((List.range n).map f).set k v = (List.range n).map fun i => if i = k then v else f i := by
  apply List.ext_getElem (by simp)
  intro i h1 h2
  rw [List.getElem_set]
  by_cases h : k = i
  · simp [h]
  · simp [h, Ne.symm h]

theorem append_binsOf {K J I : ℕ} (f : ℕ → ℕ → ℕ → List ℝ) {k j i : ℕ} (hk : k < K) (hj : j < J) (hi : i < I) (v : ℝ) :
    (binsOf K J I f).append k j i v =
      .ok (binsOf K J I fun k' j' i' => if k' = k ∧ j' = j ∧ i' = i then f k' j' i' ++ [v] else f k' j' i') := by
  unfold ErrorBins.append
  have h1 : pyAt (binsOf K J I f) k = .ok ((List.range J).map fun j => (List.range I).map fun i => f k j i) := by
    unfold binsOf
    rw [pyAt_map_range _ hk]
  rw [h1, Py.ok_bind, pyAt_map_range _ hj, Py.ok_bind, pyAt_map_range _ hi, Py.ok_bind, Py.pure_eq]
  unfold binsOf
  rw [map_range_set, map_range_set, map_range_set]
  congr 1
  apply List.map_congr_left
  intro k' _
  by_cases h : k' = k
  · subst h
    simp only [if_true, true_and]
    apply List.map_congr_left
    intro j' _
    by_cases h : j' = j
    · subst h
      simp only [if_true, true_and]
      apply List.map_congr_left
      intro i' _
      by_cases h : i' = i
      · subst h; simp
      · simp [h]
    · simp [h]
  · simp [h]

open Classical in
/-- The rows of one cell. -/
noncomputable def cellRows (sx sy sp : MinMaxStep) (rows : List SpoiledError) (k j i : ℕ) : List SpoiledError :=
  rows.filter fun r => Spec.InBin sp k |r.plot_spoil| ∧ Spec.InBin sy j |r.y_spoil| ∧ Spec.InBin sx i |r.x_spoil|

theorem inBin_unique {s : MinMaxStep} (hs : 0 < s.step) {i j : ℕ} {v : ℝ} (h1 : Spec.InBin s i v)
    (h2 : Spec.InBin s j v) : i = j := by
  obtain ⟨a1, a2⟩ := h1
  obtain ⟨b1, b2⟩ := h2
  rcases lt_trichotomy i j with h | h | h
  · have : (i : ℝ) + 1 ≤ j := by exact_mod_cast h
    nlinarith
  · exact h
  · have : (j : ℝ) + 1 ≤ i := by exact_mod_cast h
    nlinarith

/-- The row lies within the grids. -/
def Within (sx sy sp : MinMaxStep) (Nx Ny Np : ℕ) (r : SpoiledError) : Prop :=
  (∃ i < Nx, Spec.InBin sx i |r.x_spoil|) ∧ (∃ j < Ny, Spec.InBin sy j |r.y_spoil|) ∧
    ∃ k < Np, Spec.InBin sp k |r.plot_spoil|

theorem binRow_in {sx sy sp : MinMaxStep} (hx : 0 < sx.step) (hy : 0 < sy.step) (hp : 0 < sp.step) {Nx Ny Np : ℕ}
    {r : SpoiledError} {i j k : ℕ} (hi : i < Nx) (hj : j < Ny) (hk : k < Np) (bi : Spec.InBin sx i |r.x_spoil|)
    (bj : Spec.InBin sy j |r.y_spoil|) (bk : Spec.InBin sp k |r.plot_spoil|) (f g : ℕ → ℕ → ℕ → List ℝ) :
    binRow (edges sx Nx) (edges sy Ny) (edges sp Np)
      (binsOf (Np + 1) (Ny + 1) (Nx + 1) f, binsOf (Np + 1) (Ny + 1) (Nx + 1) g) r =
    .ok (binsOf (Np + 1) (Ny + 1) (Nx + 1) fun k' j' i' =>
        if k' = k ∧ j' = j ∧ i' = i then f k' j' i' ++ [r.loop_error_position_m] else f k' j' i',
      binsOf (Np + 1) (Ny + 1) (Nx + 1) fun k' j' i' =>
        if k' = k ∧ j' = j ∧ i' = i then g k' j' i' ++ [r.loop_error_orientation_deg] else g k' j' i') := by
  unfold binRow
  dsimp only
  rw [bisectRight_in hx hi bi.1 bi.2, bisectRight_in hy hj bj.1 bj.2, bisectRight_in hp hk bk.1 bk.2,
    pyAssert_pos (Nat.succ_pos i), pyAssert_pos (Nat.succ_pos j), pyAssert_pos (Nat.succ_pos k), edges_length,
    edges_length, edges_length, pyAssert_pos (by omega : i + 1 < Nx + 1), pyAssert_pos (by omega : j + 1 < Ny + 1),
    pyAssert_pos (by omega : k + 1 < Np + 1)]
  simp only [Py.ok_bind, Nat.add_sub_cancel]
  rw [append_binsOf f (by omega) (by omega) (by omega), Py.ok_bind, append_binsOf g (by omega) (by omega) (by omega),
    Py.ok_bind, Py.pure_eq]

/-- A value in no bin is below the first or from the last edge on. -/
theorem notIn {s : MinMaxStep} (hs : 0 < s.step) {N : ℕ} {v : ℝ} (h : ¬ ∃ i < N, Spec.InBin s i v) :
    v < s.start ∨ s.start + N * s.step ≤ v := by
  by_contra hc
  push Not at hc
  obtain ⟨h1, h2⟩ := hc
  have h0 : 0 ≤ (v - s.start) / s.step := div_nonneg (by linarith) hs.le
  refine h ⟨⌊(v - s.start) / s.step⌋₊, ?_, ?_, ?_⟩
  · rw [Nat.floor_lt h0, div_lt_iff₀ hs]
    linarith
  · have := Nat.floor_le h0
    rw [le_div_iff₀ hs] at this
    linarith
  · have := Nat.lt_floor_add_one ((v - s.start) / s.step)
    rw [div_lt_iff₀ hs] at this
    linarith

theorem binRow_out {sx sy sp : MinMaxStep} (hx : 0 < sx.step) (hy : 0 < sy.step) (hp : 0 < sp.step) {Nx Ny Np : ℕ}
    {r : SpoiledError} (hr : ¬ Within sx sy sp Nx Ny Np r) (b : ErrorBins × ErrorBins) :
    binRow (edges sx Nx) (edges sy Ny) (edges sp Np) b r = .error .assertion := by
  unfold binRow
  dsimp only
  have key : ¬ (bisectRight (edges sx Nx) |r.x_spoil| > 0 ∧ bisectRight (edges sy Ny) |r.y_spoil| > 0 ∧
      bisectRight (edges sp Np) |r.plot_spoil| > 0 ∧
      bisectRight (edges sx Nx) |r.x_spoil| < (edges sx Nx).length ∧
      bisectRight (edges sy Ny) |r.y_spoil| < (edges sy Ny).length ∧
      bisectRight (edges sp Np) |r.plot_spoil| < (edges sp Np).length) := by
    rw [edges_length, edges_length, edges_length]
    rintro ⟨a1, a2, a3, b1, b2, b3⟩
    refine hr ⟨?_, ?_, ?_⟩
    · by_contra hc
      rcases notIn hx hc with h | h
      · rw [bisectRight_low hx h] at a1; omega
      · rw [bisectRight_high hx h] at b1; omega
    · by_contra hc
      rcases notIn hy hc with h | h
      · rw [bisectRight_low hy h] at a2; omega
      · rw [bisectRight_high hy h] at b2; omega
    · by_contra hc
      rcases notIn hp hc with h | h
      · rw [bisectRight_low hp h] at a3; omega
      · rw [bisectRight_high hp h] at b3; omega
  by_cases c1 : bisectRight (edges sx Nx) |r.x_spoil| > 0
  case neg => rw [pyAssert_neg c1, Py.error_bind]
  by_cases c2 : bisectRight (edges sy Ny) |r.y_spoil| > 0
  case neg => rw [pyAssert_pos c1, Py.ok_bind, pyAssert_neg c2, Py.error_bind]
  by_cases c3 : bisectRight (edges sp Np) |r.plot_spoil| > 0
  case neg => rw [pyAssert_pos c1, Py.ok_bind, pyAssert_pos c2, Py.ok_bind, pyAssert_neg c3, Py.error_bind]
  by_cases c4 : bisectRight (edges sx Nx) |r.x_spoil| < (edges sx Nx).length
  case neg =>
    rw [pyAssert_pos c1, Py.ok_bind, pyAssert_pos c2, Py.ok_bind, pyAssert_pos c3, Py.ok_bind, pyAssert_neg c4,
      Py.error_bind]
  by_cases c5 : bisectRight (edges sy Ny) |r.y_spoil| < (edges sy Ny).length
  case neg =>
    rw [pyAssert_pos c1, Py.ok_bind, pyAssert_pos c2, Py.ok_bind, pyAssert_pos c3, Py.ok_bind, pyAssert_pos c4,
      Py.ok_bind, pyAssert_neg c5, Py.error_bind]
  by_cases c6 : bisectRight (edges sp Np) |r.plot_spoil| < (edges sp Np).length
  case neg =>
    rw [pyAssert_pos c1, Py.ok_bind, pyAssert_pos c2, Py.ok_bind, pyAssert_pos c3, Py.ok_bind, pyAssert_pos c4,
      Py.ok_bind, pyAssert_pos c5, Py.ok_bind, pyAssert_neg c6, Py.error_bind]
  exact absurd ⟨c1, c2, c3, c4, c5, c6⟩ key

theorem binRows_in {sx sy sp : MinMaxStep} (hx : 0 < sx.step) (hy : 0 < sy.step) (hp : 0 < sp.step) {Nx Ny Np : ℕ}
    (rows : List SpoiledError) (hr : ∀ r ∈ rows, Within sx sy sp Nx Ny Np r) (f g : ℕ → ℕ → ℕ → List ℝ) :
    binRows (edges sx Nx) (edges sy Ny) (edges sp Np) rows
      (binsOf (Np + 1) (Ny + 1) (Nx + 1) f, binsOf (Np + 1) (Ny + 1) (Nx + 1) g) =
    .ok (binsOf (Np + 1) (Ny + 1) (Nx + 1) fun k j i =>
        f k j i ++ (cellRows sx sy sp rows k j i).map (·.loop_error_position_m),
      binsOf (Np + 1) (Ny + 1) (Nx + 1) fun k j i =>
        g k j i ++ (cellRows sx sy sp rows k j i).map (·.loop_error_orientation_deg)) := by
  induction rows generalizing f g with
  | nil => simp [binRows, cellRows]
  | cons r rows ih =>
    obtain ⟨⟨i, hi, bi⟩, ⟨j, hj, bj⟩, k, hk, bk⟩ := hr r (by simp)
    rw [binRows, binRow_in hx hy hp hi hj hk bi bj bk, Py.ok_bind, ih fun x h => hr x (by simp [h])]
    have hc : ∀ k' j' i', cellRows sx sy sp (r :: rows) k' j' i' =
        (if k' = k ∧ j' = j ∧ i' = i then [r] else []) ++ cellRows sx sy sp rows k' j' i' := by
      intro k' j' i'
      unfold cellRows
      by_cases h : k' = k ∧ j' = j ∧ i' = i
      · obtain ⟨rfl, rfl, rfl⟩ := h
        rw [List.filter_cons_of_pos (by simp [bi, bj, bk])]
        simp
      · rw [List.filter_cons_of_neg, if_neg h]
        · rfl
        · simp only [decide_eq_true_eq]
          rintro ⟨h1, h2, h3⟩
          exact h ⟨inBin_unique hp h1 bk, inBin_unique hy h2 bj, inBin_unique hx h3 bi⟩
    congr 2
    · congr 1
      funext k' j' i'
      rw [hc]
      split_ifs <;> simp
    · congr 1
      funext k' j' i'
      rw [hc]
      split_ifs <;> simp

theorem binRows_out {sx sy sp : MinMaxStep} (hx : 0 < sx.step) (hy : 0 < sy.step) (hp : 0 < sp.step) {Nx Ny Np : ℕ}
    (rows : List SpoiledError) (hr : ∃ r ∈ rows, ¬ Within sx sy sp Nx Ny Np r) (f g : ℕ → ℕ → ℕ → List ℝ) :
    binRows (edges sx Nx) (edges sy Ny) (edges sp Np) rows
      (binsOf (Np + 1) (Ny + 1) (Nx + 1) f, binsOf (Np + 1) (Ny + 1) (Nx + 1) g) = .error .assertion := by
  induction rows generalizing f g with
  | nil => obtain ⟨r, h, _⟩ := hr; cases h
  | cons r rows ih =>
    by_cases hw : Within sx sy sp Nx Ny Np r
    · obtain ⟨⟨i, hi, bi⟩, ⟨j, hj, bj⟩, k, hk, bk⟩ := hw
      have hrest : ∃ r ∈ rows, ¬ Within sx sy sp Nx Ny Np r := by
        obtain ⟨x, hx', hn⟩ := hr
        rcases List.mem_cons.mp hx' with rfl | h
        · exact absurd ⟨⟨i, hi, bi⟩, ⟨j, hj, bj⟩, k, hk, bk⟩ hn
        · exact ⟨x, h, hn⟩
      rw [binRows, binRow_in hx hy hp hi hj hk bi bj bk, Py.ok_bind, ih hrest]
    · rw [binRows, binRow_out hx hy hp hw, Py.error_bind]

theorem meanErrors_ok {n : ℕ} (hn : n ≠ 0) {K J I : ℕ} {f g : ℕ → ℕ → ℕ → List ℝ} {k j i : ℕ} (hk : k < K) (hj : j < J)
    (hi : i < I) (hf : (f k j i).length = n) (hg : (g k j i).length = n) :
    meanErrors n (binsOf K J I f, binsOf K J I g) k j i = .ok (Spec.mean (f k j i), Spec.mean (g k j i)) := by
  unfold meanErrors
  have hn' : (n : ℝ) ≠ 0 := by exact_mod_cast hn
  dsimp only
  rw [cell_binsOf f hk hj hi, Py.ok_bind, pyAssert_pos hf, Py.ok_bind, cell_binsOf g hk hj hi, Py.ok_bind,
    pyAssert_pos hg, Py.ok_bind]
  unfold npMean
  rw [hf, hg, npDiv_ok hn', npDiv_ok hn', Py.ok_bind, Py.ok_bind, Py.pure_eq, Spec.mean, Spec.mean, hf, hg]

theorem meanErrors_count {n : ℕ} {K J I : ℕ} {f g : ℕ → ℕ → ℕ → List ℝ} {k j i : ℕ} (hk : k < K) (hj : j < J)
    (hi : i < I) (hf : (f k j i).length ≠ n) :
    meanErrors n (binsOf K J I f, binsOf K J I g) k j i = .error .assertion := by
  unfold meanErrors
  dsimp only
  rw [cell_binsOf f hk hj hi, Py.ok_bind, pyAssert_neg hf, Py.error_bind]

theorem zipSpoils_map {α : Type} (l : List α) (x y p t a : α → ℝ) :
    zipSpoils (l.map x) (l.map y) (l.map p) (l.map t) (l.map a) = l.map fun r => ⟨x r, y r, p r, t r, a r⟩ := by
  induction l with
  | nil => rfl
  | cons r l ih => simp [zipSpoils, ih]

end HandEye
