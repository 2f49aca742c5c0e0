import Verif.Model.ExperimentLoop
import Verif.Props.LoopError

/-! # C69: one failed pair does not lose the results of the others -/

namespace HandEye

theorem loopChainOpt_edges {α : Type} (a : α) (l : List α) (hl : l ≠ []) (f : α × α → Option DQuat) :
    loopChainOpt ((Spec.pairs (a :: l)).map f) (a :: l).length =
      inverseOpt (f (a, l.getLast hl)) >>= fun inv =>
        .ok (some DQuat.identity :: (Spec.neighbours (a :: l)).map f ++ [inv]) := by
  obtain ⟨b, l, rfl⟩ := List.exists_cons_of_ne_nil hl
  have h0 : pyAt ((Spec.pairs (a :: b :: l)).map f) 0 = .ok (f (a, b)) := rfl
  have h1 := loopEdges_eq (a :: b :: l) f l.length 0 0 (by simp) rfl
  have h2 : pyGet ((Spec.pairs (a :: b :: l)).map f) (((a :: b :: l).length : ℤ) - 2) =
      .ok (f (a, (b :: l).getLast hl)) := by
    have e : (((a :: b :: l).length : ℕ) : ℤ) - 2 = ((l.length : ℕ) : ℤ) := by simp; omega
    have hg : ((Spec.pairs (a :: b :: l)).map f)[l.length]? = some (f (a, (b :: l).getLast hl)) := by
      rw [Spec.pairs, List.map_append, List.getElem?_append_left (by simp), List.map_map, List.getElem?_map,
        List.getLast_eq_getElem]
      simp
    have hlt : l.length < ((Spec.pairs (a :: b :: l)).map f).length := (List.getElem?_eq_some_iff.mp hg).1
    unfold pyGet pyPos
    rw [e, if_pos (Int.natCast_nonneg _), Int.toNat_natCast, if_pos hlt]
    dsimp only
    rw [hg]
  have e3 : (a :: b :: l).length - 2 = l.length := by simp
  unfold loopChainOpt
  rw [h0, Py.ok_bind, e3, h1, Py.ok_bind, h2, Py.ok_bind]
  congr 1
  funext inv
  dsimp only
  rw [pyAssert_pos, Py.ok_bind]
  · rfl
  · simp [Spec.neighbours]

theorem chainPosesOpt_some (d : DQuat) (l : List DQuat) : chainPosesOpt d (l.map some) = chainPoses d l := by
  induction l generalizing d with
  | nil => rfl
  | cons x l ih =>
    rw [List.map_cons, chainPosesOpt, chainPoses]
    simp only [ih]

theorem chainPosesOpt_none (d : DQuat) (l : List (Option DQuat)) (h : none ∈ l) :
    ∃ e, chainPosesOpt d l = .error e := by
  induction l generalizing d with
  | nil => simp at h
  | cons x l ih =>
    cases x with
    | none => exact ⟨_, rfl⟩
    | some x =>
      have h' : none ∈ l := by simpa using h
      rw [chainPosesOpt]
      cases hp : (d * x).toPose with
      | error e => exact ⟨e, rfl⟩
      | ok r =>
        obtain ⟨p, d'⟩ := r
        obtain ⟨e, he⟩ := ih d' h'
        refine ⟨e, ?_⟩
        rw [Py.ok_bind]
        dsimp only
        rw [he]
        rfl

/-- The loop error only depends on the results of the chain. -/
theorem computeLoopErrorOpt_eq {α : Type} (a : α) (l : List α) (hl : l ≠ []) (f : α × α → Option DQuat)
    (g : α × α → DQuat) (hn : ∀ p ∈ Spec.neighbours (a :: l), f p = some (g p))
    (hc : f (a, l.getLast hl) = some (g (a, l.getLast hl))) :
    computeLoopErrorOpt ((Spec.pairs (a :: l)).map f) (a :: l).length =
      computeLoopError ((Spec.pairs (a :: l)).map g) (a :: l).length := by
  unfold computeLoopErrorOpt computeLoopError
  rw [loopChainOpt_edges a l hl, C53_edges a l hl, hc]
  have hm : (Spec.neighbours (a :: l)).map f = ((Spec.neighbours (a :: l)).map g).map some := by
    rw [List.map_map]
    exact List.map_congr_left hn
  unfold inverseOpt
  dsimp only
  cases hi : (g (a, l.getLast hl)).inverse with
  | error e => rfl
  | ok inv =>
    simp only [Py.ok_bind, Py.pure_eq]
    have : (some DQuat.identity :: (Spec.neighbours (a :: l)).map f ++ [some inv]) =
        (DQuat.identity :: (Spec.neighbours (a :: l)).map g ++ [inv]).map some := by
      rw [hm]; simp
    rw [this, chainPosesOpt_some]

theorem pairs_length {α β : Type} (L : List α) (M : List β) (h : L.length = M.length) :
    (Spec.pairs L).length = (Spec.pairs M).length := by
  induction L generalizing M with
  | nil =>
    cases M with
    | nil => rfl
    | cons b M => simp at h
  | cons a L ih =>
    cases M with
    | nil => simp at h
    | cons b M =>
      have h' : L.length = M.length := by simpa using h
      simp [Spec.pairs, ih M h', h']

theorem pairs_nodup {α : Type} (L : List α) (h : L.Nodup) : (Spec.pairs L).Nodup := by
  induction L with
  | nil => exact List.nodup_nil
  | cons a L ih =>
    obtain ⟨ha, hL⟩ := List.nodup_cons.mp h
    rw [Spec.pairs]
    refine List.nodup_append.mpr ⟨hL.map (fun b c hbc => (Prod.mk.inj hbc).2), ih hL, ?_⟩
    rintro p hp q hq rfl
    obtain ⟨b, hb, rfl⟩ := List.mem_map.mp hp
    have fst_mem : ∀ (M : List α) (p : α × α), p ∈ Spec.pairs M → p.1 ∈ M := by
      intro M
      induction M with
      | nil => intro p hp; cases hp
      | cons c M ihM =>
        intro p hp
        rw [Spec.pairs] at hp
        rcases List.mem_append.mp hp with hp | hp
        · obtain ⟨_, _, rfl⟩ := List.mem_map.mp hp
          simp
        · exact List.mem_cons_of_mem _ (ihM p hp)
    exact ha (fst_mem L _ hq)

/-- For as many unit results as there are pairs the loop error is computed. -/
theorem computeLoopErrorOpt_ok (ds : List DQuat) (n : ℕ) (hn : 2 ≤ n) (hlen : ds.length = (Spec.pairs (List.range n)).length)
    (hu : ∀ d ∈ ds, Spec.IsUnit d) : ∃ e, computeLoopErrorOpt (ds.map some) n = .ok e := by
  have hl : (List.range (n - 1)).map Nat.succ ≠ [] := by
    intro h
    have := congrArg List.length h
    simp at this
    omega
  have hr : List.range n = 0 :: (List.range (n - 1)).map Nat.succ := by
    rw [← List.range_succ_eq_map]
    congr 1
    omega
  have hnd := pairs_nodup (List.range n) List.nodup_range
  let g : ℕ × ℕ → DQuat := fun p => (ds[(Spec.pairs (List.range n)).idxOf p]?).getD DQuat.identity
  have hds : ds = (Spec.pairs (List.range n)).map g := by
    apply List.ext_getElem
    · simpa using hlen
    intro i h1 h2
    rw [List.getElem_map]
    simp only [g]
    rw [List.Nodup.idxOf_getElem hnd, List.getElem?_eq_getElem h1]
    rfl
  have hgu : ∀ p, Spec.IsUnit (g p) := by
    intro p
    simp only [g]
    cases h : ds[(Spec.pairs (List.range n)).idxOf p]? with
    | none => exact DQuat.isUnit_one
    | some d => exact hu d (List.mem_of_getElem? h)
  have hlen' : (0 :: (List.range (n - 1)).map Nat.succ).length = n := by rw [← hr]; simp
  have he := computeLoopErrorOpt_eq 0 _ hl (fun p => some (g p)) g (fun _ _ => rfl) rfl
  obtain ⟨P, d, -, -, h, -⟩ := C53_value 0 _ hl g (fun p _ => hgu p)
  rw [h, hlen', ← hr] at he
  rw [hds, List.map_map]
  exact ⟨_, he⟩

theorem storePairs_no_opt (optimizer : Optimizer) (i : ℕ) (dqs : List (Option DQuat))
    (h : ∀ d, some d ∈ dqs → Spec.IsUnit d) :
    storePairs optimizer false i dqs = .ok (dqs.map fun dq => (dq, true)) := by
  induction dqs generalizing i with
  | nil => rfl
  | cons dq dqs ih =>
    rw [storePairs, ih _ fun d hd => h d (List.mem_cons_of_mem _ hd)]
    cases dq with
    | none => rfl
    | some d =>
      have hr := DQuat.IsUnit.rot (h d (by simp))
      unfold storePair
      simp [DQuat.toPose_unit hr]

theorem sum_true (n : ℕ) (l : List (Option DQuat × Bool)) (hl : l.length = n) (h : ∀ r ∈ l, r.2 = true) :
    (l.map fun r => if r.2 then 1 else 0).sum = n := by
  induction l generalizing n with
  | nil => simpa using hl
  | cons r l ih =>
    subst hl
    rw [List.map_cons, List.sum_cons, ih l.length rfl fun x hx => h x (List.mem_cons_of_mem _ hx), h r (by simp)]
    simp
    omega

theorem runIteration_no_opt (optimizer : Optimizer) (dqs : List (Option DQuat)) (n : ℕ)
    (h : ∀ d, some d ∈ dqs → Spec.IsUnit d) :
    runIteration optimizer false dqs n = computeLoopErrorOpt dqs n >>= fun e => .ok (dqs, some e) := by
  unfold runIteration loopErrorIfAll
  rw [storePairs_no_opt optimizer 0 dqs h, Py.ok_bind]
  have hs := sum_true dqs.length (dqs.map fun dq => (dq, true)) (by simp) (by simp)
  rw [List.length_map, if_pos hs]
  have hm : (dqs.map fun dq => (dq, true)).map Prod.fst = dqs := by
    rw [List.map_map]
    exact List.map_id dqs
  rw [hm]
  cases computeLoopErrorOpt dqs n <;> rfl

/-- Without optimization: if the calibration of two neighbouring sets, or of the first and the last one, fails, the
iteration ends in an exception and nothing is written for any pair. -/
theorem C69_no_opt_refuted {α : Type} (optimizer : Optimizer) (a : α) (l : List α) (hl : l ≠ [])
    (f : α × α → Option DQuat) (hu : ∀ p d, f p = some d → Spec.IsUnit d)
    (h : (∃ p ∈ Spec.neighbours (a :: l), f p = none) ∨ f (a, l.getLast hl) = none) :
    ∃ e, runIteration optimizer false ((Spec.pairs (a :: l)).map f) (a :: l).length = .error e := by
  rw [runIteration_no_opt optimizer _ _ (by
    intro d hd
    obtain ⟨p, _, hp⟩ := List.mem_map.mp hd
    exact hu p d hp)]
  suffices ∃ e, computeLoopErrorOpt ((Spec.pairs (a :: l)).map f) (a :: l).length = .error e by
    obtain ⟨e, he⟩ := this
    exact ⟨e, by rw [he]; rfl⟩
  unfold computeLoopErrorOpt
  rw [loopChainOpt_edges a l hl]
  cases hc : f (a, l.getLast hl) with
  | none => exact ⟨_, rfl⟩
  | some d =>
    unfold inverseOpt
    dsimp only
    cases hi : d.inverse with
    | error e => exact ⟨e, rfl⟩
    | ok inv =>
      obtain ⟨p, hp, hn⟩ := h.resolve_right (by rw [hc]; simp)
      obtain ⟨e, he⟩ := chainPosesOpt_none DQuat.identity
        (some DQuat.identity :: (Spec.neighbours (a :: l)).map f ++ [some inv]) (by
          simp only [List.cons_append, List.mem_cons, List.mem_append, List.mem_map]
          exact Or.inr (Or.inl ⟨p, hp, hn⟩))
      refine ⟨e, ?_⟩
      simp only [Py.ok_bind, Py.pure_eq]
      rw [he]
      rfl

/-- With optimization: any failed calibration ends the iteration in an exception. -/
theorem C69_opt_refuted (optimizer : Optimizer) (dqs : List (Option DQuat)) (n : ℕ) (h : none ∈ dqs) :
    ∃ e, runIteration optimizer true dqs n = .error e := by
  have key : ∀ i, ∃ e, storePairs optimizer true i dqs = .error e := by
    induction dqs with
    | nil => simp at h
    | cons dq dqs ih =>
      intro i
      rw [storePairs]
      cases hs : storePair optimizer true i dq with
      | error e => exact ⟨e, rfl⟩
      | ok r =>
        cases dq with
        | none => cases hs
        | some d =>
          obtain ⟨e, he⟩ := ih (by simpa using h) (i + 1)
          exact ⟨e, by rw [Py.ok_bind, he]; rfl⟩
  obtain ⟨e, he⟩ := key 0
  exact ⟨e, by unfold runIteration; rw [he]; rfl⟩

/-- Without optimization: if only calibrations fail that are not part of the loop, everything is written. -/
theorem C69_no_opt_partial {α : Type} (optimizer : Optimizer) (a : α) (l : List α) (hl : l ≠ [])
    (f : α × α → Option DQuat) (hu : ∀ p d, f p = some d → Spec.IsUnit d)
    (hn : ∀ p ∈ Spec.neighbours (a :: l), f p ≠ none) (hc : f (a, l.getLast hl) ≠ none) :
    ∃ e, runIteration optimizer false ((Spec.pairs (a :: l)).map f) (a :: l).length =
      .ok ((Spec.pairs (a :: l)).map f, some e) := by
  rw [runIteration_no_opt optimizer _ _ (by
    intro d hd
    obtain ⟨p, _, hp⟩ := List.mem_map.mp hd
    exact hu p d hp)]
  have hg : ∀ p, f p ≠ none → f p = some ((f p).getD DQuat.identity) := by
    intro p hp
    obtain ⟨d, hd⟩ := Option.ne_none_iff_exists'.mp hp
    rw [hd]; rfl
  rw [computeLoopErrorOpt_eq a l hl f (fun p => (f p).getD DQuat.identity) (fun p hp => hg p (hn p hp)) (hg _ hc)]
  obtain ⟨P, d, -, -, h, -⟩ := C53_value a l hl (fun p => (f p).getD DQuat.identity) (by
    intro p _
    cases hp : f p with
    | none => exact DQuat.isUnit_one
    | some d => exact hu p d hp)
  rw [h]
  exact ⟨_, rfl⟩

theorem storePairs_opt (optimizer : Optimizer) (ds : List DQuat) (i : ℕ) (hd : ∀ d ∈ ds, Spec.IsUnit d)
    (ho : ∀ i d d' n, optimizer i d = some (d', n) → Spec.IsUnit d') :
    storePairs optimizer true i (ds.map some) = .ok ((ds.zipIdx i).map fun x =>
      match optimizer x.2 x.1 with
      | none => (none, false)
      | some (d', n) => (some d', decide (n ≠ 0))) := by
  induction ds generalizing i with
  | nil => rfl
  | cons d ds ih =>
    have hr := DQuat.IsUnit.rot (hd d (by simp))
    rw [List.map_cons, storePairs, ih _ fun d h => hd d (List.mem_cons_of_mem _ h), List.zipIdx_cons, List.map_cons]
    unfold storePair Extrinsic.writeJson
    dsimp only
    rw [if_pos rfl, DQuat.toPose_unit hr]
    cases h : optimizer i d with
    | none => rfl
    | some r =>
      obtain ⟨d', n⟩ := r
      have hr' := DQuat.IsUnit.rot (ho i d d' n h)
      simp only [Py.ok_bind]
      rw [DQuat.toPose_unit hr']
      rfl

/-- With optimization: if all calibrations succeed, failures of the optimizer do not lose anything; what is written
for each pair is what the optimizer gives, `None` if it failed, and the loop error is missing if the
optimization of some pair did not succeed. -/
theorem C69_opt_partial {α : Type} (optimizer : Optimizer) (a : α) (l : List α) (hl : l ≠ []) (g : α × α → DQuat)
    (hg : ∀ p ∈ Spec.pairs (a :: l), Spec.IsUnit (g p))
    (ho : ∀ i d d' n, optimizer i d = some (d', n) → Spec.IsUnit d') (written : List (Option DQuat))
    (hw : written = (((Spec.pairs (a :: l)).map g).zipIdx).map fun x => (optimizer x.2 x.1).map Prod.fst) :
    ∃ e, runIteration optimizer true (((Spec.pairs (a :: l)).map g).map some) (a :: l).length = .ok (written, e) ∧
      (e = none ↔ ∃ x ∈ ((Spec.pairs (a :: l)).map g).zipIdx,
        optimizer x.2 x.1 = none ∨ ∃ d, optimizer x.2 x.1 = some (d, 0)) := by
  have hs := storePairs_opt optimizer ((Spec.pairs (a :: l)).map g) 0 (by
    intro d hd
    obtain ⟨p, hp, rfl⟩ := List.mem_map.mp hd
    exact hg p hp) ho
  unfold runIteration
  rw [hs, Py.ok_bind]
  generalize hst : ((((Spec.pairs (a :: l)).map g).zipIdx 0).map fun x =>
      match optimizer x.2 x.1 with
      | none => ((none : Option DQuat), false)
      | some (d', n) => (some d', decide (n ≠ 0))) = stored
  have hfst : stored.map Prod.fst = written := by
    rw [hw, ← hst, List.map_map]
    apply List.map_congr_left
    intro x _
    simp only [Function.comp]
    cases optimizer x.2 x.1 <;> rfl
  have hbad : (∃ x ∈ ((Spec.pairs (a :: l)).map g).zipIdx,
      optimizer x.2 x.1 = none ∨ ∃ d, optimizer x.2 x.1 = some (d, 0)) ↔ ∃ r ∈ stored, r.2 = false := by
    rw [← hst]
    simp only [List.mem_map]
    constructor
    · rintro ⟨x, hx, h | ⟨d, h⟩⟩
      · exact ⟨_, ⟨x, hx, rfl⟩, by rw [h]⟩
      · exact ⟨_, ⟨x, hx, rfl⟩, by rw [h]; simp⟩
    · rintro ⟨_, ⟨x, hx, rfl⟩, h⟩
      refine ⟨x, hx, ?_⟩
      cases ho : optimizer x.2 x.1 with
      | none => exact Or.inl rfl
      | some r =>
        obtain ⟨d, n⟩ := r
        rw [ho] at h
        have : n = 0 := by simpa using h
        subst this
        exact Or.inr ⟨d, rfl⟩
  rw [hbad]
  unfold loopErrorIfAll
  by_cases hall : ∀ r ∈ stored, r.2 = true
  · rw [if_pos (sum_true stored.length stored rfl hall)]
    -- all optimized: the loop error exists
    have hlen : stored.length = (Spec.pairs (List.range (a :: l).length)).length := by
      rw [← hst, List.length_map, List.length_zipIdx, List.length_map]
      exact pairs_length _ _ (by simp)
    have hsome : ∀ r ∈ stored, ∃ d, r = (some d, true) ∧ Spec.IsUnit d := by
      intro r hr
      have ht := hall r hr
      rw [← hst] at hr
      obtain ⟨x, _, rfl⟩ := List.mem_map.mp hr
      cases h : optimizer x.2 x.1 with
      | none => rw [h] at ht; cases ht
      | some r =>
        obtain ⟨d, n⟩ := r
        rw [h] at ht
        refine ⟨d, ?_, ho _ _ _ _ h⟩
        dsimp only at ht ⊢
        rw [ht]
    have hmap : stored.map Prod.fst = (stored.map fun r => r.1.getD DQuat.identity).map some := by
      rw [List.map_map]
      apply List.map_congr_left
      intro r hr
      obtain ⟨d, rfl, _⟩ := hsome r hr
      rfl
    obtain ⟨e, he⟩ := computeLoopErrorOpt_ok (stored.map fun r => r.1.getD DQuat.identity) (a :: l).length (by
      have := List.length_pos_iff.mpr hl
      simp
      omega) (by simpa using hlen) (by
      intro d hd
      obtain ⟨r, hr, rfl⟩ := List.mem_map.mp hd
      obtain ⟨d, rfl, hdu⟩ := hsome r hr
      exact hdu)
    rw [← hmap] at he
    refine ⟨some e, by rw [he, Py.ok_bind, Py.pure_eq, Py.ok_bind, hfst]; rfl, iff_of_false (by simp) ?_⟩
    rintro ⟨r, hr, hf⟩
    rw [hall r hr] at hf
    cases hf
  · have hne : ¬ (stored.map fun r => if r.2 then 1 else 0).sum = stored.length := by
      intro he
      apply hall
      clear hst hfst hbad hall
      induction stored with
      | nil => simp
      | cons r l ih =>
        have hle : ∀ m : List (Option DQuat × Bool), (m.map fun r => if r.2 then 1 else 0).sum ≤ m.length := by
          intro m
          induction m with
          | nil => simp
          | cons r m ih =>
            rw [List.map_cons, List.sum_cons, List.length_cons]
            split <;> omega
        rw [List.map_cons, List.sum_cons, List.length_cons] at he
        have := hle l
        cases hr : r.2 with
        | false => rw [hr] at he; simp at he; omega
        | true =>
          rw [hr] at he
          simp at he
          intro x hx
          rcases List.mem_cons.mp hx with rfl | hx
          · exact hr
          · exact ih (by omega) x hx
    rw [if_neg hne]
    push Not at hall
    obtain ⟨r, hr, hr'⟩ := hall
    exact ⟨none, by rw [Py.pure_eq, Py.ok_bind, hfst]; rfl, iff_of_true rfl ⟨r, hr, by simpa using hr'⟩⟩

/-- Three sets, all pairs calibrated: written.  The first pair failed: nothing is. -/
example (optimizer : Optimizer) :
    (∃ e, runIteration optimizer false ((Spec.pairs [0, 1, 2]).map fun _ => some DQuat.identity) 3 =
      .ok ([some DQuat.identity, some DQuat.identity, some DQuat.identity], some e)) ∧
    (∃ e, runIteration optimizer false ((Spec.pairs [0, 1, 2]).map fun p => if p = (0, 1) then none
      else some DQuat.identity) 3 = .error e) := by
  refine ⟨C69_no_opt_partial optimizer 0 [1, 2] (by simp) (fun _ => some DQuat.identity) ?_ (by simp) (by simp),
    C69_no_opt_refuted optimizer 0 [1, 2] (by simp) (fun p => if p = (0, 1) then none else some DQuat.identity) ?_
      (Or.inl ⟨(0, 1), by simp [Spec.neighbours], rfl⟩)⟩
  · intro p d h
    cases h
    exact DQuat.isUnit_one
  · intro p d h
    split at h
    · cases h
    · cases h
      exact DQuat.isUnit_one

end HandEye
