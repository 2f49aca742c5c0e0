import Verif.Props.Commands4
import Verif.Props.Batch2
import Verif.Spec.CommandLine

/-! # Property C93: exactly which command lines `argparse` and `gflags` accept -/

namespace HandEye

open Spec

theorem isDigit_char {c : Char} (h : c.isDigit = true) : ∃ d < 10, c = digitChar d := by
  simp only [Char.isDigit, ge_iff_le, Bool.and_eq_true, decide_eq_true_eq, UInt32.le_iff_toNat_le] at h
  have h' : 48 ≤ c.toNat ∧ c.toNat ≤ 57 := h
  refine ⟨c.toNat - 48, by omega, ?_⟩
  unfold digitChar
  rw [show 48 + (c.toNat - 48) = c.toNat by omega, Char.ofNat_toNat]

theorem parseDigits_iff (t : Text) (n : ℕ) :
    parseDigits t = some n ↔ ∃ ds : List ℕ, ds ≠ [] ∧ (∀ d ∈ ds, d < 10) ∧ t = ds.map digitChar ∧ n = digitsNumber ds := by
  unfold parseDigits
  constructor
  · intro h
    split at h
    · rename_i ht
      obtain rfl := Option.some.inj h
      have : ∀ t : Text, t.all Char.isDigit = true → ∃ ds : List ℕ, (∀ d ∈ ds, d < 10) ∧ t = ds.map digitChar := by
        intro t
        induction t with
        | nil => exact fun _ => ⟨[], by simp, rfl⟩
        | cons c t ih =>
          intro h
          rw [List.all_cons, Bool.and_eq_true] at h
          obtain ⟨ds, h1, h2⟩ := ih h.2
          obtain ⟨d, hd, rfl⟩ := isDigit_char h.1
          exact ⟨d :: ds, by simpa using ⟨hd, h1⟩, by rw [h2]; rfl⟩
      obtain ⟨ds, h1, rfl⟩ := this t ht.2
      exact ⟨ds, fun e => ht.1 (by rw [e]; rfl), h1, rfl, digitsValue_number h1⟩
    · cases h
  · rintro ⟨ds, h1, h2, rfl, rfl⟩
    rw [if_pos, digitsValue_number h2]
    refine ⟨fun e => h1 (List.map_eq_nil_iff.mp e), ?_⟩
    rw [List.all_eq_true]
    intro c hc
    obtain ⟨d, hd, rfl⟩ := List.mem_map.mp hc
    exact digitChar_isDigit (h2 d hd)

theorem parseInt_iff (t : Text) (n : ℤ) : parseInt t = some n ↔ IsNumber t n := by
  constructor
  · intro h
    unfold parseInt at h
    split at h
    · rename_i r
      cases h1 : parseDigits r with
      | none => rw [h1] at h; cases h
      | some m =>
        rw [h1] at h
        obtain rfl := Option.some.inj h
        obtain ⟨ds, h2, h3, rfl, rfl⟩ := (parseDigits_iff _ _).mp h1
        exact .minus ds h2 h3
    · rename_i r
      cases h1 : parseDigits r with
      | none => rw [h1] at h; cases h
      | some m =>
        rw [h1] at h
        obtain rfl := Option.some.inj h
        obtain ⟨ds, h2, h3, rfl, rfl⟩ := (parseDigits_iff _ _).mp h1
        exact .plus ds h2 h3
    · cases h1 : parseDigits t with
      | none => rw [h1] at h; cases h
      | some m =>
        rw [h1] at h
        obtain rfl := Option.some.inj h
        obtain ⟨ds, h2, h3, rfl, rfl⟩ := (parseDigits_iff _ _).mp h1
        exact .plain ds h2 h3
  · rintro (⟨ds, h2, h3⟩ | ⟨ds, h2, h3⟩ | ⟨ds, h2, h3⟩)
    · have := (parseDigits_iff _ _).mpr ⟨ds, h2, h3, rfl, rfl⟩
      match ds, h2 with
      | d :: ds, _ =>
        have hd := digitChar_ne (h3 d (by simp))
        unfold parseInt
        split
        · rename_i e; exact absurd (List.cons.inj e).1 hd.1
        · rename_i e; exact absurd (List.cons.inj e).1 hd.2
        · rw [this]; rfl
    · rw [parseInt, (parseDigits_iff _ _).mpr ⟨ds, h2, h3, rfl, rfl⟩]; rfl
    · rw [parseInt, (parseDigits_iff _ _).mpr ⟨ds, h2, h3, rfl, rfl⟩]; rfl

theorem mapM_iff {α β : Type} {f : α → Option β} {l : List α} {l' : List β} :
    l.mapM f = some l' ↔ List.Forall₂ (fun a b => f a = some b) l l' := by
  induction l generalizing l' with
  | nil =>
    rw [List.mapM_nil]
    constructor
    · intro h; obtain rfl := Option.some.inj h; exact .nil
    · intro h; cases h; rfl
  | cons a l ih =>
    rw [List.mapM_cons]
    constructor
    · intro h
      obtain ⟨b, hb, h⟩ := Option.bind_eq_some_iff.mp h
      obtain ⟨bs, hbs, h⟩ := Option.bind_eq_some_iff.mp h
      obtain rfl := Option.some.inj h
      exact .cons hb (ih.mp hbs)
    · intro h
      cases h with
      | cons h1 h2 => rw [h1, ih.mpr h2]; rfl

theorem convert_iff (kind : ArgKind) (many : Bool) (ws : List Text) (v : ArgValue) :
    convertArg kind many ws = some v ↔ Takes kind many ws v := by
  constructor
  · intro h
    unfold convertArg at h
    split at h
    · obtain rfl := Option.some.inj h; exact .text _
    · obtain rfl := Option.some.inj h; exact .truth _
    · obtain ⟨n, h1, rfl⟩ := Option.map_eq_some_iff.mp h
      exact .number _ _ ((parseInt_iff _ _).mp h1)
    · obtain rfl := Option.some.inj h; exact .texts _ (by simp)
    · obtain ⟨n, h1, rfl⟩ := Option.map_eq_some_iff.mp h
      refine .numbers _ _ (by simp) ((mapM_iff.mp h1).imp fun _ _ => (parseInt_iff _ _).mp)
    · cases h
  · intro h
    cases h with
    | text t => rfl
    | truth t => rfl
    | number t n h => simp [convertArg, (parseInt_iff _ _).mpr h]
    | texts _ h => cases ws with | nil => exact absurd rfl h | cons a l => rfl
    | numbers _ ns h hn =>
      cases ws with
      | nil => exact absurd rfl h
      | cons a l =>
        have := mapM_iff.mpr (hn.imp fun _ _ => (parseInt_iff _ _).mpr)
        simp only [convertArg]
        rw [this]
        rfl

theorem find_spec {specs : List ArgSpec} (hnames : (specs.map ArgSpec.name).Nodup) {s : ArgSpec} (hs : s ∈ specs) :
    specs.find? (fun t => t.name = s.name) = some s := by
  induction specs with
  | nil => cases hs
  | cons a specs ih =>
    rw [List.map_cons, List.nodup_cons] at hnames
    rw [List.find?_cons]
    rcases List.mem_cons.mp hs with rfl | hs
    · simp
    · have : a.name ≠ s.name := fun e => hnames.1 (e ▸ List.mem_map_of_mem hs)
      simp only [this, decide_false]
      exact ih hnames.2 hs

def Spec.Chunk.group (c : Chunk) : Text × Option Text × List Text := (c.name, c.explicit, c.words)

theorem store_found {specs : List ArgSpec} (c : Chunk) {s : ArgSpec} (h : specs.find? (fun t => t.name = c.name) = some s) :
    storeArg specs c.group = ((match c.explicit with
      | none => some c.words
      | some e => if c.words = [] then some [e] else none) >>= fun words => convertArg s.kind s.many words >>= fun v => some (s.name, v)) := by
  unfold storeArg
  have h : specs.find? (fun t => t.name = c.group.1) = some s := h
  rw [h]
  rcases c with ⟨n, _ | e, ws⟩
  · rfl
  · show (if ws = [] then _ else _) = (if ws = [] then _ else _) >>= _
    by_cases hw : ws = []
    · rw [if_pos hw, if_pos hw]; rfl
    · rw [if_neg hw, if_neg hw]; rfl

theorem store_iff {specs : List ArgSpec} (hnames : (specs.map ArgSpec.name).Nodup) (c : Chunk) (p : Text × ArgValue) :
    storeArg specs c.group = some p ↔ ∃ s ∈ specs, s.name = c.name ∧ p.1 = c.name ∧ c.Value s.kind s.many p.2 := by
  have key : ∀ s : ArgSpec, ((match c.explicit with
      | none => some c.words
      | some e => if c.words = [] then some [e] else none) >>= fun words => convertArg s.kind s.many words >>= fun v => some (s.name, v)) = some p ↔
      p.1 = s.name ∧ c.Value s.kind s.many p.2 := by
    intro s
    unfold Chunk.Value
    cases c.explicit with
    | none =>
      show (convertArg s.kind s.many c.words >>= fun v => some (s.name, v)) = some p ↔ p.1 = s.name ∧ Takes s.kind s.many c.words p.2
      constructor
      · intro h
        obtain ⟨v, h1, h2⟩ := Option.bind_eq_some_iff.mp h
        obtain rfl := Option.some.inj h2
        exact ⟨rfl, (convert_iff _ _ _ _).mp h1⟩
      · rintro ⟨h1, h2⟩
        exact Option.bind_eq_some_iff.mpr ⟨p.2, (convert_iff _ _ _ _).mpr h2, by rw [← h1]⟩
    | some e =>
      dsimp only
      by_cases hw : c.words = []
      · rw [if_pos hw]
        show (convertArg s.kind s.many [e] >>= fun v => some (s.name, v)) = some p ↔ _
        constructor
        · intro h
          obtain ⟨v, h1, h2⟩ := Option.bind_eq_some_iff.mp h
          obtain rfl := Option.some.inj h2
          exact ⟨rfl, hw, (convert_iff _ _ _ _).mp h1⟩
        · rintro ⟨h1, h2⟩
          exact Option.bind_eq_some_iff.mpr ⟨p.2, (convert_iff _ _ _ _).mpr h2.2, by rw [← h1]⟩
      · rw [if_neg hw]
        constructor
        · intro h; cases h
        · rintro ⟨-, h, -⟩; exact absurd h hw
  constructor
  · intro h
    have hh := h
    unfold storeArg at hh
    obtain ⟨s, hs, -⟩ := Option.bind_eq_some_iff.mp hh
    have hs : specs.find? (fun t => t.name = c.name) = some s := hs
    have hn := List.find?_some hs
    simp only [decide_eq_true_eq] at hn
    rw [store_found c hs] at h
    have := (key s).mp h
    exact ⟨s, List.mem_of_find?_eq_some hs, hn, this.1.trans hn, this.2⟩
  · rintro ⟨s, hs, h1, h2, h3⟩
    rw [store_found c (h1 ▸ find_spec hnames hs)]
    exact (key s).mpr ⟨h2.trans h1.symm, h3⟩

theorem final_iff (stored : List (Text × ArgValue)) (s : ArgSpec) (p : Text × ArgValue) :
    finalArg stored s = some p ↔ p.1 = s.name ∧
      ((∃ before after, stored = before ++ (s.name, p.2) :: after ∧ ∀ a ∈ after, a.1 ≠ s.name) ∨
        ((∀ a ∈ stored, a.1 ≠ s.name) ∧ s.required = false ∧ p.2 = s.default)) := by
  unfold finalArg
  cases hf : stored.reverse.find? fun p => p.1 = s.name with
  | some q =>
    obtain ⟨h1, as, bs, h2, h3⟩ := List.find?_eq_some_iff_append.mp hf
    simp only [decide_eq_true_eq] at h1
    have h2' : stored = bs.reverse ++ q :: as.reverse := by
      have := congrArg List.reverse h2
      simpa using this
    have hno : ∀ a ∈ as.reverse, a.1 ≠ s.name := fun a ha => by simpa using h3 a (List.mem_reverse.mp ha)
    dsimp only
    constructor
    · intro h
      obtain rfl := Option.some.inj h
      exact ⟨rfl, Or.inl ⟨bs.reverse, as.reverse, by rw [h2', ← h1], hno⟩⟩
    · rintro ⟨e, ⟨b', a', e1, e2⟩ | ⟨e1, -, -⟩⟩
      · have := e1.symm.trans h2'
        have hr := congrArg (fun l => (List.reverse l).find? fun p => decide (p.1 = s.name)) e1
        rw [hf, List.reverse_append, List.reverse_cons, List.append_assoc, List.find?_append,
          List.find?_eq_none.mpr (by intro a ha; simpa using e2 a (List.mem_reverse.mp ha))] at hr
        simp at hr
        rw [hr, ← e]
      · exact absurd h1 (e1 q (h2' ▸ by simp))
  | none =>
    have hn : ∀ a ∈ stored, a.1 ≠ s.name := fun a ha => by simpa using List.find?_eq_none.mp hf a (List.mem_reverse.mpr ha)
    dsimp only
    constructor
    · intro h
      split at h
      · cases h
      · rename_i hr
        obtain rfl := Option.some.inj h
        exact ⟨rfl, Or.inr ⟨hn, by simpa using hr, rfl⟩⟩
    · rintro ⟨e, ⟨b', a', e1, e2⟩ | ⟨e1, e2, e3⟩⟩
      · exact absurd rfl (hn (s.name, p.2) (e1 ▸ by simp))
      · rw [if_neg (by simp [e2]), ← e, ← e3]

theorem group_chunks {names : List Text} (stray : List Text) (chunks : List Chunk) (heq : ∀ m ∈ names, '=' ∉ m) (hs : ∀ t ∈ stray, NoDash t)
    (h : ∀ c ∈ chunks, c.name ∈ names ∧ c.name.head? = some '-' ∧ ∀ t ∈ c.words, NoDash t) :
    groupArgs ((stray ++ chunks.flatMap Chunk.tokens).map (classifyArg names)) = some (stray, chunks.map Chunk.group) := by
  have hv : ∀ ws : List Text, (∀ t ∈ ws, NoDash t) → ws.map (classifyArg names) = ws.map .value :=
    fun ws h => List.map_congr_left fun t ht => classify_value (h t ht)
  have key : groupArgs ((chunks.flatMap Chunk.tokens).map (classifyArg names)) = some ([], chunks.map Chunk.group) := by
    induction chunks with
    | nil => rfl
    | cons c chunks ih =>
      obtain ⟨h1, h2, h3⟩ := h c List.mem_cons_self
      have ih := ih fun q hq => h q (List.mem_cons_of_mem _ hq)
      have hfirst : classifyArg names c.first = .option c.name c.explicit := by
        unfold Chunk.first
        cases c.explicit with
        | none => exact classify_option h1 h2
        | some e => exact classify_equals h1 h2 heq
      rw [List.flatMap_cons, List.map_append, Chunk.tokens, List.map_cons, hfirst, List.cons_append, hv _ h3, groupArgs, group_values, ih]
      simp [Chunk.group]
  rw [List.map_append, hv _ hs, group_values, key]
  simp


theorem forall₂_split {α β : Type} {R : α → β → Prop} {b : List β} {x : β} {a : List β} {l : List α} (h : List.Forall₂ R l (b ++ x :: a)) :
    ∃ b' x' a', l = b' ++ x' :: a' ∧ R x' x ∧ List.Forall₂ R a' a := by
  induction b generalizing l with
  | nil =>
    cases h with
    | cons h1 h2 => exact ⟨[], _, _, rfl, h1, h2⟩
  | cons y b ih =>
    cases h with
    | cons h1 h2 =>
      obtain ⟨b', x', a', rfl, e1, e2⟩ := ih h2
      exact ⟨_ :: b', x', a', rfl, e1, e2⟩

theorem forall₂_names {R : Chunk → Text × ArgValue → Prop} (hR : ∀ (c : Chunk) (p : Text × ArgValue), R c p → p.1 = c.name) {l : List Chunk} {m : List (Text × ArgValue)}
    (h : List.Forall₂ R l m) (n : Text) : (∀ c ∈ l, c.name ≠ n) ↔ ∀ p ∈ m, p.1 ≠ n := by
  induction h with
  | nil => simp
  | cons h1 _ ih => rw [List.forall_mem_cons, List.forall_mem_cons, ih, hR _ _ h1]

theorem value_unique {c : Chunk} {kind : ArgKind} {many : Bool} {v v' : ArgValue} (h : c.Value kind many v) (h' : c.Value kind many v') : v = v' := by
  have key : ∀ ws, Takes kind many ws v → Takes kind many ws v' → v = v' := fun ws h h' =>
    Option.some.inj (((convert_iff _ _ _ _).mpr h).symm.trans ((convert_iff _ _ _ _).mpr h'))
  unfold Chunk.Value at h h'
  cases he : c.explicit with
  | none => rw [he] at h h'; exact key _ h h'
  | some e => rw [he] at h h'; exact key _ h.2 h'.2

/-- C93 for `argparse`: exactly which command lines are accepted and what they mean.  A line of words, options `--name` or `--name=value` and
words after them is accepted if there is no word before the first option, every option has as many words as it takes (one, or for a list
one or more; none besides a value after an equals sign), numbers are numbers, and the required options are there.  Every option has its last value, or its
default. -/
theorem C93_argparse (specs : List ArgSpec) (hnames : (specs.map ArgSpec.name).Nodup)
    (hdash : ∀ s ∈ specs, s.name.head? = some '-' ∧ '=' ∉ s.name) (stray : List Text) (chunks : List Chunk) (hs : ∀ t ∈ stray, NoDash t)
    (hc : ∀ c ∈ chunks, c.name ∈ specs.map ArgSpec.name ∧ ∀ t ∈ c.words, NoDash t) (ns : List (Text × ArgValue)) :
    parseArgs specs (stray ++ chunks.flatMap Chunk.tokens) = some ns ↔
      stray = [] ∧ (∀ c ∈ chunks, ∃ s ∈ specs, s.name = c.name ∧ ∃ v, c.Value s.kind s.many v) ∧
      List.Forall₂ (fun s p => p.1 = s.name ∧ Outcome chunks s p.2) specs ns := by
  have hg : groupArgs ((stray ++ chunks.flatMap Chunk.tokens).map (classifyArg ("--help".toList :: specs.map ArgSpec.name))) =
      some (stray, chunks.map Chunk.group) := by
    refine group_chunks stray chunks ?_ hs fun c h => ⟨List.mem_cons_of_mem _ (hc c h).1, ?_, (hc c h).2⟩
    · intro m hm
      rcases List.mem_cons.mp hm with rfl | hm
      · decide
      · obtain ⟨s, hs, rfl⟩ := List.mem_map.mp hm
        exact (hdash s hs).2
    · obtain ⟨s, hs, e⟩ := List.mem_map.mp (hc c h).1
      exact e ▸ (hdash s hs).1
  have hR : ∀ (c : Chunk) (p : Text × ArgValue), (∃ s ∈ specs, s.name = c.name ∧ p.1 = c.name ∧ c.Value s.kind s.many p.2) → p.1 = c.name :=
    fun c p ⟨_, _, _, h, _⟩ => h
  have hs1 : ∀ s ∈ specs, ∀ s' ∈ specs, s.name = s'.name → s = s' := by
    intro s h1 s' h2 e
    have a := find_spec hnames h1
    rw [e, find_spec hnames h2] at a
    exact (Option.some.inj a).symm
  have hp : parseArgs specs (stray ++ chunks.flatMap Chunk.tokens) = if stray ≠ [] then none
      else (chunks.map Chunk.group).mapM (storeArg specs) >>= fun stored => specs.mapM (finalArg stored) := by
    unfold parseArgs
    rw [hg]
    rfl
  have hstore : ∀ stored, (chunks.map Chunk.group).mapM (storeArg specs) = some stored ↔
      List.Forall₂ (fun c p => ∃ s ∈ specs, s.name = c.name ∧ p.1 = c.name ∧ c.Value s.kind s.many p.2) chunks stored := by
    intro stored
    rw [mapM_iff, List.forall₂_map_left_iff]
    simp only [store_iff hnames]
  have houtcome : ∀ stored, List.Forall₂ (fun c p => ∃ s ∈ specs, s.name = c.name ∧ p.1 = c.name ∧ c.Value s.kind s.many p.2) chunks stored →
      ∀ s ∈ specs, ∀ p, finalArg stored s = some p ↔ p.1 = s.name ∧ Outcome chunks s p.2 := by
    intro stored hst s hsm p
    rw [final_iff]
    refine and_congr_right fun e => ?_
    refine or_congr ?_ ?_
    · constructor
      · rintro ⟨b, a, e1, e2⟩
        rw [e1] at hst
        obtain ⟨b', c, a', rfl, ⟨s', m1, m2, m3, m4⟩, f⟩ := forall₂_split hst
        have hn : c.name = s.name := m3.symm
        obtain rfl := hs1 s' m1 s hsm (m2.trans hn)
        exact ⟨b', c, a', rfl, hn, (forall₂_names hR f _).mpr e2, m4⟩
      · rintro ⟨b, c, a, rfl, hn, hno, hv⟩
        obtain ⟨b', q, a', rfl, ⟨s', m1, m2, m3, m4⟩, f⟩ := forall₂_split hst.flip
        obtain rfl := hs1 s' m1 s hsm (m2.trans hn)
        refine ⟨b', a', ?_, (forall₂_names hR f.flip _).mp hno⟩
        rw [value_unique hv m4, ← hn, ← m3]
    · rw [forall₂_names hR hst]
  rw [hp]
  constructor
  · intro h
    split at h
    · cases h
    · rename_i hst
      obtain ⟨stored, h1, h2⟩ := Option.bind_eq_some_iff.mp h
      have h1 := (hstore stored).mp h1
      refine ⟨by simpa using hst, ?_, ?_⟩
      · intro c hcm
        have : ∀ (l : List Chunk) (m : List (Text × ArgValue)),
            List.Forall₂ (fun c p => ∃ s ∈ specs, s.name = c.name ∧ p.1 = c.name ∧ c.Value s.kind s.many p.2) l m →
            ∀ c ∈ l, ∃ s ∈ specs, s.name = c.name ∧ ∃ v, c.Value s.kind s.many v := by
          intro l m h
          induction h with
          | nil => simp
          | cons h1 _ ih =>
            rw [List.forall_mem_cons]
            obtain ⟨s, a1, a2, -, a4⟩ := h1
            exact ⟨⟨s, a1, a2, _, a4⟩, ih⟩
        exact this _ _ h1 c hcm
      · have h2 := mapM_iff.mp h2
        rw [List.forall₂_iff_get] at h2 ⊢
        refine ⟨h2.1, fun i hi hi' => ?_⟩
        exact (houtcome stored h1 _ (List.get_mem _ _) _).mp (h2.2 i hi hi')
  · rintro ⟨rfl, hv, ho⟩
    rw [if_neg (by simp)]
    have : ∃ stored, List.Forall₂ (fun (c : Chunk) (p : Text × ArgValue) => ∃ s ∈ specs, s.name = c.name ∧ p.1 = c.name ∧ c.Value s.kind s.many p.2) chunks stored := by
      clear hc hg hp hstore houtcome ho
      induction chunks with
      | nil => exact ⟨[], .nil⟩
      | cons c chunks ih =>
        rw [List.forall_mem_cons] at hv
        obtain ⟨stored, h⟩ := ih hv.2
        obtain ⟨s, a1, a2, v, a3⟩ := hv.1
        exact ⟨(c.name, v) :: stored, .cons ⟨s, a1, a2, rfl, a3⟩ h⟩
    obtain ⟨stored, h1⟩ := this
    rw [(hstore stored).mpr h1]
    show specs.mapM (finalArg stored) = some ns
    rw [mapM_iff]
    rw [List.forall₂_iff_get] at ho ⊢
    exact ⟨ho.1, fun i hi hi' => (houtcome stored h1 _ (List.get_mem _ _) _).mpr (ho.2 i hi hi')⟩

/-- The seven kinds of lines, with the options of the calibration: two words, no word, a word after an equals sign and another, a word before the
options, a number that is none, all rejected; and the last of two values counts. -/
example : parseArgs calibrateSpecs ["--plot_every_nth_pose".toList, "1".toList, "2".toList] = none ∧
    parseArgs calibrateSpecs ["--plot_every_nth_pose".toList] = none ∧
    parseArgs calibrateSpecs ["--plot_every_nth_pose=1".toList, "2".toList] = none ∧
    parseArgs calibrateSpecs ["1".toList, "--plot_every_nth_pose".toList, "2".toList] = none ∧
    parseArgs calibrateSpecs ["--plot_every_nth_pose".toList, "2.0".toList] = none ∧
    (parseArgs calibrateSpecs ["--plot_every_nth_pose".toList, "2".toList, "--plot_every_nth_pose=+3".toList]).bind
      (fun ns => ns.lookup "--plot_every_nth_pose".toList) = some (.int 3) := by decide

/-- A word that is a flag, with or without an equals sign. -/
theorem flag_word : ∀ k n, (k = 1 ∨ k = 2) → FlagName n → ∀ s : Text, (s = [] ∨ ∃ v, s = '=' :: v) →
    flagName (List.replicate k '-' ++ n ++ s) = n ∧ (List.replicate k '-' ++ n ++ s).head? = some '-' ∧
    List.replicate k '-' ++ n ++ s ≠ ['-'] ∧ List.replicate k '-' ++ n ++ s ≠ "--".toList ∧
    (s = [] → flagValue (List.replicate k '-' ++ n ++ s) = none) ∧ ∀ v, s = '=' :: v → flagValue (List.replicate k '-' ++ n ++ s) = some v := by
  intro k n hk ⟨hn1, hn2, hn3⟩ s hs
  have hn' : ∀ c ∈ n, decide (c ≠ '=') = true := fun c hc => decide_eq_true fun e => hn3 (e ▸ hc)
  have hs' : s.takeWhile (· ≠ '=') = [] := by rcases hs with rfl | ⟨v, rfl⟩ <;> simp
  match n, hn1, hn2 with
  | c :: n, _, hn2 =>
    have hc : c ≠ '-' := hn2 c rfl
    have htw : (c :: n ++ s).takeWhile (· ≠ '=') = c :: n := by rw [List.takeWhile_append_of_pos hn', hs', List.append_nil]
    have hmem : ∀ j, '=' ∈ List.replicate j '-' ++ (c :: n) ++ s ↔ '=' ∈ s := by
      intro j
      rw [List.mem_append, List.mem_append, List.mem_replicate]
      have : ¬ ('=' : Char) = '-' := by decide
      simp only [this, and_false, hn3, false_or]
    have hval : ∀ j v, s = '=' :: v → (List.replicate j '-' ++ (c :: n) ++ s).dropWhile (· ≠ '=') = '=' :: v := by
      intro j v hv
      rw [List.append_assoc, List.dropWhile_append_of_pos (by intro a ha; rw [List.eq_of_mem_replicate ha]; decide),
        List.dropWhile_append_of_pos hn', hv]
      simp
    refine ⟨?_, ?_, ?_, ?_, ?_, ?_⟩
    · unfold flagName
      rcases hk with rfl | rfl
      · have : "--".toList.isPrefixOf (List.replicate 1 '-' ++ (c :: n) ++ s) = false := by
          simp [List.isPrefixOf, hc.symm]
        rw [this]
        exact htw
      · exact htw
    · rcases hk with rfl | rfl <;> rfl
    · rcases hk with rfl | rfl <;> simp [List.replicate]
    · rcases hk with rfl | rfl <;> simp [List.replicate, hc]
    · rintro rfl
      unfold flagValue
      rw [if_neg]
      rw [List.contains_iff_mem, hmem]
      simp
    · intro v hv
      unfold flagValue
      rw [if_pos (by rw [List.contains_iff_mem, hmem, hv]; simp), hval k v hv]
      rfl

/-- How the words of the flags are taken one after the other. -/
theorem flag_step {known : List Text} {w : FlagWord} (h : w.Proper known) (r : List Text) :
    parseFlags known none (w.tokens ++ r) =
      (parseFlags known none r).map fun p => (w.assigned.toList ++ p.1, w.rest.toList ++ p.2) := by
  cases w with
  | equals k n v =>
    obtain ⟨hk, hn, hf⟩ := h
    obtain ⟨a1, a2, a3, a4, -, a6⟩ := flag_word k n hk hf ('=' :: v) (Or.inr ⟨v, rfl⟩)
    simp only [FlagWord.tokens, List.cons_append, List.nil_append]
    rw [parseFlags, if_neg (by simp only [a2, ne_eq, not_true_eq_false, false_or]; exact a3), if_neg a4, if_pos (by rw [a1]; exact hn), a6 v rfl, a1]
    rfl
  | words k n v =>
    obtain ⟨hk, hn, hf⟩ := h
    obtain ⟨a1, a2, a3, a4, a5, -⟩ := flag_word k n hk hf [] (Or.inl rfl)
    rw [List.append_nil] at a1 a2 a3 a4 a5
    simp only [FlagWord.tokens, List.cons_append, List.nil_append]
    rw [parseFlags, if_neg (by simp only [a2, ne_eq, not_true_eq_false, false_or]; exact a3), if_neg a4, if_pos (by rw [a1]; exact hn), a5 rfl, a1]
    dsimp only
    rw [parseFlags]
    rfl
  | other t =>
    simp only [FlagWord.tokens, List.cons_append, List.nil_append]
    rw [parseFlags, if_pos]
    · rfl
    · rcases h with h | h
      · exact Or.inl fun e => h _ e rfl
      · exact Or.inr h

theorem flag_steps {known : List Text} (ws : List FlagWord) (h : ∀ w ∈ ws, w.Proper known) (r : List Text) :
    parseFlags known none (ws.flatMap FlagWord.tokens ++ r) =
      (parseFlags known none r).map fun p => (ws.filterMap FlagWord.assigned ++ p.1, ws.filterMap FlagWord.rest ++ p.2) := by
  induction ws with
  | nil => simp
  | cons w ws ih =>
    rw [List.flatMap_cons, List.append_assoc, flag_step (h w List.mem_cons_self), ih fun q hq => h q (List.mem_cons_of_mem _ hq)]
    rw [Option.map_map]
    congr 1
    funext p
    rw [Function.comp, List.filterMap_cons, List.filterMap_cons]
    cases w <;> rfl

/-- C93 for `gflags`: flags with values, as `--name=value` or as two words, with one or two dashes, are assigned in their order, and other
words are ignored; words after two dashes alone are ignored all; a flag that is not known, and a flag at the end without its value, end the
program. -/
theorem C93_flags (known : List Text) (ws : List FlagWord) (h : ∀ w ∈ ws, w.Proper known) :
    parseFlags known none (ws.flatMap FlagWord.tokens) = some (ws.filterMap FlagWord.assigned, ws.filterMap FlagWord.rest) ∧
    (∀ r, parseFlags known none (ws.flatMap FlagWord.tokens ++ "--".toList :: r) =
      some (ws.filterMap FlagWord.assigned, ws.filterMap FlagWord.rest ++ r)) ∧
    (∀ k n v r, (k = 1 ∨ k = 2) → FlagName n → n ∉ known → parseFlags known none (ws.flatMap FlagWord.tokens ++ (FlagWord.equals k n v).tokens ++ r) = none ∧
      parseFlags known none (ws.flatMap FlagWord.tokens ++ (List.replicate k '-' ++ n) :: r) = none) ∧
    (∀ k n, (k = 1 ∨ k = 2) → FlagName n → parseFlags known none (ws.flatMap FlagWord.tokens ++ [List.replicate k '-' ++ n]) = none) := by
  refine ⟨?_, fun r => ?_, fun k n v r hk hn hnk => ⟨?_, ?_⟩, fun k n hk hn => ?_⟩
  · have := flag_steps ws h []
    rw [List.append_nil] at this
    rw [this]
    simp [parseFlags]
  · rw [flag_steps ws h]
    have : parseFlags known none ("--".toList :: r) = some ([], r) := by
      rw [parseFlags, if_neg (by decide), if_pos rfl]
    rw [this]
    simp
  · rw [List.append_assoc, flag_steps ws h]
    obtain ⟨a1, a2, a3, a4, -, a6⟩ := flag_word k n hk hn ('=' :: v) (Or.inr ⟨v, rfl⟩)
    simp only [FlagWord.tokens, List.cons_append, List.nil_append]
    rw [parseFlags, if_neg (by simp only [a2, ne_eq, not_true_eq_false, false_or]; exact a3), if_neg a4, if_neg (by rw [a1]; exact hnk)]
    rfl
  · rw [flag_steps ws h]
    obtain ⟨a1, a2, a3, a4, a5, -⟩ := flag_word k n hk hn [] (Or.inl rfl)
    rw [List.append_nil] at a1 a2 a3 a4 a5
    rw [parseFlags, if_neg (by simp only [a2, ne_eq, not_true_eq_false, false_or]; exact a3), if_neg a4, if_neg (by rw [a1]; exact hnk)]
    rfl
  · rw [flag_steps ws h]
    obtain ⟨a1, a2, a3, a4, a5, -⟩ := flag_word k n hk hn [] (Or.inl rfl)
    rw [List.append_nil] at a1 a2 a3 a4 a5
    rw [parseFlags, if_neg (by simp only [a2, ne_eq, not_true_eq_false, false_or]; exact a3), if_neg a4]
    split
    · rw [a5 rfl]
      rfl
    · rfl

/-- Flags of the batch estimator with one and with two dashes. -/
example : parseFlags estimatorFlags none ["-v".toList, "1".toList, "a".toList, "--pose1_csv=a=b".toList, "--".toList, "-x".toList] =
    some ([("v".toList, "1".toList), ("pose1_csv".toList, "a=b".toList)], ["a".toList, "-x".toList]) ∧
    parseFlags estimatorFlags none ["--pose=a".toList] = none ∧ parseFlags estimatorFlags none ["--pose1_csv".toList] = none := by decide

/-- The last value that is assigned to a flag counts. -/
theorem C93_last_flag (before after : List (Text × Text)) (n v d : Text) (h : ∀ p ∈ after, p.1 ≠ n) :
    flagOf (before ++ (n, v) :: after) n d = v ∧ flagOf after n d = d := by
  unfold flagOf
  have hno : after.reverse.find? (fun p => decide (p.1 = n)) = none :=
    List.find?_eq_none.mpr (by intro a ha; simpa using h a (List.mem_reverse.mp ha))
  constructor
  · rw [List.reverse_append, List.reverse_cons, List.append_assoc, List.find?_append, hno]
    simp
  · rw [hno]

example : flagOf [("v".toList, "1".toList), ("v".toList, "2".toList)] "v".toList [] = "2".toList := by decide

end HandEye
