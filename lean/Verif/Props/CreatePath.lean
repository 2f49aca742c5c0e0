import Verif.Model.Pipeline

/-!
# C56: `create_path` makes the directory or reports an error

Without another process it does, for every path with a directory part.  Concurrent creation is not tolerated.
-/

namespace HandEye

/-- Nobody else. -/
def Other.idle : Other := ⟨fun _ fs => fs, fun _ fs => fs⟩

/-- Another process that at most makes directories. -/
structure Other.OnlyMakesDirs (other : Other) : Prop where
  check : ∀ p fs q, fs q ≠ none → other.beforeCheck p fs q = fs q
  check' : ∀ p fs q, fs q = none → other.beforeCheck p fs q ≠ some .file
  mkdir : ∀ p fs q, fs q ≠ none → other.beforeMkdir p fs q = fs q
  mkdir' : ∀ p fs q, fs q = none → other.beforeMkdir p fs q ≠ some .file

/-- `fs'` has the entries of `fs` and more directories. -/
def OnlyMoreDirs (fs fs' : FileTree) : Prop :=
  (∀ q, fs q ≠ none → fs' q = fs q) ∧ ∀ q, fs q = none → fs' q ≠ some .file

theorem OnlyMoreDirs.refl (fs : FileTree) : OnlyMoreDirs fs fs :=
  ⟨fun _ _ => rfl, fun q h => by simp [h]⟩

theorem OnlyMoreDirs.trans {a b c : FileTree} (h : OnlyMoreDirs a b) (h' : OnlyMoreDirs b c) : OnlyMoreDirs a c := by
  refine ⟨fun q hq => ?_, fun q hq => ?_⟩
  · have := h.1 q hq
    rw [h'.1 q (this ▸ hq), this]
  · have := h.2 q hq
    cases hb : b q with
    | none => exact h'.2 q hb
    | some e => rw [h'.1 q (by simp [hb])]; exact this

theorem OnlyMoreDirs.dir {a b : FileTree} (h : OnlyMoreDirs a b) {q : List String} (hq : a q = some .dir) :
    b q = some .dir := by rw [h.1 q (by simp [hq]), hq]

theorem OnlyMoreDirs.not_file {a b : FileTree} (h : OnlyMoreDirs a b) {q : List String} (hq : a q ≠ some .file) :
    b q ≠ some .file := by
  cases ha : a q with
  | none => exact h.2 q ha
  | some e => rw [h.1 q (by simp [ha])]; exact hq

theorem Other.OnlyMakesDirs.before {other : Other} (h : other.OnlyMakesDirs) (p : List String) (fs : FileTree) :
    OnlyMoreDirs fs (other.beforeCheck p fs) := ⟨h.check p fs, h.check' p fs⟩

theorem Other.OnlyMakesDirs.between {other : Other} (h : other.OnlyMakesDirs) (p : List String) (fs : FileTree) :
    OnlyMoreDirs fs (other.beforeMkdir p fs) := ⟨h.mkdir p fs, h.mkdir' p fs⟩

theorem osMkdir_cases (denied : List String → Bool) (fs : FileTree) (p : List String) (hp : p ≠ [])
    (hden : denied p = false) (hpar : p.dropLast ≠ [] → fs p.dropLast = some .dir) (hfile : fs p ≠ some .file) :
    (osMkdir denied fs p).1 = Function.update fs p (some .dir) ∧
    ((osMkdir denied fs p).2 = if fs p = none then none else some .EEXIST) := by
  unfold osMkdir
  rw [if_neg hp]
  by_cases h : fs p = none
  · rw [if_neg (by simp [h]), if_neg (by rintro ⟨h1, h2⟩; rw [hpar h1] at h2; cases h2),
      if_neg (by rintro ⟨h1, h2⟩; rw [hpar h1] at h2; cases h2), if_neg (by simp [hden]), if_pos h]
    exact ⟨rfl, rfl⟩
  · rw [if_pos h, if_neg h]
    refine ⟨?_, rfl⟩
    funext q
    by_cases hq : q = p
    · subst hq
      rw [Function.update_self]
      cases he : fs q with
      | none => exact absurd he h
      | some e => cases e with
        | dir => exact he
        | file => exact absurd he hfile
    · rw [Function.update_of_ne hq]

theorem osMkdir_other (denied : List String → Bool) (fs : FileTree) (p q : List String) (h : q ≠ p)
    (hq : fs q = none) : (osMkdir denied fs p).1 q = none := by
  unfold osMkdir
  split_ifs <;> try exact hq
  change Function.update fs p (some .dir) q = none
  rw [Function.update_of_ne h, hq]

theorem OnlyMoreDirs.update (fs : FileTree) (p : List String) (h : fs p ≠ some .file) :
    OnlyMoreDirs fs (Function.update fs p (some .dir)) := by
  refine ⟨fun q hq => ?_, fun q hq => ?_⟩
  · by_cases hqp : q = p
    · subst hqp
      rw [Function.update_self]
      cases he : fs q with
      | none => exact absurd he hq
      | some e => cases e with
        | dir => rfl
        | file => exact absurd he h
    · rw [Function.update_of_ne hqp]
  · by_cases hqp : q = p
    · subst hqp; simp
    · rw [Function.update_of_ne hqp, hq]; simp

theorem osMakedirs_spec (denied : List String → Bool) (other : Other) (hother : other.OnlyMakesDirs)
    (p : List String) (hp : p ≠ []) (fs : FileTree) (hden : ∀ q, q <+: p → denied q = false)
    (hfile : ∀ q, q ≠ [] → q <+: p → fs q ≠ some .file) :
    OnlyMoreDirs fs (osMakedirs denied other fs p).1 ∧ (osMakedirs denied other fs p).1 p = some .dir ∧
    ((osMakedirs denied other fs p).2 = none ∨ (osMakedirs denied other fs p).2 = some .EEXIST) := by
  induction p using List.reverseRecOn generalizing fs with
  | nil => exact absurd rfl hp
  | append_singleton l x ih =>
    have last : ∀ g : FileTree, OnlyMoreDirs fs g → (l ≠ [] → g l = some .dir) →
        OnlyMoreDirs fs (osMkdir denied (other.beforeMkdir (l ++ [x]) g) (l ++ [x])).1 ∧
        (osMkdir denied (other.beforeMkdir (l ++ [x]) g) (l ++ [x])).1 (l ++ [x]) = some .dir ∧
        ((osMkdir denied (other.beforeMkdir (l ++ [x]) g) (l ++ [x])).2 = none ∨
          (osMkdir denied (other.beforeMkdir (l ++ [x]) g) (l ++ [x])).2 = some .EEXIST) := by
      intro g hg hgl
      have hb := hother.between (l ++ [x]) g
      have hnf := (hg.trans hb).not_file (hfile (l ++ [x]) (by simp) (List.prefix_refl _))
      obtain ⟨h1, h2⟩ := osMkdir_cases denied (other.beforeMkdir (l ++ [x]) g) (l ++ [x]) (by simp)
        (hden _ (List.prefix_refl _)) (by rw [List.dropLast_concat]; exact fun h => hb.dir (hgl h)) hnf
      rw [h1, h2]
      refine ⟨(hg.trans hb).trans (OnlyMoreDirs.update _ _ hnf), by simp, ?_⟩
      split_ifs <;> simp
    have hc := hother.before (l ++ [x]) fs
    rw [osMakedirs]
    simp only [List.dropLast_concat]
    split_ifs with h
    · obtain ⟨i1, i2, i3⟩ := ih h.1 (other.beforeCheck (l ++ [x]) fs)
        (fun q hq => hden q (hq.trans (List.prefix_append l [x])))
        (fun q hq hq' => hc.not_file (hfile q hq (hq'.trans (List.prefix_append l [x]))))
      rcases hm : osMakedirs denied other (other.beforeCheck (l ++ [x]) fs) l with ⟨g, r⟩
      rw [hm] at i1 i2 i3
      simp only at i1 i2 i3
      rcases i3 with rfl | rfl
      · exact last g (hc.trans i1) (fun _ => i2)
      · exact last g (hc.trans i1) (fun _ => i2)
    · refine last _ hc fun hl => ?_
      cases he : other.beforeCheck (l ++ [x]) fs l with
      | none => exact absurd ⟨hl, he⟩ h
      | some e => cases e with
        | dir => rfl
        | file => exact absurd he (hc.not_file (hfile l hl (List.prefix_append l [x])))

/-- Whatever the other process does and whatever is denied: if `create_path` returns, the directory exists. -/
theorem C56_returns_partial (denied : List String → Bool) (other : Other) (fs : FileTree) (dirname : List String)
    (h : (createPath denied other fs dirname).2 = .ok ()) :
    (createPath denied other fs dirname).1 dirname ≠ none := by
  have mk : ∀ g : FileTree, (osMkdir denied g dirname).2 = none → (osMkdir denied g dirname).1 dirname ≠ none := by
    intro g
    unfold osMkdir
    split_ifs <;> simp
  unfold createPath at h ⊢
  split_ifs at h ⊢ with h0
  · have key : (osMakedirs denied other fs dirname).2 = none → (osMakedirs denied other fs dirname).1 dirname ≠ none := by
      rw [osMakedirs]
      dsimp only
      split_ifs
      · split
        · exact mk _
        · exact mk _
        · intro hh; cases hh
      · exact mk _
    rcases hm : osMakedirs denied other fs dirname with ⟨g, r⟩
    rw [hm] at h key
    cases r with
    | none => exact key rfl
    | some e => cases h
  · exact h0

/-- With another process that makes directories, but not this one, `create_path` succeeds for every path with a
directory part that is not blocked by files or missing rights. -/
theorem C56_works_partial (denied : List String → Bool) (other : Other) (hother : other.OnlyMakesDirs) (fs : FileTree)
    (dirname : List String) (hne : dirname ≠ []) (hden : ∀ q, q <+: dirname → denied q = false)
    (hfile : ∀ q, q ≠ [] → q <+: dirname → fs q ≠ some .file)
    (hself : ∀ p g, g dirname = none →
      other.beforeCheck p g dirname = none ∧ other.beforeMkdir p g dirname = none) :
    (createPath denied other fs dirname).2 = .ok () ∧
    (createPath denied other fs dirname).1 dirname = some .dir ∧
    ∀ q, fs q ≠ none → (createPath denied other fs dirname).1 q = fs q := by
  unfold createPath
  by_cases h0 : fs dirname = none
  · rw [if_pos h0]
    have hs := osMakedirs_spec denied other hother dirname hne fs hden hfile
    have untouched : ∀ (p : List String), p.length < dirname.length → ∀ g : FileTree, g dirname = none →
        (osMakedirs denied other g p).1 dirname = none := by
      intro p
      induction p using List.reverseRecOn with
      | nil =>
        intro hl g hg
        rw [osMakedirs]
        simp only [List.dropLast_nil, ne_eq, not_true_eq_false, false_and, dite_false]
        exact osMkdir_other _ _ _ _ hne ((hself _ _ ((hself _ _ hg).1)).2)
      | append_singleton l x ih =>
        intro hl g hg
        have hll : l.length < dirname.length := by
          rw [List.length_append, List.length_singleton] at hl; omega
        have ih' := ih hll
        have mk := fun (g : FileTree) (_ : (l ++ [x]).length < dirname.length) (hg : g dirname = none) =>
          osMkdir_other denied g (l ++ [x]) dirname (by rintro rfl; omega) hg
        rw [osMakedirs]
        simp only [List.dropLast_concat]
        have hg' := (hself (l ++ [x]) g hg).1
        split_ifs
        · have := ih' _ hg'
          rcases hm : osMakedirs denied other (other.beforeCheck (l ++ [x]) g) l with ⟨g2, r⟩
          rw [hm] at this
          simp only at this
          match r with
          | none => exact mk _ hl ((hself _ _ this).2)
          | some .EEXIST => exact mk _ hl ((hself _ _ this).2)
          | some .ENOENT => exact this
          | some .ENOTDIR => exact this
          | some .EACCES => exact this
        · exact mk _ hl ((hself _ _ hg').2)
    have hnone : (osMakedirs denied other fs dirname).2 = none := by
      rcases hs.2.2 with h | h
      · exact h
      · exfalso
        have mk : ∀ g : FileTree, g dirname = none → (osMkdir denied g dirname).2 ≠ some .EEXIST := by
          intro g hg
          unfold osMkdir
          split_ifs with h1 h2 <;> simp_all
        rw [osMakedirs] at h
        dsimp only at h
        have hc := (hself dirname fs h0).1
        split_ifs at h with hh
        · have := untouched dirname.dropLast (by
            have := List.length_pos_iff.mpr hne
            rw [List.length_dropLast]; omega) _ hc
          rcases hm : osMakedirs denied other (other.beforeCheck dirname fs) dirname.dropLast with ⟨g2, r⟩
          rw [hm] at this h
          simp only at this h
          match r with
          | none => exact mk _ ((hself _ _ this).2) h
          | some .EEXIST => exact mk _ ((hself _ _ this).2) h
          | some .ENOENT => cases h
          | some .ENOTDIR => cases h
          | some .EACCES => cases h
        · exact mk _ ((hself _ _ hc).2) h
    rcases hm : osMakedirs denied other fs dirname with ⟨g, r⟩
    rw [hm] at hs hnone
    simp only at hnone hs
    subst hnone
    exact ⟨rfl, hs.2.1, hs.1.1⟩
  · rw [if_neg h0]
    refine ⟨rfl, ?_, fun q _ => rfl⟩
    cases he : fs dirname with
    | none => exact absurd he h0
    | some e => cases e with
      | dir => exact he
      | file => exact absurd he (hfile dirname hne (List.prefix_refl _))

/-- Alone, `create_path` makes the missing directories on the way and nothing else. -/
theorem C56_alone_partial (denied : List String → Bool) (fs : FileTree) (dirname : List String) (hne : dirname ≠ [])
    (hden : ∀ q, q <+: dirname → denied q = false) (hfile : ∀ q, q ≠ [] → q <+: dirname → fs q ≠ some .file)
    (htree : ∀ q r, q ≠ [] → q <+: r → fs r ≠ none → fs q ≠ none) :
    (createPath denied Other.idle fs dirname).2 = .ok () ∧
    ∀ q, (createPath denied Other.idle fs dirname).1 q =
      if q ≠ [] ∧ q <+: dirname then some .dir else fs q := by
  classical
  refine ⟨(C56_works_partial denied Other.idle ⟨fun _ _ _ _ => rfl, fun _ g q h => by simp [Other.idle, h],
    fun _ _ _ _ => rfl, fun _ g q h => by simp [Other.idle, h]⟩ fs dirname hne hden hfile
    (fun _ _ h => ⟨h, h⟩)).1, ?_⟩
  have exact_dirs : ∀ p : List String, p ≠ [] → p <+: dirname → ∀ q, (osMakedirs denied Other.idle fs p).1 q =
      if q ≠ [] ∧ q <+: p then some .dir else fs q := by
    intro p
    induction p using List.reverseRecOn with
    | nil => intro h; exact absurd rfl h
    | append_singleton l x ih =>
      intro _ hpre q
      have hlpre : l <+: dirname := (List.prefix_append l [x]).trans hpre
      have last : ∀ g : FileTree, (∀ q, g q = if q ≠ [] ∧ q <+: l then some .dir else fs q) →
          (osMkdir denied g (l ++ [x])).1 q = if q ≠ [] ∧ q <+: l ++ [x] then some .dir else fs q := by
        intro g hg
        have hgf : g (l ++ [x]) ≠ some .file := by
          rw [hg, if_neg]
          · exact hfile _ (by simp) hpre
          · rintro ⟨_, h⟩
            have := h.length_le
            rw [List.length_append, List.length_singleton] at this
            omega
        rw [(osMkdir_cases denied g (l ++ [x]) (by simp) (hden _ hpre)
          (by rw [List.dropLast_concat]; intro hl; rw [hg, if_pos ⟨hl, List.prefix_refl _⟩]) hgf).1]
        by_cases hq : q = l ++ [x]
        · subst hq
          rw [Function.update_self, if_pos ⟨by simp, List.prefix_refl _⟩]
        · rw [Function.update_of_ne hq, hg]
          simp only [List.prefix_concat_iff, hq, false_or]
      rw [osMakedirs]
      simp only [List.dropLast_concat, Other.idle]
      by_cases h : l ≠ [] ∧ fs l = none
      · rw [dif_pos h]
        have i1 := ih h.1 hlpre
        have i2 := (osMakedirs_spec denied Other.idle ⟨fun _ _ _ _ => rfl, fun _ g q h => by simp [Other.idle, h],
          fun _ _ _ _ => rfl, fun _ g q h => by simp [Other.idle, h]⟩ l h.1 fs
          (fun q hq => hden q (hq.trans hlpre)) (fun q hq hq' => hfile q hq (hq'.trans hlpre))).2.2
        rw [Other.idle] at i1 i2
        rcases hm : osMakedirs denied ⟨fun _ fs => fs, fun _ fs => fs⟩ fs l with ⟨g, r⟩
        rw [hm] at i1 i2
        simp only at i1 i2
        rcases i2 with rfl | rfl
        · exact last g i1
        · exact last g i1
      · rw [dif_neg h]
        refine last fs fun q => ?_
        split_ifs with hq
        · have hl : l ≠ [] := by rintro rfl; exact hq.1 (List.prefix_nil.mp hq.2)
          have hfl : fs l ≠ none := fun hh => h ⟨hl, hh⟩
          have := htree q l hq.1 hq.2 hfl
          cases he : fs q with
          | none => exact absurd he this
          | some e => cases e with
            | dir => rfl
            | file => exact absurd he (hfile q hq.1 (hq.2.trans hlpre))
        · rfl
  intro q
  unfold createPath
  by_cases h0 : fs dirname = none
  · rw [if_pos h0]
    have := exact_dirs dirname hne (List.prefix_refl _) q
    rcases hm : osMakedirs denied Other.idle fs dirname with ⟨g, r⟩
    rw [hm] at this
    cases r <;> exact this
  · rw [if_neg h0]
    split_ifs with hq
    · have := htree q dirname hq.1 hq.2 h0
      cases he : fs q with
      | none => exact absurd he this
      | some e => cases e with
        | dir => exact he
        | file => exact absurd he (hfile q hq.1 hq.2)
    · rfl

/-- A second call changes nothing, whether another process interferes or not. -/
theorem C56_idempotent (denied : List String → Bool) (other other' : Other) (fs : FileTree) (dirname : List String)
    (h : (createPath denied other fs dirname).2 = .ok ()) :
    createPath denied other' (createPath denied other fs dirname).1 dirname =
      ((createPath denied other fs dirname).1, .ok ()) := by
  have := C56_returns_partial denied other fs dirname h
  generalize (createPath denied other fs dirname).1 = g at this ⊢
  unfold createPath
  rw [if_neg this]

/-- Concurrent creation is not tolerated: if another process makes the directory after the check, the handler
that is meant for this case raises a NameError. -/
theorem C56_race_refuted (denied : List String → Bool) (other : Other) (fs : FileTree) (dirname : List String)
    (h0 : fs dirname = none) (hrace : ∀ g, other.beforeMkdir dirname g dirname ≠ none) :
    (createPath denied other fs dirname).2 = .error .name := by
  have mk : ∀ g, (osMkdir denied (other.beforeMkdir dirname g) dirname).2 ≠ none := by
    intro g
    have := hrace g
    unfold osMkdir
    split_ifs <;> simp_all
  have key : (osMakedirs denied other fs dirname).2 ≠ none := by
    rw [osMakedirs]
    dsimp only
    split_ifs
    · split
      · exact mk _
      · exact mk _
      · simp
    · exact mk _
  unfold createPath
  rw [if_pos h0]
  rcases hm : osMakedirs denied other fs dirname with ⟨g, r⟩
  rw [hm] at key
  cases r with
  | none => exact absurd rfl key
  | some e => rfl

/-- A path without a directory part (`results.csv`) always fails, with a NameError. -/
theorem C56_bare_refuted (denied : List String → Bool) (other : Other) (fs : FileTree) (h0 : fs [] = none) :
    (createPath denied other fs []).2 = .error .name := by
  unfold createPath
  rw [if_pos h0, osMakedirs]
  simp [osMkdir]

/-- Every exception of `create_path` is a NameError: the reason (no rights, a file in the way) is lost. -/
theorem C56_errors (denied : List String → Bool) (other : Other) (fs : FileTree) (dirname : List String) :
    (createPath denied other fs dirname).2 = .ok () ∨ (createPath denied other fs dirname).2 = .error .name := by
  unfold createPath
  split_ifs
  · split
    · exact Or.inl rfl
    · exact Or.inr rfl
  · exact Or.inl rfl

/-- A tree with one directory. -/
def smallTree : FileTree := fun q => if q = ["home"] then some .dir else none

example : (createPath (fun _ => false) Other.idle smallTree ["home", "results", "plots"]).1 ["home", "results"] =
    some .dir := by
  rw [(C56_alone_partial (fun _ => false) smallTree ["home", "results", "plots"] (by simp) (by simp)
    (by intro q _ _; unfold smallTree; split_ifs <;> simp)
    (by
      intro q r hq hqr hr
      unfold smallTree at hr ⊢
      split_ifs at hr with h
      · subst h
        have : q = ["home"] := by
          rcases q with _ | ⟨a, q⟩
          · exact absurd rfl hq
          · have h1 := List.cons_prefix_cons.mp hqr
            rw [h1.1, List.prefix_nil.mp h1.2]
        simp [this]
      · exact absurd rfl hr)).2]
  exact if_pos ⟨by simp, by decide⟩

example : (createPath (fun _ => false)
    ⟨fun _ fs => fs, fun _ fs => Function.update fs ["home", "results"] (some .dir)⟩ smallTree
    ["home", "results"]).2 = .error .name :=
  C56_race_refuted _ _ _ _ (by simp [smallTree]) (by simp)

end HandEye
