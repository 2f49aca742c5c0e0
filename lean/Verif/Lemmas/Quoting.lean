import Verif.Spec.Quoting
import Verif.Model.Readme
import Verif.Lemmas.Commands

/-! # Lemmas on quotes -/

namespace HandEye

open Spec

theorem go_single {t : Text} (h : '\'' ∉ t) (tok rest : Text) :
    shlexGo (.quote '\'') tok (t ++ '\'' :: rest) = shlexGo .word (tok ++ t) rest := by
  induction t generalizing tok with
  | nil => rw [List.nil_append, shlexGo, if_pos rfl, List.append_nil]
  | cons c t ih =>
    rw [List.mem_cons, not_or] at h
    rw [List.cons_append, shlexGo, if_neg (fun e => h.1 e.symm), if_neg (fun e => absurd e.2 (by decide)), ih h.2, List.append_assoc, List.singleton_append]

theorem go_double {l : List Inner} (h : ∀ i ∈ l, i.Proper) (tok rest : Text) :
    shlexGo (.quote '"') tok (l.flatMap Inner.text ++ '"' :: rest) = shlexGo .word (tok ++ l.flatMap Inner.meaning) rest := by
  induction l generalizing tok with
  | nil => rw [List.flatMap_nil, List.nil_append, shlexGo, if_pos rfl, List.flatMap_nil, List.append_nil]
  | cons i l ih =>
    have ih := fun tok => ih (fun j hj => h j (List.mem_cons_of_mem _ hj)) tok
    have hi := h i List.mem_cons_self
    rw [List.flatMap_cons, List.flatMap_cons]
    cases i with
    | char c =>
      obtain ⟨h1, h2⟩ := hi
      show shlexGo _ _ (c :: _) = _
      rw [shlexGo, if_neg h2, if_neg (fun e => h1 e.1)]
      show shlexGo _ _ (l.flatMap Inner.text ++ _) = _
      rw [ih, List.append_assoc]
      rfl
    | escaped c =>
      show shlexGo _ _ ('\\' :: c :: (l.flatMap Inner.text ++ _)) = _
      rw [shlexGo, if_neg (by decide), if_pos ⟨rfl, rfl⟩, shlexGo, if_pos (show c = '\\' ∨ c = '"' from hi), ih, List.append_assoc]
      rfl
    | kept c =>
      obtain ⟨h1, h2⟩ := hi
      show shlexGo _ _ ('\\' :: c :: (l.flatMap Inner.text ++ _)) = _
      rw [shlexGo, if_neg (by decide), if_pos ⟨rfl, rfl⟩, shlexGo, if_neg (by rintro (e | e); exacts [h1 e, h2 e]), ih, List.append_assoc]
      rfl

theorem go_piece {p : Piece} (h : p.Proper) (tok rest : Text) :
    shlexGo .word tok (p.text ++ rest) = shlexGo .word (tok ++ p.meaning) rest ∧
    shlexGo .blank tok (p.text ++ rest) = shlexGo .word (tok ++ p.meaning) rest := by
  cases p with
  | char c =>
    obtain ⟨h1, h2, h3, h4⟩ := h
    constructor <;>
    · show shlexGo _ _ (c :: rest) = _
      rw [shlexGo, if_neg (by rw [shlexBlank_iff]; exact h1), if_neg h2, if_neg (by simp [h3, h4])]
      rfl
  | escaped c =>
    constructor <;>
    · show shlexGo _ _ ('\\' :: c :: rest) = _
      rw [shlexGo, if_neg (by decide), if_pos rfl, shlexGo]
      rfl
  | single t =>
    constructor <;>
    · show shlexGo _ _ ('\'' :: ((t ++ ['\'']) ++ rest)) = _
      rw [shlexGo, if_neg (by decide), if_neg (by decide), if_pos (by decide), List.append_assoc]
      exact go_single h tok rest
  | double l =>
    constructor <;>
    · show shlexGo _ _ ('"' :: ((l.flatMap Inner.text ++ ['"']) ++ rest)) = _
      rw [shlexGo, if_neg (by decide), if_neg (by decide), if_pos (by decide), List.append_assoc]
      exact go_double h tok rest

theorem go_pieces {w : List Piece} (h : ∀ p ∈ w, p.Proper) (tok rest : Text) :
    shlexGo .word tok (w.flatMap Piece.text ++ rest) = shlexGo .word (tok ++ w.flatMap Piece.meaning) rest := by
  induction w generalizing tok with
  | nil => simp
  | cons p w ih =>
    rw [List.flatMap_cons, List.append_assoc, (go_piece (h p List.mem_cons_self) _ _).1, ih fun q hq => h q (List.mem_cons_of_mem _ hq),
      List.flatMap_cons, List.append_assoc]

theorem go_written {w : List Piece} (h : ∀ p ∈ w, p.Proper) (hne : w ≠ []) (rest : Text) :
    shlexGo .blank [] (w.flatMap Piece.text ++ rest) = shlexGo .word (w.flatMap Piece.meaning) rest := by
  cases w with
  | nil => exact absurd rfl hne
  | cons p w =>
    rw [List.flatMap_cons, List.append_assoc, (go_piece (h p List.mem_cons_self) _ _).2, go_pieces fun q hq => h q (List.mem_cons_of_mem _ hq),
      List.flatMap_cons, List.nil_append]

/-- Words with white space between them. -/
theorem go_laid {tail : Text} (ht : ∀ c ∈ tail, Blank c) (l : List Laid) (h : ∀ p ∈ l, p.Proper) (w : Text) :
    shlexGo .word w (l.flatMap (fun p => p.blanks ++ p.word.flatMap Piece.text) ++ tail) = .ok (w :: l.map Laid.meaning) := by
  induction l generalizing w with
  | nil =>
    cases tail with
    | nil => rfl
    | cons c tail =>
      have := go_word_end ht (by simp) w []
      rw [List.append_nil] at this
      rw [List.flatMap_nil, List.nil_append, this]
      rfl
  | cons p l ih =>
    obtain ⟨h1, h2, h3, h4⟩ := h p List.mem_cons_self
    rw [List.flatMap_cons, List.append_assoc, List.append_assoc, go_word_end h2 h1, go_written h4 h3,
      ih fun q hq => h q (List.mem_cons_of_mem _ hq)]
    rfl

/-! ## Commands in several lines -/

theorem text_ne_nil (p : Piece) : p.text ≠ [] := by
  cases p <;> simp [Piece.text]

theorem word_ne_nil {w : List Piece} (h : w ≠ []) : w.flatMap Piece.text ≠ [] := by
  cases w with
  | nil => exact absurd rfl h
  | cons p w =>
    rw [List.flatMap_cons]
    exact fun e => text_ne_nil p (List.append_eq_nil_iff.mp e).1

theorem getLast_append {s t : Text} (h : t ≠ []) : (s ++ t).getLast? = t.getLast? := by
  rw [List.getLast?_append_of_ne_nil _ h]

/-- The lines of a command are joined. -/
theorem join_layout {l : List Laid} (h : ∀ p ∈ l, p.Proper ∧ (p.word.flatMap Piece.text).getLast? ≠ some '\\') (line : Text)
    (hline : line.getLast? ≠ some '\\') :
    joinLines (layout line l) = [line ++ l.flatMap fun p => p.blanks ++ p.word.flatMap Piece.text] := by
  induction l generalizing line with
  | nil => rw [layout, joinLines, if_neg hline, joinLines, List.flatMap_nil, List.append_nil]
  | cons p l ih =>
    obtain ⟨hp, hlast⟩ := h p List.mem_cons_self
    have hne := word_ne_nil hp.2.2.1
    have ih := fun line hl => ih (fun q hq => h q (List.mem_cons_of_mem _ hq)) line hl
    rw [layout, List.flatMap_cons]
    cases hnext : p.next with
    | none =>
      simp only
      rw [ih _ (by rw [getLast_append hne]; exact hlast)]
      simp [Laid.blanks, hnext]
    | some b =>
      simp only
      rw [joinLines, if_pos (by simp), ih _ (by rw [getLast_append hne]; exact hlast)]
      simp [Laid.blanks, hnext]

theorem command_layout {lead : Text} (hlead : ∀ c ∈ lead, Blank c) {w : Text} (hw : w ≠ [] ∧ Plain w) {l : List Laid}
    (h : ∀ p ∈ l, p.Proper ∧ (p.word.flatMap Piece.text).getLast? ≠ some '\\') :
    shellCommands (layout (lead ++ w) l) = .ok [w :: l.map Laid.meaning] := by
  have hlast : (lead ++ w).getLast? ≠ some '\\' := by
    rw [getLast_append hw.1]
    intro e
    exact (hw.2 _ (List.mem_of_getLast? e)).2.1 rfl
  rw [shellCommands, join_layout h _ hlast, List.append_assoc]
  have : shlexSplit (lead ++ (w ++ l.flatMap fun p => p.blanks ++ p.word.flatMap Piece.text)) = .ok (w :: l.map Laid.meaning) := by
    rw [shlexSplit, go_blanks hlead, go_word hw.2 hw.1]
    have := go_laid (tail := []) (by simp) l (fun p hp => (h p hp).1) w
    rwa [List.append_nil] at this
  rw [List.mapM_cons, this, List.mapM_nil]
  rfl

end HandEye
