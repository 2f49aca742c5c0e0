import Verif.Spec.Readme
import Verif.Lemmas.Quoting
import Verif.Props.Commands
import Verif.Lemmas.ExportWords

/-! # Lemmas on the commands of the documentation -/

namespace HandEye

open Spec

/-- A word that is written as it should be, and does not end with a backslash. -/
def LaidOk (p : Laid) : Prop := p.Proper ∧ (p.word.flatMap Piece.text).getLast? ≠ some '\\'

theorem asIs_text (t : Text) : (asIs t).flatMap Piece.text = t := by
  induction t with
  | nil => rfl
  | cons c t ih =>
    show c :: (asIs t).flatMap Piece.text = _
    rw [ih]

theorem asIs_meaning (t : Text) : (asIs t).flatMap Piece.meaning = t := by
  induction t with
  | nil => rfl
  | cons c t ih =>
    show c :: (asIs t).flatMap Piece.meaning = _
    rw [ih]

theorem laidOk_asIs {before : Text} {next : Option Text} (hb : before ++ next.getD [] ≠ [] ∧ ∀ c ∈ before ++ next.getD [], Blank c) {t : Text}
    (h : t ≠ [] ∧ Plain t) : LaidOk { before := before, next := next, word := asIs t } := by
  refine ⟨⟨hb.1, hb.2, ?_, ?_⟩, ?_⟩
  · show t.map _ ≠ []
    simpa using h.1
  · intro q hq
    obtain ⟨c, hc, rfl⟩ := List.mem_map.mp hq
    exact h.2 c hc
  · rw [asIs_text]
    intro e
    exact (h.2 _ (List.mem_of_getLast? e)).2.1 rfl

theorem here_ok {t : Text} (h : t ≠ [] ∧ Plain t) : LaidOk (here t) := laidOk_asIs (by decide) h
theorem below_ok {t : Text} (h : t ≠ [] ∧ Plain t) : LaidOk (below t) := laidOk_asIs (by decide) h
theorem below0_ok {t : Text} (h : t ≠ [] ∧ Plain t) : LaidOk (below0 t) := laidOk_asIs (by decide) h
theorem below10_ok {t : Text} (h : t ≠ [] ∧ Plain t) : LaidOk (below10 t) := laidOk_asIs (by decide) h

theorem here_meaning (t : Text) : (here t).meaning = t := asIs_meaning t
theorem below_meaning (t : Text) : (below t).meaning = t := asIs_meaning t
theorem below0_meaning (t : Text) : (below0 t).meaning = t := asIs_meaning t
theorem below10_meaning (t : Text) : (below10 t).meaning = t := asIs_meaning t

theorem plain_name {t : Text} (h : Name t) : t ≠ [] ∧ Plain t := by
  refine ⟨h.1, fun c hc => ?_⟩
  have hn : NameChar c := h.2.1 c hc
  refine ⟨?_, ?_, ?_, ?_⟩
  · rintro (rfl | rfl | rfl | rfl) <;> revert hn <;> simp [NameChar]
  all_goals (rintro rfl; revert hn; simp [NameChar])

end HandEye
