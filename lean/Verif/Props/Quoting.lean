import Verif.Lemmas.Quoting

/-! # Property C93: words with quotes and backslashes -/

namespace HandEye

/-- C93 for `shlex.split`, with quotes and backslashes: words that are written as they have to be, in any of the ways, come out as they are meant. -/
theorem C93_quoting (first : Spec.Laid) (hf : first.word ≠ [] ∧ (∀ c ∈ first.blanks, Spec.Blank c) ∧ ∀ q ∈ first.word, q.Proper) (l : List Spec.Laid)
    (h : ∀ p ∈ l, p.Proper) (tail : Text) (ht : ∀ c ∈ tail, Spec.Blank c) :
    shlexSplit (((first :: l).flatMap fun p => p.blanks ++ p.word.flatMap Spec.Piece.text) ++ tail) = .ok ((first :: l).map Spec.Laid.meaning) := by
  rw [List.flatMap_cons, List.append_assoc, List.append_assoc, shlexSplit, go_blanks hf.2.1, go_written hf.2.2 hf.1, go_laid ht l h]
  rfl

/-- Unless the last word is finished, there is a ValueError: a text in quotes that are not closed, or a backslash at the end. -/
theorem C93_unfinished (first : List Spec.Piece) (hf : first ≠ [] ∧ ∀ q ∈ first, q.Proper) (t : Text) :
    ('\'' ∉ t → shlexSplit (first.flatMap Spec.Piece.text ++ '\'' :: t) = .error .value) ∧
    shlexSplit (first.flatMap Spec.Piece.text ++ ['\\']) = .error .value := by
  constructor
  · intro ht
    rw [shlexSplit, go_written hf.2 hf.1, shlexGo, if_neg (by decide), if_neg (by decide), if_pos (by decide)]
    have : ∀ (tok : Text), shlexGo (.quote '\'') tok t = .error .value := by
      induction t with
      | nil => intro _; rfl
      | cons c t ih =>
        intro tok
        rw [List.mem_cons, not_or] at ht
        rw [shlexGo, if_neg (fun e => ht.1 e.symm), if_neg (fun e => absurd e.2 (by decide)), ih ht.2]
    exact this _
  · rw [shlexSplit, go_written hf.2 hf.1, shlexGo, if_neg (by decide), if_pos rfl]
    rfl

/-- `a\ b 'c d'"e\"f\g" ''` is three words. -/
example : shlexSplit "a\\ b 'c d'\"e\\\"f\\g\" ''".toList = .ok ["a b".toList, "c de\"f\\g".toList, []] :=
  C93_quoting { before := [], word := [.char 'a', .escaped ' ', .char 'b'] } (by simp [Spec.Laid.blanks, Spec.Piece.Proper, Spec.Blank])
    [{ before := [' '], word := [.single "c d".toList, .double [.char 'e', .escaped '"', .char 'f', .kept 'g']] }, { before := [' '], word := [.single []] }]
    (by simp [Spec.Laid.Proper, Spec.Laid.blanks, Spec.Piece.Proper, Spec.Inner.Proper, Spec.Blank]) [] (by simp)

example : shlexSplit "it's".toList = .error .value :=
  (C93_unfinished (Spec.asIs "it".toList) ⟨by decide, by simp [Spec.asIs, Spec.Piece.Proper, Spec.Blank]⟩ ['s']).1 (by decide)

end HandEye
