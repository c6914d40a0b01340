import Verif.Lemmas.Message
/-! C48: the message for an error. -/
namespace Ratel
open Spec

theorem contextLine_marked (n c w k : Nat) (x : List Char) : contextLine n c w k n x = markedRow w (n + 1) x c k := by
  unfold contextLine markedRow
  exact if_pos rfl

/-- C48: unless the error starts directly behind a line break (C34), the message shows its line and column, the two lines
above, the line of the error with a caret under each of its characters, and the two lines below. -/
theorem C48_message (before token after : List Char) (h : before.getLast? ≠ some '\n') (hne : before ++ token ++ after ≠ []) :
    displayError before token after = message before token after := by
  have hp := C34_position_partial before h
  have hd : ∀ n, (digits (n + 3)).length = log10 (n + 3) := fun n => (log10_eq (by omega)).symm
  have hc : columnOf before = (sinceBreak before).length := by simp [columnOf, sinceBreak]
  have hs : sinceBreak before ++ (token ++ after) ≠ [] := by
    intro he
    simp only [List.append_eq_nil_iff] at he
    obtain ⟨h1, h2, h3⟩ := he
    have hb := upToBreak_sinceBreak before
    rw [h1, List.append_nil] at hb
    rcases upToBreak_last before with h4 | h4
    · rw [hb] at h4; simp [h2, h3, h4] at hne
    · rw [hb] at h4; exact h h4
  have hl := lines_around hs
  have hn : (lines (upToBreak before)).length = before.count '\n' := by
    rw [lines_length (upToBreak_last before), count_upToBreak]
  unfold displayError message
  simp only [hd, ← lines_eq]
  simp only [hp, lineOf, hc, List.append_assoc] at hl ⊢
  rw [hl]
  generalize lines (upToBreak before) = A at hn ⊢
  generalize lines (((token ++ after).dropWhile (· ≠ '\n')).tail) = B
  generalize wholeLine (sinceBreak before) (token ++ after) = x
  generalize (sinceBreak before).length = c
  generalize before.count '\n' = n at hn ⊢
  rw [enumerate_drop 0 (n - 2) _ (by omega), enumerate_take]
  have e : ((A ++ x :: B).drop (n - 2 - 0)).take (n + 3 - (n - 2)) = A.drop (n - 2) ++ x :: B.take 2 := by
    have h1 : n - 2 - 0 = n - 2 := by omega
    rw [h1, List.drop_append_of_le_length (by omega), List.take_append]
    have h2 : (A.drop (n - 2)).length = n - (n - 2) := by rw [List.length_drop, hn]
    rw [List.take_of_length_le (by omega), h2]
    congr 1
    have h3 : n + 3 - (n - 2) - (n - (n - 2)) = 3 := by omega
    rw [h3, List.take_succ_cons]
  have h2 : (A.drop (n - 2)).length = n - (n - 2) := by rw [List.length_drop, hn]
  rw [e, enumerate_append, List.flatMap_append, enumerate_rows (Or.inr (by omega))]
  have h3 : n - 2 + (A.drop (n - 2)).length = n := by omega
  rw [h3, enumerate, List.flatMap_cons, enumerate_rows (Or.inl (by omega))]
  simp only [contextLine_marked]
  unfold heading digits
  generalize "Unexpected token at ".toList = s1
  generalize "\n\n".toList = s2
  generalize (toString (n + 1)).toList = s3
  generalize (toString (c + 1)).toList = s4
  generalize markedRow (log10 (n + 3)) (n + 1) x c token.length = s5
  have e2 : n + 1 + 1 = n + 2 := rfl
  rw [e2]
  generalize rows (log10 (n + 3)) (n + 2) (List.take 2 B) = s6
  generalize rows (log10 (n + 3)) (n - 2 + 1) (List.drop (n - 2) A) = s7
  simp only [List.append_assoc]

/-- C48: all line numbers of a message take the same space. -/
theorem C48_aligned (n i : Nat) (h : i ≤ n + 3) :
    (rightAligned (digits (n + 3)).length i).length = (digits (n + 3)).length ∧
    (rightAligned ((digits (n + 3)).length + 2) i).length = (digits (n + 3)).length + 2 := by
  rw [← log10_eq (by omega)]
  have h1 := lt_pow_log10 (n + 3)
  have h2 := log10_pos (n := n + 3) (by omega)
  refine ⟨padded_length h2 (by omega), padded_length (by omega) ?_⟩
  rw [Nat.pow_add]
  omega

/-- C48: what the lines of a text are. -/
theorem C48_lines : textLines [] = [] ∧ (∀ l, '\n' ∉ l → l ≠ [] → textLines l = [l]) ∧
    (∀ l r, '\n' ∉ l → textLines (l ++ '\n' :: r) = stripped l :: textLines r) := by
  simp only [← lines_eq]
  exact ⟨rfl, fun _ h h' => lines_single h h', fun _ _ h => lines_line h⟩

/-- C48 says something: an error in the third of five lines. -/
example : displayError "a\nb\n\tc ".toList ")(".toList "d\r\ne\nf\ng".toList =
    ("Unexpected token at 3:4\n\n  1 | a\n  2 | b\n> 3 | \tc )(d\n    |    ^^\n  4 | e\n  5 | f\n").toList := by decide +kernel

end Ratel
