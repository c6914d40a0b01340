import Verif.ErrorDisplay
/-! C34: line and column of an error message. -/
namespace Ratel

namespace Spec

/-- The line of a position, counted from 0: number of line breaks before it. -/
def lineOf (before : List Char) : Nat := before.count '\n'

/-- The column of a position, counted from 0: number of characters since the last line break. -/
def columnOf (before : List Char) : Nat := (before.reverse.takeWhile (· ≠ '\n')).length

end Spec
open Spec

theorem lineOf_append (a b : List Char) : lineOf (a ++ b) = lineOf a + lineOf b := by
  simp [lineOf]

theorem linesGo_ne_nil_of {cur s : List Char} (h : cur ≠ [] ∨ s ≠ []) : linesGo cur s ≠ [] := by
  induction s generalizing cur with
  | nil => cases cur <;> simp_all [linesGo]
  | cons c s ih =>
    simp only [linesGo]
    split
    · simp
    · exact ih (Or.inl (by simp))

/-- `linesGo` on a text whose last line is `l` (without line break, not empty). -/
theorem linesGo_last {cur s l : List Char} (hl : '\n' ∉ l) (hne : l ≠ []) :
    (linesGo cur (s ++ '\n' :: l)).length = (s.count '\n') + 2 ∧
    (linesGo cur (s ++ '\n' :: l)).getLast? = some l := by
  have base : ∀ (l cur : List Char), '\n' ∉ l → (cur ≠ [] ∨ l ≠ []) → linesGo cur l = [cur ++ l] := by
    intro l
    induction l with
    | nil => intro cur _ h; cases cur <;> simp_all [linesGo]
    | cons c l ih =>
      intro cur h _
      simp only [List.mem_cons, not_or] at h
      rw [linesGo, if_neg (Ne.symm h.1), ih _ h.2 (Or.inl (by simp))]
      simp
  induction s generalizing cur with
  | nil =>
    simp only [List.nil_append, linesGo, if_true]
    rw [base l [] hl (Or.inr hne)]
    simp
  | cons c s ih =>
    simp only [List.cons_append, linesGo]
    split
    · rename_i hc
      subst hc
      obtain ⟨h1, h2⟩ := ih (cur := [])
      refine ⟨by simp [h1], ?_⟩
      rw [List.getLast?_cons, h2]; simp
    · rename_i hc
      obtain ⟨h1, h2⟩ := ih (cur := cur ++ [c])
      exact ⟨by rw [h1]; simp [Ne.symm hc, List.count_cons, hc], h2⟩

theorem lines_single {l : List Char} (hl : '\n' ∉ l) (hne : l ≠ []) : lines l = [l] := by
  have base : ∀ (l cur : List Char), '\n' ∉ l → (cur ≠ [] ∨ l ≠ []) → linesGo cur l = [cur ++ l] := by
    intro l
    induction l with
    | nil => intro cur _ h; cases cur <;> simp_all [linesGo]
    | cons c l ih =>
      intro cur h _
      simp only [List.mem_cons, not_or] at h
      rw [linesGo, if_neg (Ne.symm h.1), ih _ h.2 (Or.inl (by simp))]
      simp
  rw [lines, base l [] hl (Or.inr hne)]
  rfl

/-- The last line of a text: it is the whole text or follows a line break. -/
theorem split_last_line (s : List Char) :
    ∃ p l, '\n' ∉ l ∧ l.length = columnOf s ∧ (s = l ∧ p = [] ∧ lineOf s = 0 ∨
      s = p ++ '\n' :: l ∧ lineOf s = p.count '\n' + 1) := by
  have h := List.takeWhile_append_dropWhile (p := (· ≠ '\n')) (l := s.reverse)
  have hl : '\n' ∉ s.reverse.takeWhile (· ≠ '\n') := by
    intro hm
    have := List.all_takeWhile (p := (· ≠ '\n')) (l := s.reverse)
    rw [List.all_eq_true] at this
    simpa using this _ hm
  cases hd : s.reverse.dropWhile (· ≠ '\n') with
  | nil =>
    rw [hd, List.append_nil] at h
    refine ⟨[], s, ?_, ?_, Or.inl ⟨rfl, rfl, ?_⟩⟩
    · rw [h] at hl; simpa using hl
    · rw [columnOf, h]; simp
    · rw [h] at hl; simp at hl; simp [lineOf, List.count_eq_zero, hl]
  | cons c r =>
    have hc : c = '\n' := by
      have := List.head_dropWhile_not (p := (· ≠ '\n')) (l := s.reverse) (by rw [hd]; simp)
      simp only [hd, List.head_cons] at this
      simpa using this
    subst hc
    rw [hd] at h
    have hs : s = r.reverse ++ '\n' :: (s.reverse.takeWhile (· ≠ '\n')).reverse := by
      have := congrArg List.reverse h
      simpa using this.symm
    refine ⟨r.reverse, (s.reverse.takeWhile (· ≠ '\n')).reverse, by simpa using hl, by simp [columnOf],
      Or.inr ⟨hs, ?_⟩⟩
    have hz : List.count '\n' (s.reverse.takeWhile (· ≠ '\n')).reverse = 0 := by
      rw [List.count_eq_zero]; simpa using hl
    conv => lhs; rw [hs]
    rw [lineOf, List.count_append, List.count_cons, hz]
    simp

/-- C34, where it holds: unless the error starts directly after a line break, the message shows the
line and the column of the error. -/
theorem C34_position_partial (before : List Char) (h : before.getLast? ≠ some '\n') :
    errorPosition before = (lineOf before, columnOf before) := by
  obtain ⟨p, l, hl, hlen, hs | hs⟩ := split_last_line before
  · obtain ⟨rfl, -, h0⟩ := hs
    by_cases hne : before = []
    · subst hne; decide
    · simp only [errorPosition, lastLine, lines_single hl hne, List.getLast?_singleton]
      simp [h0, hlen]
  · obtain ⟨rfl, h1⟩ := hs
    have hne : l ≠ [] := by
      rintro rfl
      simp at h
    obtain ⟨a, b⟩ := linesGo_last (cur := []) (s := p) hl hne
    simp only [errorPosition, lastLine, lines, b, a, h1, hlen]
    congr 1

/-- C34 is false in general: an error at the very start of the second line of `foo` / `)` is reported
at the end of the first line (1:4 instead of 2:1). -/
theorem C34_after_line_break : errorPosition "foo\n".toList = (0, 3) ∧
    (lineOf "foo\n".toList, columnOf "foo\n".toList) = (1, 0) := by decide +kernel

/-- In general, after a line break the message shows a line before the right one. -/
theorem C34_after_line_break_wrong (p : List Char) :
    (errorPosition (p ++ ['\n'])).1 < lineOf (p ++ ['\n']) := by
  have key : ∀ (cur s : List Char), (linesGo cur (s ++ ['\n'])).length = s.count '\n' + 1 := by
    intro cur s
    induction s generalizing cur with
    | nil => simp [linesGo]
    | cons c s ih =>
      simp only [List.cons_append, linesGo]
      split
      · rename_i hc; subst hc; simp [ih]
      · rename_i hc; rw [ih]; simp [List.count_cons, hc]
  have hk := key [] p
  simp only [errorPosition, lastLine, lines]
  cases hg : (linesGo [] (p ++ ['\n'])).getLast? with
  | none => simp [List.getLast?_eq_none_iff] at hg; rw [hg] at hk; simp at hk
  | some x => simp [hk, lineOf]

example : "let a;\n  )".toList.dropLast.getLast? ≠ some '\n' ∧
    errorPosition "let a;\n  ".toList = (1, 2) := by decide +kernel

/-- The message for the unit test of `ratel/src/error.rs:124-136`. -/
example : (lines "foo".toList).length = 1 := by decide +kernel

end Ratel
