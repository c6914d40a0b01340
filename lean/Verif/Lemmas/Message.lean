import Verif.Props.ErrorDisplay
import Verif.Spec.Message
import Verif.ErrorDisplay
/-! Error messages in parts: the lines of a text, and which of them a message shows. -/
namespace Ratel
open Spec

theorem linesGo_line {cur l r : List Char} (h : '\n' ∉ l) : linesGo cur (l ++ '\n' :: r) = stripped (cur ++ l) :: lines r := by
  induction l generalizing cur with
  | nil => simp [linesGo, stripped, lines]
  | cons c l ih =>
    simp only [List.mem_cons, not_or] at h
    rw [List.cons_append, linesGo, if_neg (Ne.symm h.1), ih h.2]
    simp

theorem lines_line {l r : List Char} (h : '\n' ∉ l) : lines (l ++ '\n' :: r) = stripped l :: lines r := by
  rw [lines, linesGo_line h]; rfl

theorem lines_nil : lines [] = [] := rfl

/-- Lines behind a line break do not depend on what is in front of it. -/
theorem linesGo_append {cur p s : List Char} (h : p.getLast? = some '\n') : linesGo cur (p ++ s) = linesGo cur p ++ lines s := by
  induction p generalizing cur with
  | nil => simp at h
  | cons c p ih =>
    cases p with
    | nil => simp at h; subst h; simp [linesGo, lines]
    | cons d p =>
      have h' : (d :: p).getLast? = some '\n' := by rw [List.getLast?_cons_cons] at h; exact h
      rw [List.cons_append, linesGo]
      split
      · rename_i hc
        subst hc
        rw [ih h']
        conv => rhs; rw [linesGo, if_pos rfl, List.cons_append]
      · rename_i hc
        rw [ih h']
        conv => rhs; rw [linesGo, if_neg hc]

theorem lines_append {p s : List Char} (h : p = [] ∨ p.getLast? = some '\n') : lines (p ++ s) = lines p ++ lines s := by
  rcases h with rfl | h
  · simp [lines_nil]
  · exact linesGo_append h

theorem lines_length {p : List Char} (h : p = [] ∨ p.getLast? = some '\n') : (lines p).length = p.count '\n' := by
  rcases h with rfl | h
  · rfl
  · have key : ∀ (cur s : List Char), (linesGo cur (s ++ ['\n'])).length = s.count '\n' + 1 := by
      intro cur s
      induction s generalizing cur with
      | nil => simp [linesGo]
      | cons c s ih =>
        simp only [List.cons_append, linesGo]
        split
        · rename_i hc; subst hc; simp [ih]
        · rename_i hc; rw [ih]; simp [hc]
    have : p = p.dropLast ++ ['\n'] := by
      have hn : p ≠ [] := by rintro rfl; simp at h
      have := List.dropLast_concat_getLast hn
      rw [List.getLast?_eq_some_getLast hn] at h
      rw [← Option.some.inj h, this]
    rw [this, lines, key]
    simp

theorem enumerate_append (i : Nat) (xs ys : List α) : enumerate i (xs ++ ys) = enumerate i xs ++ enumerate (i + xs.length) ys := by
  induction xs generalizing i with
  | nil => simp [enumerate]
  | cons x xs ih => simp [enumerate, ih]; congr 1; omega

theorem enumerate_drop (i k : Nat) (xs : List α) (h : i ≤ k) :
    (enumerate i xs).dropWhile (fun x => x.1 < k) = enumerate k (xs.drop (k - i)) := by
  induction xs generalizing i with
  | nil => simp [enumerate]
  | cons x xs ih =>
    rw [enumerate, List.dropWhile_cons]
    by_cases hk : i = k
    · subst hk; simp [enumerate]
    · rw [if_pos (by simp; omega), ih (i + 1) (by omega)]
      have : k - i = (k - (i + 1)) + 1 := by omega
      rw [this, List.drop_succ_cons]

theorem enumerate_take (i k : Nat) (xs : List α) :
    (enumerate i xs).takeWhile (fun x => x.1 < k) = enumerate i (xs.take (k - i)) := by
  induction xs generalizing i with
  | nil => simp [enumerate]
  | cons x xs ih =>
    rw [enumerate, List.takeWhile_cons]
    by_cases hk : i < k
    · rw [if_pos (by simpa using hk), ih]
      have : k - i = (k - (i + 1)) + 1 := by omega
      rw [this, List.take_succ_cons, enumerate]
    · rw [if_neg (by simpa using hk)]
      have : k - i = 0 := by omega
      simp [this, enumerate]

theorem enumerate_mem {i : Nat} {xs : List α} {x : Nat × α} (h : x ∈ enumerate i xs) : i ≤ x.1 ∧ x.1 < i + xs.length := by
  induction xs generalizing i with
  | nil => simp [enumerate] at h
  | cons y xs ih =>
    simp only [enumerate, List.mem_cons] at h
    rcases h with rfl | h
    · simp
    · have := ih h
      simp; omega

theorem lt_pow_log10 (n : Nat) : n < 10 ^ log10 n := by
  induction n using Nat.strongRecOn with
  | ind n ih =>
    unfold log10
    split
    · rename_i h; simp [h]
    · have := ih (n / 10) (by omega)
      rw [Nat.pow_add]
      omega

theorem pow_log10_le {n : Nat} (h : 0 < n) : 10 ^ (log10 n - 1) ≤ n := by
  induction n using Nat.strongRecOn with
  | ind n ih =>
    unfold log10
    rw [dif_neg (by omega), Nat.add_sub_cancel_left]
    by_cases h9 : n / 10 = 0
    · rw [h9]; unfold log10; simp; omega
    · have := ih (n / 10) (by omega) (by omega)
      have e : log10 (n / 10) = log10 (n / 10) - 1 + 1 := by
        have : 0 < log10 (n / 10) := by unfold log10; rw [dif_neg h9]; omega
        omega
      rw [e, Nat.pow_succ]
      omega

theorem log10_pos {n : Nat} (h : 0 < n) : 0 < log10 n := by
  unfold log10
  rw [dif_neg (by omega)]
  omega

theorem padded_length {w n : Nat} (hw : 0 < w) (h : n < 10 ^ w) : (padded w n).length = w := by
  have : (toString n).toList.length ≤ w := by
    have := (Nat.length_toDigits_le_iff (b := 10) (n := n) (by omega) hw).2 h
    simpa using this
  simp only [padded, List.length_append, List.length_replicate]
  omega

theorem padded_eq : padded = rightAligned := rfl

theorem log10_eq {n : Nat} (h : 0 < n) : log10 n = (digits n).length := by
  have hl : (digits n).length = (Nat.toDigits 10 n).length := by simp [digits]
  rw [hl]
  refine Nat.le_antisymm ?_ ?_
  · refine Nat.le_of_not_lt fun hlt => ?_
    have hp : 0 < (Nat.toDigits 10 n).length := Nat.length_toDigits_pos
    have := (Nat.length_toDigits_le_iff (b := 10) (n := n) (k := (Nat.toDigits 10 n).length) (by omega) hp).1 (Nat.le_refl _)
    have h2 := pow_log10_le h
    have h3 : 10 ^ (Nat.toDigits 10 n).length ≤ 10 ^ (log10 n - 1) := Nat.pow_le_pow_right (by omega) (by omega)
    omega
  · exact (Nat.length_toDigits_le_iff (b := 10) (by omega) (log10_pos h)).2 (lt_pow_log10 n)

theorem cut_line : ∀ s : List Char, '\n' ∈ s → ∃ l r, s = l ++ '\n' :: r ∧ '\n' ∉ l ∧ s.takeWhile (· ≠ '\n') = l ∧
    (s.dropWhile (· ≠ '\n')).tail = r
  | [], h => by simp at h
  | c :: s, h => by
    by_cases hc : c = '\n'
    · exact ⟨[], s, by simp [hc], by simp, by simp [hc], by simp [hc]⟩
    · obtain ⟨l, r, h1, h2, h3, h4⟩ := cut_line s (by simpa [Ne.symm hc] using h)
      exact ⟨c :: l, r, by rw [h1]; rfl, by simp [Ne.symm hc, h2], by simp [hc, ← h3], by simp [hc, ← h4]⟩

theorem lines_eq (s : List Char) : lines s = textLines s := by
  induction hn : s.length using Nat.strongRecOn generalizing s with
  | ind n ih =>
    subst hn
    unfold textLines
    split
    · rename_i h
      obtain ⟨l, r, h1, h2, h3, h4⟩ := cut_line s h
      have hlen := congrArg List.length h1
      rw [List.length_append, List.length_cons] at hlen
      rw [h3, h4, ← ih _ (by omega) r rfl, h1]
      exact lines_line h2
    · rename_i h
      split
      · rename_i h0; rw [h0]; rfl
      · rename_i h0; exact lines_single h h0

theorem enumerate_rows {n c w k : Nat} {i : Nat} {xs : List (List Char)} (h : n < i ∨ i + xs.length ≤ n) :
    (enumerate i xs).flatMap (fun x => contextLine n c w k x.1 x.2) = rows w (i + 1) xs := by
  induction xs generalizing i with
  | nil => simp [enumerate, rows]
  | cons x xs ih =>
    rw [List.length_cons] at h
    have hi : i ≠ n := by omega
    rw [enumerate, List.flatMap_cons, ih (by omega)]
    simp [rows, contextLine, hi, row, padded_eq]

theorem upToBreak_sinceBreak (s : List Char) : upToBreak s ++ sinceBreak s = s := by
  rw [upToBreak, sinceBreak, ← List.reverse_append, List.takeWhile_append_dropWhile, List.reverse_reverse]

theorem sinceBreak_mem (s : List Char) : '\n' ∉ sinceBreak s := by
  intro h
  rw [sinceBreak, List.mem_reverse] at h
  have := List.all_takeWhile (p := (· ≠ '\n')) (l := s.reverse)
  rw [List.all_eq_true] at this
  simpa using this _ h

theorem upToBreak_last (s : List Char) : upToBreak s = [] ∨ (upToBreak s).getLast? = some '\n' := by
  unfold upToBreak
  rw [List.getLast?_reverse]
  cases hd : s.reverse.dropWhile (· ≠ '\n') with
  | nil => simp
  | cons c r =>
    have := List.head_dropWhile_not (p := (· ≠ '\n')) (l := s.reverse) (by rw [hd]; simp)
    simp only [hd, List.head_cons] at this
    right
    simpa using this

theorem count_upToBreak (s : List Char) : (upToBreak s).count '\n' = s.count '\n' := by
  conv => rhs; rw [← upToBreak_sinceBreak s, List.count_append]
  rw [List.count_eq_zero.2 (sinceBreak_mem s)]
  simp

/-- The lines of a text, around a position. -/
theorem lines_around {before rest : List Char} (h : sinceBreak before ++ rest ≠ []) :
    lines (before ++ rest) = lines (upToBreak before) ++ wholeLine (sinceBreak before) rest ::
      lines (rest.dropWhile (· ≠ '\n')).tail := by
  conv => lhs; rw [← upToBreak_sinceBreak before, List.append_assoc]
  rw [lines_append (upToBreak_last before)]
  congr 1
  have hs := sinceBreak_mem before
  generalize sinceBreak before = l at h hs
  have ht : '\n' ∉ rest.takeWhile (· ≠ '\n') := by
    intro h
    have := List.all_takeWhile (p := (· ≠ '\n')) (l := rest)
    rw [List.all_eq_true] at this
    simpa using this _ h
  have hr := List.takeWhile_append_dropWhile (p := (· ≠ '\n')) (l := rest)
  cases hd : rest.dropWhile (· ≠ '\n') with
  | nil =>
    rw [hd, List.append_nil] at hr
    have hn : '\n' ∉ rest := by rw [← hr]; exact ht
    rw [wholeLine, if_neg hn, lines_single (by simp [hs, hn]) h]
    rfl
  | cons c r =>
    have hc : c = '\n' := by
      have := List.head_dropWhile_not (p := (· ≠ '\n')) (l := rest) (by rw [hd]; simp)
      simp only [hd, List.head_cons] at this
      simpa using this
    subst hc
    rw [hd] at hr
    have hn : '\n' ∈ rest := by rw [← hr]; simp
    rw [wholeLine, if_pos hn]
    conv => lhs; rw [← hr, ← List.append_assoc]
    rw [lines_line (by simp only [List.mem_append, not_or]; exact ⟨hs, ht⟩)]
    rfl

end Ratel
