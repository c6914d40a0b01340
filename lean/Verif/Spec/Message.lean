import Verif.Base
/-! Specification of error messages. -/
namespace Ratel.Spec

/-- The part of a text up to and including its last line break. -/
def upToBreak (s : List Char) : List Char := (s.reverse.dropWhile (· ≠ '\n')).reverse

/-- The part of a text behind its last line break. -/
def sinceBreak (s : List Char) : List Char := (s.reverse.takeWhile (· ≠ '\n')).reverse

/-- A line as `str::lines` returns it: without a `\r` in front of the line break. -/
def stripped (l : List Char) : List Char := if l.getLast? = some '\r' then l.dropLast else l

/-- The lines of a text. A line break at the end of the text does not start another line. -/
def textLines (s : List Char) : List (List Char) :=
  if h : '\n' ∈ s then stripped (s.takeWhile (· ≠ '\n')) :: textLines (s.dropWhile (· ≠ '\n')).tail
  else if s = [] then [] else [s]
termination_by s.length
decreasing_by
  have : ∀ s : List Char, '\n' ∈ s → (s.dropWhile (· ≠ '\n')).tail.length < s.length := by
    intro s
    induction s with
    | nil => simp
    | cons c s ih => by_cases h : c = '\n' <;> simp [h, eq_comm]; intro h'; have := ih h'; simp at this; omega
  exact this s h

/-- A number in decimal. -/
def digits (n : Nat) : List Char := (toString n).toList

/-- A number, with blanks in front of it, in `w` columns. -/
def rightAligned (w n : Nat) : List Char := List.replicate (w - (digits n).length) ' ' ++ digits n

/-- The whole line with text `l` in front of the error and `r` from the start of the error on. -/
def wholeLine (l r : List Char) : List Char :=
  if '\n' ∈ r then stripped (l ++ r.takeWhile (· ≠ '\n')) else l ++ r

/-- The first line of a message. Lines and columns are counted from 1. -/
def heading (line column : Nat) : List Char :=
  "Unexpected token at ".toList ++ digits line ++ [':'] ++ digits column ++ "\n\n".toList

/-- A line of the source in a message, with its number, `w` is the width of the numbers. -/
def row (w n : Nat) (line : List Char) : List Char := rightAligned (w + 2) n ++ " | ".toList ++ line ++ ['\n']

/-- The line of the error, and a line with `k` carets below, in column `c`. -/
def markedRow (w n : Nat) (line : List Char) (c k : Nat) : List Char :=
  "> ".toList ++ rightAligned w n ++ " | ".toList ++ line ++ ['\n'] ++
  List.replicate w ' ' ++ "   | ".toList ++ List.replicate c ' ' ++ List.replicate k '^' ++ ['\n']

/-- Rows for lines numbered from `n` on. -/
def rows (w : Nat) : Nat → List (List Char) → List Char
  | _, [] => []
  | n, l :: r => row w n l ++ rows w (n + 1) r

/-- The message for an error that is the text `token`, with `before` in front of it and `after` behind it: its
position, and the line of the error between the two lines above and the two lines below. -/
def message (before token after : List Char) : List Char :=
  let n := before.count '\n'
  let c := (sinceBreak before).length
  let w := (digits (n + 3)).length
  let rest := token ++ after
  let above := textLines (upToBreak before)
  let below := textLines (rest.dropWhile (· ≠ '\n')).tail
  heading (n + 1) (c + 1) ++ rows w (n - 2 + 1) (above.drop (n - 2)) ++
  markedRow w (n + 1) (wholeLine (sinceBreak before) rest) c token.length ++ rows w (n + 2) (below.take 2)

end Ratel.Spec
