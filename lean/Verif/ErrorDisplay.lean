import Verif.Base
/-! Rendering of parse errors: `ratel/src/error.rs`. Text is a list of characters. -/
namespace Ratel

/-- `str::lines`: split at `\n`, drop one trailing empty line, strip one `\r` at the end of a line
that was terminated by `\n`. -/
def linesGo : List Char → List Char → List (List Char)
  | cur, [] => if cur.isEmpty then [] else [cur]
  | cur, c :: cs =>
    if c = '\n' then
      (if cur.getLast? = some '\r' then cur.dropLast else cur) :: linesGo [] cs
    else linesGo (cur ++ [c]) cs

/-- `str::lines` -/
def lines (s : List Char) : List (List Char) := linesGo [] s

/-- `lines().enumerate().last().unwrap_or((0, ""))`, `ratel/src/error.rs:52-56`. -/
def lastLine (s : List Char) : Nat × List Char :=
  match (lines s).getLast? with
  | some l => ((lines s).length - 1, l)
  | none => (0, [])

/-- The `lineno`, `colno` of `Display for ParseError`, `ratel/src/error.rs:52-58`, both counted from
0; `before` is `source[..start]`. -/
def errorPosition (before : List Char) : Nat × Nat :=
  let (lineno, line) := lastLine before
  (lineno, line.length)

/-- `log10`, `ratel/src/error.rs:102-111`: number of decimal digits. -/
def log10 (n : Nat) : Nat :=
  if h : n = 0 then 0 else 1 + log10 (n / 10)
termination_by n
decreasing_by omega

/-- Decimal digits, padded on the left to `w` characters: `{0:1$}`. -/
def padded (w n : Nat) : List Char :=
  let d := (toString n).toList
  List.replicate (w - d.length) ' ' ++ d

/-- One line of context, `ratel/src/error.rs:71-92`. -/
def contextLine (lineno colno width tokenLen index : Nat) (line : List Char) : List Char :=
  if index = lineno then
    "> ".toList ++ padded width (index + 1) ++ " | ".toList ++ line ++ ['\n'] ++
    List.replicate width ' ' ++ "   | ".toList ++ List.replicate colno ' ' ++
    List.replicate tokenLen '^' ++ ['\n']
  else padded (width + 2) (index + 1) ++ " | ".toList ++ line ++ ['\n']

/-- The lines with their numbers, starting at `i`. -/
def enumerate : Nat → List α → List (Nat × α)
  | _, [] => []
  | i, x :: xs => (i, x) :: enumerate (i + 1) xs

/-- `Display for ParseError::UnexpectedToken`, `ratel/src/error.rs:47-95`, where the source is
`before ++ token ++ after`. -/
def displayError (before token after : List Char) : List Char :=
  let (lineno, colno) := errorPosition before
  let width := log10 (lineno + 3)
  "Unexpected token at ".toList ++ (toString (lineno + 1)).toList ++ [':'] ++
  (toString (colno + 1)).toList ++ "\n\n".toList ++
  (((enumerate 0 (lines (before ++ token ++ after))).dropWhile (fun x => x.1 < lineno - 2)).takeWhile
    (fun x => x.1 < lineno + 3)).flatMap
      (fun x => contextLine lineno colno width token.length x.1 x.2)

/-- Cutting a text at byte `p`, for `source[..p]` and `source[p..]`: `str` slicing panics if `p` is behind the end or
inside a character. -/
def cutAt : List Char → Nat → Out (List Char × List Char)
  | cs, 0 => .ok ([], cs)
  | [], _ + 1 => .panic
  | c :: cs, p + 1 =>
    if c.utf8Size ≤ p + 1 then cutAt cs (p + 1 - c.utf8Size) >>= fun x => .ok (c :: x.1, x.2) else .panic

/-- `format!("{}", ParseError::UnexpectedToken { source, start, end })`, `ratel/src/error.rs:47-95`: the slices
`source[..start]` and `source[start..end]` and the message. -/
def displayUnexpectedToken (source : List Char) (start stop : Nat) : Out (List Char) :=
  if stop < start then .panic
  else
    cutAt source start >>= fun x =>
    cutAt x.2 (stop - start) >>= fun y =>
    .ok (displayError x.1 y.1 y.2)

end Ratel
