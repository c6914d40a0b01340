import Verif.Props.Lexer
/-! Concrete cases that meet the hypotheses of the lexer theorems, and the counterexamples to the parts of C09, C10
and C17 that are false in the code. -/
namespace Ratel
open Spec

/-- Any interpretation of `char::is_alphanumeric` will do. -/
local instance : Unicode := ⟨fun _ => true⟩

/-- The state after `Lexer::new` and `k` calls of `consume`. -/
def stateAfter (src : Bytes) (k : Nat) : Out Lex := Lex.new src >>= consumes k

theorem lexing_stateAfter {src : Bytes} {k : Nat} {l : Lex} (h : stateAfter src k = .ok l) : Lexing src l := by
  rw [stateAfter, Out.bind_eq_ok] at h
  obtain ⟨l0, h0, h⟩ := h
  have : ∀ (k : Nat) (l0 : Lex), Lexing src l0 → consumes k l0 = .ok l → Lexing src l := by
    intro k
    induction k with
    | zero => intro l0 h0 h; simp [consumes] at h; exact h ▸ h0
    | succ k ih =>
      intro l0 h0 h
      rw [consumes] at h
      change l0.consume >>= consumes k = .ok l at h
      rw [Out.bind_eq_ok] at h
      obtain ⟨l1, h1, h2⟩ := h
      exact ih l1 (.consume h0 h1) h2
  exact this k l0 (.new h0) h

/-- Check a state and the outcome of the next `consume`. -/
def check (src : Bytes) (k : Nat) (f : Lex → Out Lex → Bool) : Bool :=
  match stateAfter src k with
  | .ok l => f l l.consume
  | _ => false

theorem of_check {src : Bytes} (k : Nat) (f : Lex → Out Lex → Bool) (h : check src k f = true) :
    ∃ l, Lexing src l ∧ f l l.consume = true := by
  rw [check] at h
  cases hs : stateAfter src k with
  | ok l => rw [hs] at h; exact ⟨l, lexing_stateAfter hs, h⟩
  | _ => rw [hs] at h; simp at h

/-- Check a state and the next one. -/
def check2 (src : Bytes) (k : Nat) (f : Lex → Lex → Bool) : Bool :=
  check src k fun l x => match x with
    | .ok l' => f l l'
    | _ => false

theorem of_check2 {src : Bytes} (k : Nat) (f : Lex → Lex → Bool) (h : check2 src k f = true) :
    ∃ l l', Lexing src l ∧ l.consume = .ok l' ∧ f l l' = true := by
  obtain ⟨l, h1, h2⟩ := of_check k _ h
  cases hc : l.consume with
  | ok l' => rw [hc] at h2; exact ⟨l, l', h1, hc, h2⟩
  | _ => rw [hc] at h2; simp at h2

/-- C01, C02: the second token of `let  /* c */ x1=0x1F;`, with trivia in front of it. -/
example : ∃ l l', Lexing bs!"let  /* c */ x1=0x1F;" l ∧ l.consume = .ok l' ∧
    (decide (l.index = 3) && decide (l'.seen = ⟨.Identifier, bs!"x1", 13, 15⟩)) = true :=
  of_check2 0 _ (by decide +kernel)

/-- C02, tiling: the pieces of two tokens. -/
example : check2 bs!" a + b" 0 (fun l l' => pieces bs!" a + b" [l', l] == [bs!" ", bs!"a", bs!" ", bs!"+"]) = true := by
  decide +kernel

/-- C03: the end of a program is reached. -/
example : ∃ l l', Lexing bs!"a // c" l ∧ l.consume = .ok l' ∧ (decide (l.token = .EndOfProgram)) = true :=
  of_check2 1 _ (by decide +kernel)

/-- C04: `instanceofx` is an identifier, `instanceof` a keyword. -/
example : check2 bs!";instanceofx" 0 (fun _ l => l.token == .Identifier) = true ∧
    check2 bs!";instanceof x" 0 (fun _ l => l.token == .OperatorInstanceof) = true := by decide +kernel

/-- C04: the hypotheses of `C04_word_token` for `typeof` after a comment. -/
example : ∃ l, Lexing bs!";/**/typeof x" l ∧
    decide (List.drop l.index bs!";/**/typeof x" = bs!"/**/" ++ (#b't' :: bs!"ypeof" ++ bs!" x")) = true ∧
    Trivia bs!"/**/" (#b't' :: bs!"ypeof" ++ bs!" x") ∧ wordByte (next bs!" x") = false := by
  obtain ⟨l, h1, h2⟩ := of_check (src := bs!";/**/typeof x") 0
    (fun l _ => decide (List.drop l.index bs!";/**/typeof x" = bs!"/**/" ++ (#b't' :: bs!"ypeof" ++ bs!" x"))) (by decide +kernel)
  exact ⟨l, h1, h2, .cons (p := bs!"/**/") (g := []) (.block (s := []) (by simp) (by decide)) .nil, by decide⟩

/-- C05: `>>>` in front of `=` is not maximal, in front of `a` it is. -/
example : (∃ x ∈ puncts, x.1 <+: bs!">>>" ++ bs!"=a" ∧ ¬ x.1.length ≤ 3) ∧
    (∀ x ∈ puncts, x.1 <+: bs!">>>" ++ bs!"a" → x.1.length ≤ 3) := by decide +kernel

/-- C06: `'a\'b'` is one string. -/
example : StrBody #b'\'' bs!"a\\'b" :=
  .plain (by decide) (by decide) (by decide) (.esc (by decide) (.plain (by decide) (by decide) (by decide) .nil))
example : check2 bs!"='a\\'b' + c" 0 (fun _ l => l.seen == ⟨.LiteralString, bs!"'a\\'b'", 1, 7⟩) = true := by
  decide +kernel

/-- C07: `1.5e-3` followed by `+`. -/
example : Number bs!"1.5e-3" bs!"+" :=
  .decimal (ds := bs!"1") (f := bs!".5") (e := bs!"e-3") (by decide) (by decide) (.some (ds := bs!"5") (by decide))
    (.some (e := #b'e') (s := bs!"-") (ds := bs!"3") (Or.inl rfl) .minus (by decide) (by decide) (by decide))
    (by decide) (by decide) (by decide)

/-- C08: two ways to separate tokens. -/
example : Trivia bs!" " bs!"+b" ∧ Trivia bs!"/*x*/\n" bs!"+b" ∧
    check2 bs!"a +b" 0 (fun l _ => List.drop l.index bs!"a +b" == bs!" " ++ bs!"+b") = true ∧
    check2 bs!"a/*x*/\n+b" 0 (fun l _ => List.drop l.index bs!"a/*x*/\n+b" == bs!"/*x*/\n" ++ bs!"+b") = true :=
  ⟨.cons (p := bs!" ") (g := []) (.space (by decide)) .nil,
    .cons (p := bs!"/*x*/") (g := bs!"\n") (.block (s := bs!"x") (by decide) (by decide))
      (.cons (p := bs!"\n") (g := []) (.space (by decide)) .nil), by decide +kernel, by decide +kernel⟩

/-- C09: a line break after a line comment. -/
example : check2 bs!"a // c\n b" 0 (fun l l' => slice bs!"a // c\n b" l.index l'.tokenStart == bs!" // c\n " &&
      List.drop l'.tokenStart bs!"a // c\n b" == bs!"b" && l'.asi == .ImplicitSemicolon) = true ∧
    LineTrivia bs!" // c\n " bs!"b" ∧ #b'\n' ∈ bs!" // c\n " :=
  ⟨by decide +kernel, .space (by decide) (.line (s := bs!" c") (g := bs!"\n ") (by decide) (by decide)
      (.space (by decide) (.space (by decide) .nil))), by decide⟩

/-- C09 is false in the code: a block comment after the line break hides it. -/
theorem C09_block_comment_hides_line_break : ∃ l l', Lexing bs!"a\n/*x*/b" l ∧ l.consume = .ok l' ∧
    #b'\n' ∈ slice bs!"a\n/*x*/b" l.index l'.tokenStart ∧ l'.asi = .NoSemicolon := by
  obtain ⟨l, l', h1, h2, h3⟩ := of_check2 (src := bs!"a\n/*x*/b") 0
    (fun l l' => decide (#b'\n' ∈ slice bs!"a\n/*x*/b" l.index l'.tokenStart) && decide (l'.asi = .NoSemicolon)) (by decide +kernel)
  exact ⟨l, l', h1, h2, by simpa using h3⟩

/-- C09 is false in the code: so does a line break inside of a block comment. -/
theorem C09_block_comment_with_line_break : ∃ l l', Lexing bs!"a/*\n*/b" l ∧ l.consume = .ok l' ∧
    #b'\n' ∈ slice bs!"a/*\n*/b" l.index l'.tokenStart ∧ l'.asi = .NoSemicolon := by
  obtain ⟨l, l', h1, h2, h3⟩ := of_check2 (src := bs!"a/*\n*/b") 0
    (fun l l' => decide (#b'\n' ∈ slice bs!"a/*\n*/b" l.index l'.tokenStart) && decide (l'.asi = .NoSemicolon)) (by decide +kernel)
  exact ⟨l, l', h1, h2, by simpa using h3⟩

/-- C10 is false in the code. -/
theorem C10_reads_outside : Lex.new bs!"`abc" = .oob ∧ (∃ l, Lexing bs!"foo." l ∧ l.consume = .oob) ∧
    (∃ l, Lexing bs!"/abc" l ∧ l.readRegularExpression = .oob) := by
  refine ⟨by decide +kernel, ?_, ?_⟩
  · obtain ⟨l, h1, h2⟩ := of_check (src := bs!"foo.") 0 (fun _ x => x == .oob) (by decide +kernel)
    exact ⟨l, h1, by simpa using h2⟩
  · obtain ⟨l, h1, h2⟩ := of_check (src := bs!"/abc") 0 (fun l _ => l.readRegularExpression == .oob) (by decide +kernel)
    exact ⟨l, h1, by simpa using h2⟩

/-- C10: most states are not of that kind. -/
example : check2 bs!"a `b` c" 0 (fun _ l => l.token == .TemplateClosed) = true := by decide +kernel

/-- C17 is false in the code: `foo.é`. -/
theorem C17_lexer_panics : ∃ l, Lexing (bs!"foo." ++ [0xC3, 0xA9]) l ∧ l.consume = .panic := by
  obtain ⟨l, h1, h2⟩ := of_check (src := bs!"foo." ++ [0xC3, 0xA9]) 0 (fun _ x => x == .panic) (by decide +kernel)
  exact ⟨l, h1, by simpa using h2⟩

/-- C38: `/a[/]\/b/gi`. -/
example : RegexScan false bs!"a[/]\\/b" false :=
  .plain (by decide) (.openClass (.slash (.closeClass (.esc (by decide) (.plain (by decide) .nil)))))
example : check bs!"/a[/]\\/b/gi;" 0 (fun l _ => List.drop l.index bs!"/a[/]\\/b/gi;" == bs!"a[/]\\/b" ++ #b'/' :: (bs!"gi" ++ bs!";")) = true := by
  decide +kernel

end Ratel
