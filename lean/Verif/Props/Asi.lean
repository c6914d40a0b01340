import Verif.Lemmas.Spell
import Verif.Props.Lexer
/-! C09: exactly when the lexer reports that a semicolon may be inserted. -/
namespace Ratel
open Spec

set_option linter.unusedSectionVars false
variable [Unicode]

/-- The text `g` in front of `r` has a line break behind its last block comment: it ends with white space and line comments in
which there is a line break. -/
def Spec.BreakAtEnd (g r : Bytes) : Prop :=
  ∃ g1 g2, g = g1 ++ g2 ∧ Trivia g1 (g2 ++ r) ∧ LineTrivia g2 r ∧ #b'\n' ∈ g2

theorem trivia_gap {g r : Bytes} (h : Trivia g r) : ∀ a, ∃ b, Gap a g r b := by
  induction h with
  | nil => exact fun a => ⟨a, .nil⟩
  | @cons p g r hp _ ih =>
    intro a
    cases hp with
    | @space c _ h =>
      obtain ⟨b, hb⟩ := ih (a || c == #b'\n')
      exact ⟨b, .space h hb⟩
    | line h hr =>
      obtain ⟨b, hb⟩ := ih false
      exact ⟨b, .comment (.line h hr) (by simp) hb⟩
    | block h hr =>
      obtain ⟨b, hb⟩ := ih false
      exact ⟨b, .comment (.block h hr) (by simp) hb⟩

/-- The flag is set only by a line break behind the last block comment. -/
theorem gap_break {a b : Bool} {g r : Bytes} (h : Gap a g r b) (hb : b = true) : a = true ∧ LineTrivia g r ∨ BreakAtEnd g r := by
  induction h with
  | nil => exact .inl ⟨hb, .nil⟩
  | @space a b c g r h _ ih =>
    rcases ih hb with ⟨h1, h2⟩ | ⟨g1, g2, rfl, h2, h3, h4⟩
    · by_cases hc : c = #b'\n'
      · subst hc
        exact .inr ⟨[], _, rfl, .nil, .space h h2, by simp⟩
      · have : (c == #b'\n') = false := by simpa using hc
        rw [this, Bool.or_false] at h1
        exact .inl ⟨h1, .space h h2⟩
    · exact .inr ⟨c :: g1, g2, rfl, .cons (p := [c]) (.space h) h2, h3, h4⟩
  | @comment a b p g r hp _ _ ih =>
    rcases ih hb with ⟨h1, _⟩ | ⟨g1, g2, rfl, h2, h3, h4⟩
    · cases h1
    · exact .inr ⟨p ++ g1, g2, by simp, .cons (by simpa using hp) h2, h3, h4⟩

/-- C09, exactly: a semicolon may be inserted in front of a token if and only if the token is `;`, `)`, `}` or the end of the
program, or there is a line break between the last block comment in front of it (the token before, if there is none) and the
token. (So the full property fails for the gaps with a block comment, and only for these: see
`C09_block_comment_hides_line_break` and `C09_block_comment_with_line_break`.) -/
theorem C09_exactly_partial {src : Bytes} {l l' : Lex} (h : Lexing src l) (h' : l.consume = .ok l') :
    l'.asi ≠ .NoSemicolon ↔
      l'.token ∈ [Token.Semicolon, .ParenClose, .BraceClose, .EndOfProgram] ∨
      BreakAtEnd (slice src l.index l'.tokenStart) (src.drop l'.tokenStart) := by
  obtain ⟨g, p, hs, hw, hp⟩ := h.consume_scanned h'
  have h2 : src.drop l.index = g ++ (p ++ l'.rest) := h.wf.rest ▸ hs.rest
  have ht : l'.tokenStart = l.index + g.length := hs.tokenStart
  have h3 : slice src l.index l'.tokenStart = g := by
    rw [slice, List.drop_take, ht, h2]; simp
  have h4 : src.drop l'.tokenStart = p ++ l'.rest := by
    rw [ht, ← List.drop_drop, h2]; simp
  have hcl : l'.token ∈ [Token.Semicolon, .ParenClose, .BraceClose, .EndOfProgram] ↔ closes l'.token = true := by
    cases l'.token <;> simp [closes]
  rw [h3, h4, hcl]
  have hl0 : ({ l with asi := .NoSemicolon } : Lex).rest = g ++ (p ++ l'.rest) := h.wf.rest.trans h2
  constructor
  · intro ha
    obtain ⟨b, hb⟩ := trivia_gap hs.trivia false
    have k := Lex.scanAll_gap hb { l with asi := .NoSemicolon } hl0 rfl
    rw [← Lex.consume_eq, h'] at k
    obtain ⟨m, m1, -, m3, -, -, -, m7⟩ := Lex.scanAll_token hs.lexeme
      (l := { ({ l with asi := .NoSemicolon } : Lex).moveTo (p ++ l'.rest) (l.index + g.length) with asi := asiFlag b }) rfl
    have k' : Out.ok l' = Out.ok m := k.trans m1
    cases k'
    have m7 : l'.asi = Lex.asiAt l'.token (asiFlag b) := m7
    rw [asiAt_flag] at m7
    cases hc : closes l'.token with
    | true => exact .inl rfl
    | false =>
      cases b with
      | true =>
        rcases gap_break hb rfl with ⟨h1, -⟩ | h1
        · cases h1
        · exact .inr h1
      | false =>
        refine absurd ?_ ha
        rw [m7, asiBefore, hc]
        rw [if_neg (by rintro h; rw [h] at hc; cases hc)]
        rfl
  · rintro (hc | ⟨g1, g2, rfl, k1, k2, k3⟩)
    · exact hs.closes hc
    · obtain ⟨b, hb⟩ := trivia_gap k1 false
      have hsh := hs.lexeme.shape
      have hns : isSpace (next (p ++ l'.rest)) = false := by
        cases hc : isSpace (next (p ++ l'.rest)) with
        | false => rfl
        | true => rw [cls_space hc] at hsh; exact hsh.elim
      have k := Lex.scanAll_gap hb { l with asi := .NoSemicolon } (by rw [hl0, List.append_assoc]) rfl
      obtain ⟨a, ha, hab⟩ := Lex.scanAll_lineTrivia k2 hns
        { ({ l with asi := .NoSemicolon } : Lex).moveTo (g2 ++ (p ++ l'.rest)) (l.index + g1.length) with asi := asiFlag b } rfl
      rw [Lex.consume_eq, k, ha] at h'
      rcases hab (.inr k3) with rfl | hz
      · obtain ⟨m, m1, -, -, -, -, -, m7⟩ := Lex.scanAll_token hs.lexeme
          (l := { (Lex.moveTo { ({ l with asi := .NoSemicolon } : Lex).moveTo (g2 ++ (p ++ l'.rest)) (l.index + g1.length) with asi := asiFlag b }
            (p ++ l'.rest) (l.index + g1.length + g2.length)) with asi := .ImplicitSemicolon }) rfl
        have k' : Out.ok l' = Out.ok m := h'.symm.trans m1
        cases k'
        have m7 : l'.asi = Lex.asiAt l'.token .ImplicitSemicolon := m7
        rw [m7, Lex.asiAt]
        split <;> simp
      · rw [hz] at hsh
        exact hs.closes (by rw [hsh.1]; rfl)

/-- A gap with a block comment and a line break behind it, one with a line break only in front of it. -/
example : BreakAtEnd bs!" /*x*/ // y\n " bs!"b" :=
  ⟨bs!" /*x*/", bs!" // y\n ", rfl, .cons (p := bs!" ") (.space (by decide)) (.cons (p := bs!"/*x*/") (g := []) (.block (s := bs!"x") (by decide) (by decide)) .nil),
    .space (by decide) (.line (s := bs!" y") (g := bs!"\n ") (by decide) (by decide) (.space (by decide) (.space (by decide) .nil))), by decide⟩

end Ratel
