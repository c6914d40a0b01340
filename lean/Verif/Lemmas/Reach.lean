import Verif.Lemmas.Walk
/-! The lexer states that the parser gets into. -/
namespace Ratel
open Spec

set_option linter.unusedSectionVars false
variable [Unicode]

/-- The lexer states of the parser: it goes on with a template only in a text with back quotes. -/
inductive Reach (src : Bytes) : Lex → Prop where
  | new {l : Lex} (h : Lex.new src = .ok l) : Reach src l
  | consume {l l' : Lex} (h : Reach src l) (h' : l.consume = .ok l') : Reach src l'
  | template {l l' : Lex} (h : Reach src l) (ht : l.token = .BraceClose) (hb : #b'`' ∈ src)
      (h' : l.readTemplateKind = .ok l') : Reach src l'
  | regex {l l' : Lex} {v : Bytes} (h : Reach src l) (ht : l.token = .OperatorDivision)
      (h' : l.readRegularExpression = .ok (l', v)) : Reach src l'

theorem Reach.proper {src : Bytes} {l : Lex} (h : Reach src l) : Proper src l := by
  induction h with
  | new h => exact .new h
  | consume _ h' ih => exact ih.consume h'
  | template _ ht _ h' ih => exact ih.template ht h'
  | regex _ ht h' ih => exact ih.regex ht h'

theorem Spec.Lexeme.openTick {p r : Bytes} (hx : Lexeme .TemplateOpen p r) : #b'`' ∈ p := by
  generalize hq : Token.TemplateOpen = t at hx
  cases hx with
  | templateOpen => simp
  | punct h =>
    have : ∀ x ∈ puncts, x.2 ≠ .TemplateOpen := by decide +kernel
    exact absurd hq.symm (this _ h)
  | word _ _ _ =>
    have := wordToken_inv hq.symm (by decide)
    have hk : ∀ x ∈ keywords, x.2 ≠ .TemplateOpen := by decide +kernel
    exact absurd rfl (hk _ this)
  | _ => cases hq

theorem Reach.lexing {src : Bytes} {l : Lex} (h : Reach src l) : Lexing src l := h.proper.lexing

/-- Templates are opened by back quotes. -/
theorem Reach.tick {src : Bytes} {l : Lex} (h : Reach src l) (ht : l.token = .TemplateOpen) : #b'`' ∈ src := by
  cases h with
  | new h =>
    obtain ⟨-, hx⟩ := C02_only_trivia_before_first_token h
    have hsp := C01_first_token_span h
    rw [ht] at hx
    have hm := hx.openTick
    rw [hsp.2.2] at hm
    exact List.mem_of_mem_take (List.mem_of_mem_drop hm)
  | consume h h' =>
    obtain ⟨-, hx⟩ := C02_only_trivia_between_tokens h.lexing h'
    have hsp := C01_token_spans h.lexing h'
    rw [ht] at hx
    have hm := hx.openTick
    rw [hsp.2.2.2] at hm
    exact List.mem_of_mem_take (List.mem_of_mem_drop hm)
  | template _ _ hb => exact hb
  | regex _ _ h' =>
    obtain ⟨p, c, q, -, ho, hx⟩ := (readRegularExpression_spec _).of_ok h'
    rcases hx with hx | hx | hx <;> simp_all

end Ratel
