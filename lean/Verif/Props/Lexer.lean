import Verif.Lemmas.Lexemes
import Verif.Spec.Lexing
import Verif.Props.Tables
/-! Properties of the lexer: C01 – C10. -/
namespace Ratel
open Spec

set_option linter.unusedSectionVars false
variable [Unicode]

/-- The invariant of all lexer states. -/
structure Lex.WF (src : Bytes) (l : Lex) : Prop where
  same : l.src = src
  rest : l.rest = src.drop l.index
  index : l.index ≤ src.length
  start : l.tokenStart ≤ l.index
  eof : l.token = .EndOfProgram → next l.rest = 0

theorem Lex.WF.over {src : Bytes} {l l' : Lex} {p : Bytes} (h : l.WF src) (hs : l'.src = l.src)
    (hr : l.rest = p ++ l'.rest) (hi : l'.index = l.index + p.length) (ht : l'.tokenStart ≤ l'.index)
    (he : l'.token = .EndOfProgram → next l'.rest = 0) : l'.WF src := by
  have h2 : src.drop l.index = p ++ l'.rest := h.rest ▸ hr
  refine ⟨hs.trans h.same, ?_, ?_, ht, he⟩
  · rw [hi, ← List.drop_drop, h2]; simp
  · have h3 : (src.drop l.index).length = p.length + l'.rest.length := by rw [h2]; simp
    have := h.index
    simp at h3
    rw [hi]
    omega

theorem Lex.WF.text {src : Bytes} {l : Lex} (h : l.WF src) : l.tokenAsStr = slice src l.tokenStart l.index := by
  rw [tokenAsStr, sliceSource, slice, h.same, List.drop_take]

theorem Lexeme.eof_inv {p r : Bytes} (h : Lexeme .EndOfProgram p r) : p = [] ∧ next r = 0 := by
  generalize ht : Token.EndOfProgram = t at h
  cases h with
  | eof h => exact ⟨rfl, h⟩
  | punct h => exfalso; revert h; subst ht; revert p; simp [puncts]
  | word _ _ _ =>
    exfalso
    have := Lex.closes_wordToken
    rename_i c w _ _ _
    have := this (c :: w)
    rw [← ht] at this
    simp [closes] at this
  | _ => simp at ht

theorem Lex.WF.scanned {src : Bytes} {l l' : Lex} {g p : Bytes} (h : l.WF src) (hs : Lex.Scanned l l' g p) :
    l'.WF src ∧ l'.tokenAsStr = p := by
  have hw : l'.WF src := by
    refine h.over (p := g ++ p) hs.src (by rw [hs.rest]; simp) (by rw [hs.index]; simp; omega)
      (by rw [hs.index, hs.tokenStart]; omega) ?_
    intro he
    have := hs.lexeme
    rw [he] at this
    exact (Lexeme.eof_inv this).2
  refine ⟨hw, ?_⟩
  have h2 : src.drop l.index = g ++ (p ++ l'.rest) := h.rest ▸ hs.rest
  rw [Lex.tokenAsStr, Lex.sliceSource, hw.same, hs.tokenStart, hs.index, ← List.drop_drop, h2]
  simp

theorem regexGo_some {b : Bool} {r : Bytes} {i : Nat} {t : Token} {s : Bytes} {j : Nat}
    (h : Lex.regexGo b r i = some (t, s, j)) :
    ∃ p c q, RegexScan b p c ∧ r = p ++ q ++ s ∧ j = i + p.length + q.length ∧
      ((t = .LiteralRegEx ∧ c = false ∧ q = bs!"/") ∨ (t = .UnexpectedEndOfProgram ∧ q = [#b'\\'] ∧ next s = 0) ∨
       (t = .UnexpectedToken ∧ q = bs!"\n")) := by
  fun_induction Lex.regexGo b r i
  all_goals first
    | (simp at h; done)
    | (simp at h; obtain ⟨rfl, rfl, rfl⟩ := h; exact ⟨[], _, [_], .nil, rfl, rfl, by simp_all [next]⟩)
    | skip
  all_goals
    rename_i ih
    obtain ⟨p, c, q, h1, h2, h3, h4⟩ := ih h
  · exact ⟨_ :: p, c, q, .openClass h1, by simp [*], by simp; omega, h4⟩
  · exact ⟨_ :: p, c, q, .closeClass h1, by simp [*], by simp; omega, h4⟩
  · exact ⟨_ :: p, c, q, .slash h1, by simp [*], by simp; omega, h4⟩
  · exact ⟨_ :: _ :: p, c, q, .esc (by assumption) h1, by simp [*], by simp; omega, h4⟩
  · rename_i c0 _ _ _ _ _ _ _; exact ⟨c0 :: p, c, q, .plain (by simp [*]) h1, by simp [h2], by simp; omega, h4⟩

theorem regexGo_none {b : Bool} {r : Bytes} {i : Nat} (h : Lex.regexGo b r i = none) : ∃ c, RegexScan b r c := by
  fun_induction Lex.regexGo b r i
  all_goals first
    | (simp at h; done)
    | exact ⟨_, .nil⟩
    | skip
  all_goals
    rename_i ih
    obtain ⟨c, h1⟩ := ih h
  · exact ⟨c, .openClass h1⟩
  · exact ⟨c, .closeClass h1⟩
  · exact ⟨c, .slash h1⟩
  · exact ⟨c, .esc (by assumption) h1⟩
  · exact ⟨c, .plain (by simp [*]) h1⟩

theorem regexFlag_eq : Lex.regexFlag = isFlag := by
  funext b
  revert b
  exact byte_forall (by decide +kernel)

theorem readRegularExpression_spec (l : Lex) :
    l.readRegularExpression.Sat (fun x => ∃ p c q, RegexScan false p c ∧ Lex.Over (p ++ q) l x.1 ∧
        ((x.1.token = .LiteralRegEx ∧ c = false ∧ (∃ fs, q = #b'/' :: fs ∧ ∀ b ∈ fs, isFlag b = true) ∧
            isFlag (next x.1.rest) = false ∧ x.2 = l.sliceSource (l.index - 1) x.1.index) ∨
         (x.1.token = .UnexpectedEndOfProgram ∧ q = [#b'\\'] ∧ next x.1.rest = 0 ∧ x.2 = []) ∨
         (x.1.token = .UnexpectedToken ∧ q = bs!"\n" ∧ x.2 = [])))
      (∃ c, RegexScan false l.rest c) False False := by
  rw [Lex.readRegularExpression]
  cases hg : Lex.regexGo false l.rest l.index with
  | none => exact regexGo_none hg
  | some x =>
    obtain ⟨t, s, j⟩ := x
    obtain ⟨p, c, q, h1, h2, h3, h4⟩ := regexGo_some hg
    have h0 : Lex.Over (p ++ q) l (l.moveTo s j) := ⟨rfl, rfl, h2, by simp [h3, Nat.add_assoc, Lex.moveTo], rfl⟩
    rcases h4 with ⟨rfl, rfl, rfl⟩ | ⟨rfl, rfl, h5⟩ | ⟨rfl, rfl⟩
    · have ho := Lex.over_skipWhile Lex.regexFlag (l.moveTo s j)
      rw [regexFlag_eq] at ho
      refine ⟨p, false, #b'/' :: s.takeWhile isFlag, h1, ?_, Or.inl ⟨rfl, rfl, ⟨_, rfl, Lex.mem_takeWhile⟩, ?_, rfl⟩⟩
      · have := (h0.trans ho).setToken .LiteralRegEx
        rw [← regexFlag_eq] at this ⊢
        simpa using this
      · simp only [Lex.setToken, Lex.rest_skipWhile, Lex.rest_moveTo, regexFlag_eq]
        exact Lex.next_dropWhile (by decide) _
    · exact ⟨p, c, _, h1, h0.setToken _, Or.inr (Or.inl ⟨rfl, rfl, h5, rfl⟩)⟩
    · exact ⟨p, c, _, h1, h0.setToken _, Or.inr (Or.inr ⟨rfl, rfl, rfl⟩)⟩

theorem Spec.Lexing.wf {src : Bytes} {l : Lex} (h : Lexing src l) : l.WF src := by
  have hc : ∀ {l l' : Lex}, l.WF src → l.consume = .ok l' → l'.WF src := by
    intro l l' h h'
    rw [Lex.consume_eq] at h'
    obtain ⟨g, p, hs⟩ := (Lex.scanAll_spec _).of_ok h'
    have h0 : Lex.WF src { l with asi := .NoSemicolon } := ⟨h.same, h.rest, h.index, h.start, h.eof⟩
    exact (h0.scanned hs).1
  induction h with
  | @new l h =>
    rw [Lex.new] at h
    exact hc (l := Lex.init src) ⟨rfl, rfl, Nat.zero_le _, Nat.le_refl _, by simp [Lex.init]⟩ h
  | consume _ h' ih => exact hc ih h'
  | template h h' ih =>
    obtain ⟨p, q, -, ho, h⟩ := (Lex.readTemplateKind_spec _).of_ok h'
    refine ih.over ho.src ho.rest ho.index (by rw [ho.tokenStart, ho.index]; have := ih.start; omega) ?_
    intro he
    rw [he] at h
    simp at h
  | @regex l l' v h h' ih =>
    obtain ⟨p, c, q, -, ho, h⟩ := (readRegularExpression_spec _).of_ok h'
    refine ih.over ho.src ho.rest ho.index (by rw [ho.tokenStart, ho.index]; have := ih.start; omega) ?_
    intro he
    rw [he] at h
    simp at h

theorem Spec.Lexing.consume_scanned {src : Bytes} {l l' : Lex} (h : Lexing src l) (h' : l.consume = .ok l') :
    ∃ g p, Lex.Scanned { l with asi := .NoSemicolon } l' g p ∧ l'.WF src ∧ l'.tokenAsStr = p := by
  rw [Lex.consume_eq] at h'
  obtain ⟨g, p, hs⟩ := (Lex.scanAll_spec _).of_ok h'
  have hw := h.wf
  have h0 : Lex.WF src { l with asi := .NoSemicolon } := ⟨hw.same, hw.rest, hw.index, hw.start, hw.eof⟩
  exact ⟨g, p, hs, h0.scanned hs⟩

/-! ### C01 -/

/-- C01: every token starts at or after the end of the previous one, and lies in the source. -/
theorem C01_token_spans {src : Bytes} {l l' : Lex} (h : Lexing src l) (h' : l.consume = .ok l') :
    l.index ≤ l'.tokenStart ∧ l'.tokenStart ≤ l'.index ∧ l'.index ≤ src.length ∧
    l'.tokenAsStr = slice src l'.tokenStart l'.index := by
  obtain ⟨g, p, hs, hw, -⟩ := h.consume_scanned h'
  exact ⟨by rw [hs.tokenStart]; exact Nat.le_add_right _ _, hw.start, hw.index, hw.text⟩

/-- C01 for the first token. -/
theorem C01_first_token_span {src : Bytes} {l : Lex} (h : Lex.new src = .ok l) :
    l.tokenStart ≤ l.index ∧ l.index ≤ src.length ∧ l.tokenAsStr = slice src l.tokenStart l.index := by
  have hw := (Lexing.new h).wf
  exact ⟨hw.start, hw.index, hw.text⟩

/-! ### C02 -/

/-- C02: between two tokens there is only trivia, and the text of each token is a lexeme of its kind. -/
theorem C02_only_trivia_between_tokens {src : Bytes} {l l' : Lex} (h : Lexing src l) (h' : l.consume = .ok l') :
    Trivia (slice src l.index l'.tokenStart) (src.drop l'.tokenStart) ∧
    Lexeme l'.token l'.tokenAsStr (src.drop l'.index) := by
  obtain ⟨g, p, hs, hw, hp⟩ := h.consume_scanned h'
  have hr := h.wf.rest
  have h2 : src.drop l.index = g ++ (p ++ l'.rest) := hr ▸ hs.rest
  have ht : l'.tokenStart = l.index + g.length := hs.tokenStart
  have h3 : slice src l.index l'.tokenStart = g := by
    rw [slice, List.drop_take, ht, h2]; simp
  have h4 : src.drop l'.tokenStart = p ++ l'.rest := by
    rw [ht, ← List.drop_drop, h2]; simp
  rw [h3, h4, hp, ← hw.rest]
  exact ⟨hs.trivia, hs.lexeme⟩

theorem C02_only_trivia_before_first_token {src : Bytes} {l : Lex} (h : Lex.new src = .ok l) :
    Trivia (slice src 0 l.tokenStart) (src.drop l.tokenStart) ∧
    Lexeme l.token l.tokenAsStr (src.drop l.index) := by
  rw [Lex.new, Lex.consume_eq] at h
  obtain ⟨g, p, hs⟩ := (Lex.scanAll_spec _).of_ok h
  have h0 : Lex.WF src (Lex.init src) := ⟨rfl, rfl, Nat.zero_le _, Nat.le_refl _, by simp [Lex.init]⟩
  have h0' : Lex.WF src { Lex.init src with asi := .NoSemicolon } := ⟨rfl, rfl, Nat.zero_le _, Nat.le_refl _, by simp [Lex.init]⟩
  obtain ⟨hw, hp⟩ := h0'.scanned hs
  have ht : l.tokenStart = g.length := by simpa [Lex.init] using hs.tokenStart
  have h2 : src = g ++ (p ++ l.rest) := hs.rest
  have h3 : slice src 0 l.tokenStart = g := by
    rw [slice, List.drop_take, ht]; simp; rw [h2]; simp
  have h4 : src.drop l.tokenStart = p ++ l.rest := by
    rw [ht]; conv => lhs; rw [h2]
    simp
  rw [h3, h4, hp, ← hw.rest]
  exact ⟨hs.trivia, hs.lexeme⟩

/-- The pieces seen in a sequence of tokens: in front of each token the text since the previous one. -/
def pieces (src : Bytes) : List Lex → List Bytes
  | [] => []
  | [l] => [slice src 0 l.tokenStart, l.tokenAsStr]
  | l' :: l :: ls => pieces src (l :: ls) ++ [slice src l.index l'.tokenStart, l'.tokenAsStr]

theorem Spec.Tokens.lexing {src : Bytes} {ls : List Lex} (h : Tokens src ls) : ∀ l ∈ ls, Lexing src l := by
  induction h with
  | new h => intro l hl; simp at hl; subst hl; exact .new h
  | consume h h' ih =>
    intro l hl
    simp only [List.mem_cons] at hl
    rcases hl with rfl | hl
    · exact .consume (ih _ (by simp)) h'
    · exact ih l (by simpa using hl)

theorem slice_append {src : Bytes} {a b c : Nat} (h1 : a ≤ b) (h2 : b ≤ c) (h3 : b ≤ src.length) :
    slice src a b ++ slice src b c = slice src a c := by
  unfold slice
  have e : src.take c = src.take b ++ (src.take c).drop b := by
    conv => lhs; rw [← List.take_append_drop b (src.take c)]
    rw [List.take_take, Nat.min_eq_left h2]
  conv => rhs; rw [e]
  rw [List.drop_append_of_le_length (by simp; omega)]

/-- C02: token texts and the trivia between them concatenate to the source. -/
theorem C02_tokens_tile_source {src : Bytes} {l : Lex} {ls : List Lex} (h : Tokens src (l :: ls)) :
    src = (pieces src (l :: ls)).flatten ++ src.drop l.index := by
  suffices hh : (pieces src (l :: ls)).flatten = slice src 0 l.index by
    rw [hh, slice]; simp
  generalize he : l :: ls = xs at h
  induction h generalizing l ls with
  | @new l0 h =>
    simp at he
    obtain ⟨rfl, rfl⟩ := he
    obtain ⟨h1, h2, h3⟩ := C01_first_token_span h
    simp only [pieces, List.flatten_cons, List.flatten_nil, List.append_nil]
    rw [h3, slice_append (Nat.zero_le _) h1 (by omega)]
  | @consume l0 l1 ls0 h h' ih =>
    simp at he
    obtain ⟨rfl, rfl⟩ := he
    obtain ⟨h1, h2, h3, h4⟩ := C01_token_spans (h.lexing _ (by simp)) h'
    have := ih rfl
    simp only [pieces, List.flatten_append, this, List.flatten_cons, List.flatten_nil, List.append_nil]
    rw [h4, slice_append h1 h2 (by omega), slice_append (Nat.zero_le _) (by omega) (by omega)]

/-- C02: every token but the end of the program and the report of a bad character has a non-empty text. -/
theorem C02_tokens_nonempty {src : Bytes} {l l' : Lex} (h : Lexing src l) (h' : l.consume = .ok l')
    (h1 : l'.token ≠ .EndOfProgram) (h2 : l'.token ≠ .UnexpectedToken) : l'.tokenStart < l'.index := by
  obtain ⟨g, p, hs, hw, hp⟩ := h.consume_scanned h'
  have : p ≠ [] := by
    have := hs.lexeme
    generalize l'.token = t at *
    generalize l'.rest = r at *
    rintro rfl
    generalize hq : ([] : Bytes) = q at this
    cases this with
    | eof => exact h1 rfl
    | punct h => subst hq; exact absurd rfl (puncts_ne _ h)
    | number h => cases h <;> simp at hq; exact absurd hq.1 (by assumption)
    | badChar => exact h2 rfl
    | _ => simp at hq
  have := List.length_pos_iff.mpr this
  rw [hs.index, hs.tokenStart]
  omega

/-! ### C03 -/

theorem consume_at_nul {l : Lex} (h : next l.rest = 0) :
    l.consume = .ok { l with tokenStart := l.index, asi := .ImplicitSemicolon, token := .EndOfProgram } := by
  rw [Lex.consume_eq, Lex.scanAll, Lex.scan_succ]
  simp only
  rw [h]
  rfl

/-- C03: the end of the program is reported again by any further number of calls, always with the same
empty span, and a semicolon may be inserted in front of it. -/
theorem C03_end_of_program_stable {src : Bytes} {l : Lex} (h : Lexing src l) (he : l.token = .EndOfProgram) (k : Nat) :
    ∃ l', consumes (k + 1) l = .ok l' ∧ l'.seen = ⟨.EndOfProgram, [], l.index, l.index⟩ ∧
      l'.asi = .ImplicitSemicolon := by
  have hn : next l.rest = 0 := h.wf.eof he
  clear h he
  induction k generalizing l with
  | zero =>
    refine ⟨_, by rw [consumes, consume_at_nul hn]; rfl, ?_, rfl⟩
    simp [Lex.seen, Lex.tokenAsStr, Lex.sliceSource]
  | succ k ih =>
    rw [consumes, consume_at_nul hn]
    exact ih (l := { l with tokenStart := l.index, asi := .ImplicitSemicolon, token := .EndOfProgram }) hn

/-- C03: the end of the program is reported exactly in front of a NUL or the end of the source. -/
theorem C03_end_of_program_iff {src : Bytes} {l l' : Lex} (h : Lexing src l) (h' : l.consume = .ok l') :
    l'.token = .EndOfProgram ↔ next (src.drop l'.tokenStart) = 0 := by
  obtain ⟨g, p, hs, hw, hp⟩ := h.consume_scanned h'
  have ht : l'.tokenStart = l.index + g.length := hs.tokenStart
  have hr : src.drop l.index = g ++ (p ++ l'.rest) := h.wf.rest ▸ hs.rest
  have h4 : src.drop l'.tokenStart = p ++ l'.rest := by
    rw [ht, ← List.drop_drop, hr]; simp
  rw [h4]
  constructor
  · intro he
    have := hs.lexeme
    rw [he] at this
    obtain ⟨rfl, h⟩ := Lexeme.eof_inv this
    simpa using h
  · intro hn
    have := hs.lexeme.shape
    rw [hn] at this
    exact this.1

/-! ### Completeness -/

theorem Lex.WF.scan {src : Bytes} {l : Lex} (h : Lex.WF src l) {g s : Bytes}
    (hr : src.drop l.index = g ++ s) (hg : Trivia g s) :
    ∃ a, l.consume = Lex.scanAll { l.moveTo s (l.index + g.length) with asi := a } := by
  rw [Lex.consume_eq]
  have hl : l.rest = g ++ s := h.rest.trans hr
  obtain ⟨a, ha⟩ := Lex.scanAll_trivia hg { l with asi := .NoSemicolon } hl
  exact ⟨a, ha⟩

theorem Spec.Lexing.scan {src : Bytes} {l : Lex} (h : Lexing src l) {g s : Bytes}
    (hr : src.drop l.index = g ++ s) (hg : Trivia g s) :
    ∃ a, l.consume = Lex.scanAll { l.moveTo s (l.index + g.length) with asi := a } := h.wf.scan hr hg

theorem Lex.WF.finds_lexeme {src : Bytes} {l : Lex} (h : Lex.WF src l) {g p r : Bytes} {t : Token}
    (hr : src.drop l.index = g ++ (p ++ r)) (hg : Trivia g (p ++ r)) (hx : Lexeme t p r) :
    ∃ l', l.consume = .ok l' ∧ l'.seen = ⟨t, p, l.index + g.length, l.index + g.length + p.length⟩ := by
  obtain ⟨a, ha⟩ := h.scan hr hg
  obtain ⟨l', h1, h2, h3, h4, h5, h6⟩ := Lex.scanAll_complete
    (l := { l.moveTo (p ++ r) (l.index + g.length) with asi := a }) hx rfl
  rw [← ha] at h1
  refine ⟨l', h1, ?_⟩
  have h5 : l'.tokenStart = l.index + g.length := h5
  have h6 : l'.index = l.index + g.length + p.length := h6
  have h2 : l'.src = src := h2.trans h.same
  simp only [Lex.seen, h3, h5, h6, Lex.tokenAsStr, Lex.sliceSource, h2, Seen.mk.injEq, true_and, and_true]
  rw [← List.drop_drop, hr]
  simp

/-- The lexer finds every lexeme of the grammar, whatever trivia is in front of it. -/
theorem C08_consume_finds_lexeme {src : Bytes} {l : Lex} (h : Lexing src l) {g p r : Bytes} {t : Token}
    (hr : src.drop l.index = g ++ (p ++ r)) (hg : Trivia g (p ++ r)) (hx : Lexeme t p r) :
    ∃ l', l.consume = .ok l' ∧ l'.seen = ⟨t, p, l.index + g.length, l.index + g.length + p.length⟩ := h.wf.finds_lexeme hr hg hx

/-! ### C08 -/

/-- C08: in front of the same text, other trivia, in the same or in another source, changes neither the kind
nor the text nor the end of the next token. -/
theorem C08_trivia_does_not_matter {src src' : Bytes} {l m : Lex} (hl : Lexing src l) (hm : Lexing src' m)
    {g g' s : Bytes} (hg : Trivia g s) (hg' : Trivia g' s) (hr : src.drop l.index = g ++ s)
    (hr' : src'.drop m.index = g' ++ s) {l' : Lex} (h : l.consume = .ok l') :
    ∃ m', m.consume = .ok m' ∧ m'.token = l'.token ∧ m'.tokenAsStr = l'.tokenAsStr ∧
      src'.drop m'.index = src.drop l'.index := by
  obtain ⟨a, ha⟩ := hl.scan hr hg
  obtain ⟨b, hb⟩ := hm.scan hr' hg'
  rw [h] at ha
  obtain ⟨u, p, hs⟩ := (Lex.scanAll_spec _).of_ok ha.symm
  have e1 : s = u ++ (p ++ l'.rest) := hs.rest
  have hw : Lex.WF src { l.moveTo s (l.index + g.length) with asi := a } :=
    hl.wf.over (p := g) rfl (hl.wf.rest.trans hr) rfl (by have := hl.wf.start; simp [Lex.moveTo]; omega)
      (by
        intro he
        have h0 : next l.rest = 0 := hl.wf.eof he
        rw [consume_at_nul h0] at h
        have h2 : l.rest = g ++ s := hl.wf.rest.trans hr
        cases hg with
        | nil => simpa [h2] using h0
        | cons hp hg =>
          exfalso
          cases hp with
          | space hb => simp [h2, next] at h0; subst h0; exact absurd hb (by decide)
          | line => simp [h2, next] at h0
          | block => simp [h2, next] at h0)
  obtain ⟨hwl, hpl⟩ := hw.scanned hs
  obtain ⟨c, hc⟩ := Lex.scanAll_trivia hs.trivia { m.moveTo s (m.index + g'.length) with asi := b } e1
  obtain ⟨m', h1, h2, h3, h4, h5, h6⟩ := Lex.scanAll_complete
    (l := { m.moveTo (p ++ l'.rest) (m.index + g'.length + u.length) with asi := c }) hs.lexeme rfl
  have hm' : m.consume = .ok m' := hb.trans (hc.trans h1)
  obtain ⟨_, q, hs', hw', hq⟩ := hm.consume_scanned hm'
  refine ⟨m', hm', h3, ?_, ?_⟩
  · rw [hpl, Lex.tokenAsStr, Lex.sliceSource, hw'.same]
    have h5 : m'.tokenStart = m.index + g'.length + u.length := h5
    have h6 : m'.index = m.index + g'.length + u.length + p.length := h6
    rw [h5, h6, ← List.drop_drop, ← List.drop_drop, hr', e1]
    simp
  · rw [← hw'.rest, ← hwl.rest, h4]

/-! ### C04 -/

/-- C04: a maximal run of word bytes is one token. It is the keyword with that text, if there is one, and an
identifier otherwise. -/
theorem C04_word_token {src : Bytes} {l : Lex} (h : Lexing src l) {g r w : Bytes} {c : Byte}
    (hc : wordStart c) (hw : ∀ b ∈ w, wordByte b) (hn : wordByte (next r) = false)
    (hr : src.drop l.index = g ++ (c :: w ++ r)) (hg : Trivia g (c :: w ++ r)) :
    ∃ l', l.consume = .ok l' ∧ l'.tokenAsStr = c :: w ∧
      (∀ k, (c :: w, k) ∈ keywords → l'.token = k) ∧
      ((∀ k, (c :: w, k) ∉ keywords) → l'.token = .Identifier) := by
  obtain ⟨l', h1, h2⟩ := C08_consume_finds_lexeme h hr hg (.word hc hw hn)
  simp only [Lex.seen, Seen.mk.injEq] at h2
  refine ⟨l', h1, h2.2.1, ?_, ?_⟩
  · intro k hk
    rw [h2.1, wordToken]
    have : ∀ x ∈ keywords, keywords.lookup x.1 = some x.2 := by decide +kernel
    rw [this _ hk]
    rfl
  · intro hk
    rw [h2.1, wordToken]
    cases hl : keywords.lookup (c :: w) with
    | none => rfl
    | some k => exact absurd (Lex.mem_of_lookup hl) (hk k)

theorem wordToken_inv {w : Bytes} {k : Token} (h : wordToken w = k) (hk : k ≠ .Identifier) : (w, k) ∈ keywords := by
  rw [wordToken] at h
  cases hl : keywords.lookup w with
  | none => rw [hl] at h; exact absurd h.symm hk
  | some k' => rw [hl] at h; simp at h; subst h; exact Lex.mem_of_lookup hl

/-- C04: the lexer reports a keyword exactly for its own text. -/
theorem C04_keyword_iff_text {src : Bytes} {l l' : Lex} (h : Lexing src l) (h' : l.consume = .ok l')
    {k : Bytes} {t : Token} (hk : (k, t) ∈ keywords) : l'.token = t ↔ l'.tokenAsStr = k := by
  have hx := (C02_only_trivia_between_tokens h h').2
  generalize l'.token = t' at hx
  generalize l'.tokenAsStr = p at hx
  generalize src.drop l'.index = r at hx
  have kp : ∀ x ∈ keywords, ∀ y ∈ puncts, x.2 ≠ y.2 ∧ x.1 ≠ y.1 := by decide +kernel
  have inj : ∀ x ∈ keywords, ∀ y ∈ keywords, x.2 = y.2 → x.1 = y.1 := by decide +kernel
  have fn : ∀ x ∈ keywords, keywords.lookup x.1 = some x.2 := by decide +kernel
  have hd : ∀ x ∈ keywords, wordStart (next x.1) = true := by decide +kernel
  have other : ∀ x ∈ keywords, x.2 ∉ [Token.EndOfProgram, .Identifier, .LiteralNumber, .LiteralBinary, .LiteralString,
    .TemplateClosed, .TemplateOpen, .Accessor, .UnexpectedToken, .UnexpectedEndOfProgram] := by decide +kernel
  have ot := other _ hk
  have hd' := hd _ hk
  simp only at ot hd'
  cases hx with
  | punct hp => exact ⟨fun he => absurd he.symm (kp _ hk _ hp).1, fun he => absurd he.symm (kp _ hk _ hp).2⟩
  | word _ _ _ =>
    constructor
    · intro he
      have := wordToken_inv he (by intro hi; subst hi; simp at ot)
      exact inj _ this _ hk rfl
    · intro he
      rw [he, wordToken, fn _ hk]
      rfl
  | number hn =>
    refine ⟨fun he => absurd he.symm (by intro hi; subst hi; simp at ot), ?_⟩
    rintro rfl
    exfalso
    have hs := (Lexeme.number hn).shape
    have hne : p ≠ [] := by rintro rfl; exact absurd hd' (by decide)
    rw [next_append hne, cls_word hd'] at hs
    have := wordToken_inv hs.1.symm (by decide)
    exact absurd this (by simp [keywords])
  | _ =>
    refine ⟨fun he => absurd he.symm (by intro hi; subst hi; simp at ot), ?_⟩
    rintro rfl
    exfalso
    simp only [next, List.headD_cons, List.cons_append, List.headD_nil] at hd'
    first
      | (revert hd'; decide)
      | (rename_i hq _; rcases hq with rfl | rfl <;> revert hd' <;> decide)
      | (rename_i hq _ _; rcases hq with rfl | rfl <;> revert hd' <;> decide)
      | (rename_i hq; rcases hq with rfl | rfl | rfl <;> revert hd' <;> decide)
      | (have := gt_of_wordStart hd'; rename_i hc _ _ _; simp at this hc; exact absurd this.2.1 (by simpa using hc))

/-! ### C05 -/

/-- C05: a punctuator that cannot be extended to a longer one is one token with exactly its text. -/
theorem C05_longest_match {src : Bytes} {l : Lex} (h : Lexing src l) {g p r : Bytes} {t : Token}
    (hp : (p, t) ∈ puncts) (hmax : ∀ x ∈ puncts, x.1 <+: p ++ r → x.1.length ≤ p.length)
    (hc : p = bs!"/" → next r ≠ #b'/' ∧ next r ≠ #b'*')
    (hr : src.drop l.index = g ++ (p ++ r)) (hg : Trivia g (p ++ r)) :
    ∃ l', l.consume = .ok l' ∧ l'.seen = ⟨t, p, l.index + g.length, l.index + g.length + p.length⟩ :=
  C08_consume_finds_lexeme h hr hg (.punct hp hmax hc)

/-- C05: the token of a punctuator is reported only for its own text, and never when a longer punctuator
matches. -/
theorem C05_punctuator_text {src : Bytes} {l l' : Lex} (h : Lexing src l) (h' : l.consume = .ok l')
    {p : Bytes} {t : Token} (hp : (p, t) ∈ puncts) (ht : l'.token = t) :
    l'.tokenAsStr = p ∧ ∀ x ∈ puncts, x.1 <+: src.drop l'.tokenStart → x.1.length ≤ p.length := by
  have hx := (C02_only_trivia_between_tokens h h').2
  have hd : src.drop l'.tokenStart = l'.tokenAsStr ++ src.drop l'.index := by
    obtain ⟨h1, h2, h3, h4⟩ := C01_token_spans h h'
    rw [h4, slice, List.drop_take]
    have e : src.drop l'.index = (src.drop l'.tokenStart).drop (l'.index - l'.tokenStart) := by
      rw [List.drop_drop]; congr 1; omega
    rw [e, List.take_append_drop]
  rw [hd]
  rw [ht] at hx
  generalize l'.tokenAsStr = q at hx
  generalize src.drop l'.index = r at hx
  have inj : ∀ x ∈ puncts, ∀ y ∈ puncts, x.2 = y.2 → x.1 = y.1 := by decide +kernel
  have kp : ∀ x ∈ keywords, ∀ y ∈ puncts, x.2 ≠ y.2 := by decide +kernel
  have other : ∀ x ∈ puncts, x.2 ∉ [Token.EndOfProgram, .Identifier, .LiteralNumber, .LiteralBinary, .LiteralString,
    .TemplateClosed, .TemplateOpen, .Accessor, .UnexpectedToken, .UnexpectedEndOfProgram] := by decide +kernel
  have ot := other _ hp
  simp only at ot
  generalize ht' : t = t' at hx
  cases hx with
  | punct hq hmax _ =>
    subst ht'
    have := inj _ hq _ hp rfl
    simp only at this
    subst this
    exact ⟨rfl, hmax⟩
  | @word c w _ _ _ _ =>
    exfalso
    have := wordToken_inv ht'.symm (by intro hi; subst hi; simp at ot)
    exact kp _ this _ hp rfl
  | _ => subst ht'; simp at ot

/-- C05: the spelling of every operator is a punctuator or keyword with the token of that operator, so it is
read back as that operator. -/
theorem C05_operator_spelling (op : Op) : ∃ t, Op.fromToken t = some op ∧
    ((op.asStr, t) ∈ puncts ∨ (op.asStr, t) ∈ keywords) := by
  have h : ∀ op ∈ Op.all, ∃ t ∈ Token.all, Op.fromToken t = some op ∧
      ((op.asStr, t) ∈ puncts ∨ (op.asStr, t) ∈ keywords) := by decide +kernel
  obtain ⟨t, -, h⟩ := h op op.mem_all
  exact ⟨t, h⟩

/-- C05: conversely, an operator token is spelled like its operator. -/
theorem C05_operator_token_text {src : Bytes} {l l' : Lex} (h : Lexing src l) (h' : l.consume = .ok l')
    {op : Op} (ho : Op.fromToken l'.token = some op) : l'.tokenAsStr = op.asStr := by
  obtain ⟨t, h1, h2⟩ := C05_operator_spelling op
  obtain ⟨t', -, h4⟩ := C35_token_of_operator op
  have : l'.token = t := (h4 _ ho).trans (h4 _ h1).symm
  rcases h2 with h2 | h2
  · exact (C05_punctuator_text h h' h2 this).1
  · exact (C04_keyword_iff_text h h' h2).mp this

/-! ### C06 -/

/-- C06: a quote starts a string literal that ends at the first unescaped quote of the same kind. -/
theorem C06_string {src : Bytes} {l : Lex} (h : Lexing src l) {g s r : Bytes} {q : Byte}
    (hq : q = #b'"' ∨ q = #b'\'') (hs : StrBody q s)
    (hr : src.drop l.index = g ++ (q :: s ++ [q] ++ r)) (hg : Trivia g (q :: s ++ [q] ++ r)) :
    ∃ l', l.consume = .ok l' ∧
      l'.seen = ⟨.LiteralString, q :: s ++ [q], l.index + g.length, l.index + g.length + (s.length + 2)⟩ := by
  obtain ⟨l', h1, h2⟩ := C08_consume_finds_lexeme h hr hg (.string hq hs)
  exact ⟨l', h1, by rw [h2]; simp⟩

/-- C06: without such a quote before the end or a NUL the token is the unexpected end of the program. -/
theorem C06_open_string {src : Bytes} {l : Lex} (h : Lexing src l) {g s e r : Bytes} {q : Byte}
    (hq : q = #b'"' ∨ q = #b'\'') (hs : StrBody q s) (he : e = [] ∨ e = [#b'\\']) (hn : next r = 0)
    (hr : src.drop l.index = g ++ ((q :: s ++ e) ++ r)) (hg : Trivia g ((q :: s ++ e) ++ r)) :
    ∃ l', l.consume = .ok l' ∧ l'.token = .UnexpectedEndOfProgram := by
  have hx : Lexeme .UnexpectedEndOfProgram (q :: s ++ e) r := by
    rcases he with rfl | rfl
    · simpa using Lexeme.openString hq hs hn
    · exact .openStringEsc hq hs hn
  obtain ⟨l', h1, h2⟩ := C08_consume_finds_lexeme h hr hg hx
  exact ⟨l', h1, by simp only [Lex.seen, Seen.mk.injEq] at h2; exact h2.1⟩

/-- C06: every string token has this form. -/
theorem C06_string_text {src : Bytes} {l l' : Lex} (h : Lexing src l) (h' : l.consume = .ok l')
    (ht : l'.token = .LiteralString) :
    ∃ q s, (q = #b'"' ∨ q = #b'\'') ∧ StrBody q s ∧ l'.tokenAsStr = q :: s ++ [q] := by
  have hx := (C02_only_trivia_between_tokens h h').2
  rw [ht] at hx
  generalize l'.tokenAsStr = p at hx
  generalize src.drop l'.index = r at hx
  generalize ht' : Token.LiteralString = t' at hx
  cases hx with
  | punct hp => subst ht'; exact absurd hp (by revert p; simp [puncts])
  | word _ _ _ => exact absurd (wordToken_inv ht'.symm (by decide)) (by simp [keywords])
  | string hq hs => exact ⟨_, _, hq, hs, rfl⟩
  | _ => simp at ht'

/-! ### C07 -/

/-- C07: number literals. -/
theorem C07_number {src : Bytes} {l : Lex} (h : Lexing src l) {g p r : Bytes} (hp : Number p r)
    (hr : src.drop l.index = g ++ (p ++ r)) (hg : Trivia g (p ++ r)) :
    ∃ l', l.consume = .ok l' ∧ l'.seen = ⟨.LiteralNumber, p, l.index + g.length, l.index + g.length + p.length⟩ :=
  C08_consume_finds_lexeme h hr hg (.number hp)

/-- C07: binary literals. -/
theorem C07_binary {src : Bytes} {l : Lex} (h : Lexing src l) {g ds r : Bytes} {x : Byte}
    (hx : x = #b'b' ∨ x = #b'B') (hd : ∀ b ∈ ds, isBinaryDigit b) (hn : isBinaryDigit (next r) = false)
    (hr : src.drop l.index = g ++ (#b'0' :: x :: ds ++ r)) (hg : Trivia g (#b'0' :: x :: ds ++ r)) :
    ∃ l', l.consume = .ok l' ∧ l'.token = .LiteralBinary ∧ l'.tokenAsStr = #b'0' :: x :: ds := by
  obtain ⟨l', h1, h2⟩ := C08_consume_finds_lexeme h hr hg (.binary hx hd hn)
  simp only [Lex.seen, Seen.mk.injEq] at h2
  exact ⟨l', h1, h2.1, h2.2.1⟩

/-- C07: every number token has this form. -/
theorem C07_number_text {src : Bytes} {l l' : Lex} (h : Lexing src l) (h' : l.consume = .ok l')
    (ht : l'.token = .LiteralNumber) : Number l'.tokenAsStr (src.drop l'.index) := by
  have hx := (C02_only_trivia_between_tokens h h').2
  rw [ht] at hx
  generalize l'.tokenAsStr = p at hx
  generalize src.drop l'.index = r at hx
  generalize ht' : Token.LiteralNumber = t' at hx
  cases hx with
  | punct hp => subst ht'; exact absurd hp (by revert p; simp [puncts])
  | word _ _ _ => exact absurd (wordToken_inv ht'.symm (by decide)) (by simp [keywords])
  | number hn => exact hn
  | _ => simp at ht'

/-! ### C09 -/

/-- C09, proved part: when the text between two tokens has a line break and consists of white space and line
comments only, a semicolon may be inserted. Missing: block comments (see `C09_block_comment_hides_line_break`). -/
theorem C09_line_break_partial {src : Bytes} {l l' : Lex} (h : Lexing src l) (h' : l.consume = .ok l')
    (hg : LineTrivia (slice src l.index l'.tokenStart) (src.drop l'.tokenStart))
    (hn : #b'\n' ∈ slice src l.index l'.tokenStart) : l'.asi ≠ .NoSemicolon := by
  obtain ⟨g, p, hs, hw, hp⟩ := h.consume_scanned h'
  have h2 : src.drop l.index = g ++ (p ++ l'.rest) := h.wf.rest ▸ hs.rest
  have ht : l'.tokenStart = l.index + g.length := hs.tokenStart
  have h3 : slice src l.index l'.tokenStart = g := by
    rw [slice, List.drop_take, ht, h2]; simp
  have h4 : src.drop l'.tokenStart = p ++ l'.rest := by
    rw [ht, ← List.drop_drop, h2]; simp
  rw [h3] at hg hn
  rw [h4] at hg
  have hsh := hs.lexeme.shape
  have hns : isSpace (next (p ++ l'.rest)) = false := by
    cases hc : isSpace (next (p ++ l'.rest)) with
    | false => rfl
    | true => rw [cls_space hc] at hsh; exact hsh.elim
  obtain ⟨a, ha, hab⟩ := Lex.scanAll_lineTrivia hg hns { l with asi := .NoSemicolon } (h.wf.rest.trans h2)
  rw [Lex.consume_eq, ha] at h'
  rcases hab (Or.inr hn) with rfl | hz
  · -- the lexer never takes back the flag inside one token
    have hc := Lex.scanAll_cases { l.moveTo (p ++ l'.rest) (l.index + g.length) with asi := .ImplicitSemicolon }
    rcases hc with ⟨q, s, hq, hl, hne⟩ | hd
    · have : Trivia q s := by simpa using Trivia.cons (g := []) (by simpa using hq) .nil
      exact absurd (hs.lexeme.no_trivia this hl) hne
    · obtain ⟨p', ho, -⟩ := hd.of_ok h'
      rw [ho.asi, Lex.asiAt]
      split <;> simp
  · rw [hz] at hsh
    exact hs.closes (by rw [hsh.1]; rfl)

/-- C09, the converse: a semicolon may be inserted only after a line break or in front of `;`, `)`, `}` and the end. -/
theorem C09_only_after_line_break {src : Bytes} {l l' : Lex} (h : Lexing src l) (h' : l.consume = .ok l')
    (ha : l'.asi ≠ .NoSemicolon) :
    l'.token ∈ [Token.Semicolon, .ParenClose, .BraceClose, .EndOfProgram] ∨ #b'\n' ∈ slice src l.index l'.tokenStart := by
  obtain ⟨g, p, hs, hw, hp⟩ := h.consume_scanned h'
  have h2 : src.drop l.index = g ++ (p ++ l'.rest) := h.wf.rest ▸ hs.rest
  have ht : l'.tokenStart = l.index + g.length := hs.tokenStart
  have h3 : slice src l.index l'.tokenStart = g := by
    rw [slice, List.drop_take, ht, h2]; simp
  rw [h3]
  rcases hs.asi ha with h | h | h
  · left
    revert h
    generalize l'.token = t
    cases t <;> simp [closes]
  · exact absurd rfl h
  · exact Or.inr h

/-- C09: in front of `;`, `)`, `}` and the end a semicolon may always be inserted; `;` is an explicit one. -/
theorem C09_closing_tokens {src : Bytes} {l l' : Lex} (h : Lexing src l) (h' : l.consume = .ok l') :
    (l'.token ∈ [Token.Semicolon, .ParenClose, .BraceClose, .EndOfProgram] → l'.asi ≠ .NoSemicolon) ∧
    (l'.token = .Semicolon → l'.asi = .ExplicitSemicolon) := by
  obtain ⟨g, p, hs, hw, hp⟩ := h.consume_scanned h'
  refine ⟨fun ht => hs.closes ?_, hs.explicit⟩
  simp at ht
  rcases ht with ht | ht | ht | ht <;> rw [ht] <;> rfl

/-! ### C10 -/

theorem trivia_first {g s : Bytes} (h : Trivia g s) (hne : g ≠ []) :
    cls (next (g ++ s)) = .space ∨ cls (next (g ++ s)) = .slash := by
  cases h with
  | nil => exact absurd rfl hne
  | cons hp _ =>
    cases hp with
    | space hb => left; exact cls_space hb
    | line _ _ => right; rfl
    | block _ _ => right; rfl

theorem readsBehind_first {s : Bytes} (h : ReadsBehind s) : cls (next s) = .tick ∨ cls (next s) = .dot ∨ cls (next s) = .uni := by
  cases h with
  | template _ => exact Or.inl rfl
  | dot _ => exact Or.inr (Or.inl rfl)
  | char h =>
    cases s with
    | nil => exact h.elim
    | cons c s => exact Or.inr (Or.inr (cls_uni h.1))

theorem panics_first {s : Bytes} (h : Panics s) : cls (next s) = .dot := by
  cases h; rfl

theorem not_both {s : Bytes} (h : ReadsBehind s) (h' : Panics s) : False := by
  cases h' with
  | @dot u c r hu hc =>
    generalize he : #b'.' :: u ++ c :: r = s at h
    cases h with
    | template _ => simp at he
    | dot h =>
      simp at he
      have := h c (by rw [← he]; simp)
      rw [UInt8.le_iff_toNat_le] at this hc
      have : (128 : UInt8).toNat = 128 := rfl
      have : (0x20 : UInt8).toNat = 32 := rfl
      omega
    | char h =>
      rw [← he] at h
      exact absurd h.1 (by decide)

theorem Lex.WF.reads_outside_iff {src : Bytes} {l : Lex} (h : Lex.WF src l) :
    l.consume = .oob ↔ ∃ g s, src.drop l.index = g ++ s ∧ Trivia g s ∧ ReadsBehind s := by
  constructor
  · intro ho
    have hs := Lex.scanAll_spec { l with asi := .NoSemicolon }
    rw [← Lex.consume_eq, ho] at hs
    obtain ⟨g, s, h1, h2⟩ := hs
    exact ⟨g, s, h.rest ▸ h1, h2⟩
  · rintro ⟨g, s, hr, hg, hb⟩
    obtain ⟨a, ha⟩ := h.scan hr hg
    rw [ha]
    have hs := Lex.scanAll_spec { l.moveTo s (l.index + g.length) with asi := a }
    have noTrivia : ∀ {u x : Bytes}, s = u ++ x → Trivia u x → u = [] := by
      intro u x he hu
      cases u with
      | nil => rfl
      | cons b u =>
        exfalso
        have h1 := trivia_first hu (by simp)
        have h2 := readsBehind_first hb
        rw [he] at h2
        rcases h1 with h1 | h1 <;> rw [h1] at h2 <;> simp at h2
    cases hx : Lex.scanAll { l.moveTo s (l.index + g.length) with asi := a } with
    | oob => rfl
    | ok l' =>
      exfalso
      rw [hx] at hs
      obtain ⟨u, p, hsc⟩ := hs
      have e : s = u ++ (p ++ l'.rest) := hsc.rest
      have := noTrivia e hsc.trivia
      subst this
      rw [e] at hb
      exact hsc.lexeme.not_readsBehind (by simpa using hb)
    | panic =>
      exfalso
      rw [hx] at hs
      obtain ⟨u, x, e, hu, hp⟩ := hs
      have := noTrivia e hu
      subst this
      have e : s = x := by simpa [Lex.moveTo] using e
      subst e
      exact not_both hb hp
    | timeout => rw [hx] at hs; exact hs.elim

/-- C10: `consume` reads outside of the source buffer exactly when, after the trivia, there is a template that
is never closed or a dot followed by nothing but white space (or text that is not UTF-8). -/
theorem C10_consume_reads_outside_iff {src : Bytes} {l : Lex} (h : Lexing src l) :
    l.consume = .oob ↔ ∃ g s, src.drop l.index = g ++ s ∧ Trivia g s ∧ ReadsBehind s := h.wf.reads_outside_iff

theorem Lex.WF.panics_iff {src : Bytes} {l : Lex} (h : Lex.WF src l) :
    l.consume = .panic ↔ ∃ g s, src.drop l.index = g ++ s ∧ Trivia g s ∧ Panics s := by
  constructor
  · intro ho
    have hs := Lex.scanAll_spec { l with asi := .NoSemicolon }
    rw [← Lex.consume_eq, ho] at hs
    obtain ⟨g, s, h1, h2⟩ := hs
    exact ⟨g, s, h.rest ▸ h1, h2⟩
  · rintro ⟨g, s, hr, hg, hb⟩
    obtain ⟨a, ha⟩ := h.scan hr hg
    rw [ha]
    have hs := Lex.scanAll_spec { l.moveTo s (l.index + g.length) with asi := a }
    have noTrivia : ∀ {u x : Bytes}, s = u ++ x → Trivia u x → u = [] := by
      intro u x he hu
      cases u with
      | nil => rfl
      | cons b u =>
        exfalso
        have h1 := trivia_first hu (by simp)
        have h2 := panics_first hb
        rw [he] at h2
        rcases h1 with h1 | h1 <;> rw [h1] at h2 <;> simp at h2
    cases hx : Lex.scanAll { l.moveTo s (l.index + g.length) with asi := a } with
    | panic => rfl
    | ok l' =>
      exfalso
      rw [hx] at hs
      obtain ⟨u, p, hsc⟩ := hs
      have e : s = u ++ (p ++ l'.rest) := hsc.rest
      have := noTrivia e hsc.trivia
      subst this
      rw [e] at hb
      exact hsc.lexeme.not_panics (by simpa using hb)
    | oob =>
      exfalso
      rw [hx] at hs
      obtain ⟨u, x, e, hu, hp⟩ := hs
      have := noTrivia e hu
      subst this
      have e : s = x := by simpa [Lex.moveTo] using e
      subst e
      exact not_both hp hb
    | timeout => rw [hx] at hs; exact hs.elim

/-- C17 for the lexer: `consume` panics exactly when, after the trivia, there is a dot followed (after white
space) by a non-ASCII byte. -/
theorem C17_consume_panics_iff {src : Bytes} {l : Lex} (h : Lexing src l) :
    l.consume = .panic ↔ ∃ g s, src.drop l.index = g ++ s ∧ Trivia g s ∧ Panics s := h.wf.panics_iff

/-- C16 for the lexer: every call of `consume` returns. -/
theorem C16_consume_terminates (l : Lex) : l.consume ≠ .timeout := by
  intro h
  have hs := Lex.scanAll_spec { l with asi := .NoSemicolon }
  rw [← Lex.consume_eq, h] at hs
  exact hs

theorem templateGo_of_body {s : Bytes} (h : TplBody s) : ∀ i, Lex.templateGo s i = none := by
  induction h with
  | nil => intro i; rfl
  | plain h1 h2 h3 h ih => intro i; rw [Lex.templateGo.eq_def]; simp [h1, h2, h3, ih]
  | @dollar r h1 h ih =>
    intro i
    rw [Lex.templateGo.eq_def]
    cases r with
    | nil => rfl
    | cons c r =>
      simp at h1
      simp [h1, ih]
  | esc h1 h ih => intro i; rw [Lex.templateGo.eq_def]; simp [h1, ih]

/-- C10: `read_template_kind` reads outside of the source buffer exactly when the template is never closed. -/
theorem C10_template_reads_outside_iff {src : Bytes} {l : Lex} (h : Lexing src l) :
    l.readTemplateKind = .oob ↔ TplBody (src.drop l.index) := by
  rw [← h.wf.rest]
  constructor
  · intro ho
    have := Lex.readTemplateKind_spec l
    rw [ho] at this
    exact Lex.templateGo_none this
  · intro hb
    rw [Lex.readTemplateKind, templateGo_of_body hb]

theorem regexGo_of_scan {a b : Bool} {p : Bytes} (h : RegexScan a p b) (s : Bytes) :
    ∀ i, Lex.regexGo a (p ++ s) i = Lex.regexGo b s (i + p.length) := by
  induction h with
  | nil => intro i; rfl
  | openClass h ih => intro i; rw [List.cons_append, Lex.regexGo.eq_def]; simp [ih]; congr 1; omega
  | closeClass h ih => intro i; rw [List.cons_append, Lex.regexGo.eq_def]; simp [ih]; congr 1; omega
  | slash h ih => intro i; rw [List.cons_append, Lex.regexGo.eq_def]; simp [ih]; congr 1; omega
  | esc hc h ih => intro i; rw [List.cons_append, Lex.regexGo.eq_def]; simp [hc, ih]; congr 1; omega
  | plain hc h ih =>
    intro i
    simp at hc
    rw [List.cons_append, Lex.regexGo.eq_def]
    simp [hc, ih]
    congr 1; omega

/-- C10: `read_regular_expression` reads outside of the source buffer exactly when the expression is never
closed. -/
theorem C10_regex_reads_outside_iff {src : Bytes} {l : Lex} (h : Lexing src l) :
    l.readRegularExpression = .oob ↔ ∃ b, RegexScan false (src.drop l.index) b := by
  rw [← h.wf.rest]
  constructor
  · intro ho
    have := readRegularExpression_spec l
    rw [ho] at this
    exact this
  · rintro ⟨b, hb⟩
    have := regexGo_of_scan hb [] l.index
    rw [List.append_nil] at this
    rw [Lex.readRegularExpression, this]
    rfl

/-! ### C38 -/

/-- C38: a regular expression literal ends at the first unescaped slash outside of a character class; its flags
are the longest run of flag letters behind it. The text returned starts one byte before the current position, at the
opening slash. -/
theorem C38_regex {src : Bytes} {l : Lex} (h : Lexing src l) {p fs r : Bytes} (hp : RegexScan false p false)
    (hf : ∀ b ∈ fs, isFlag b) (hn : isFlag (next r) = false) (hr : src.drop l.index = p ++ #b'/' :: (fs ++ r)) :
    ∃ l' v, l.readRegularExpression = .ok (l', v) ∧ l'.token = .LiteralRegEx ∧
      l'.index = l.index + p.length + 1 + fs.length ∧ v = slice src (l.index - 1) l'.index := by
  have hg : Lex.regexGo false l.rest l.index = some (.LiteralRegEx, fs ++ r, l.index + p.length + 1) := by
    rw [h.wf.rest, hr, regexGo_of_scan hp, Lex.regexGo.eq_def]
    rfl
  have hi : (Lex.skipWhile Lex.regexFlag (l.moveTo (fs ++ r) (l.index + p.length + 1))).index =
      l.index + p.length + 1 + fs.length := by
    have ho := Lex.over_skipWhile Lex.regexFlag (l.moveTo (fs ++ r) (l.index + p.length + 1))
    rw [ho.index]
    simp only [Lex.moveTo]
    congr 2
    rw [regexFlag_eq, List.takeWhile_append_of_pos hf]
    cases r with
    | nil => simp
    | cons c r =>
      have : isFlag c = false := hn
      simp [this]
  refine ⟨(Lex.skipWhile Lex.regexFlag (l.moveTo (fs ++ r) (l.index + p.length + 1))).setToken .LiteralRegEx, _,
    by rw [Lex.readRegularExpression, hg], rfl, hi, ?_⟩
  simp only [Lex.setToken, hi, Lex.sliceSource]
  rw [show (Lex.skipWhile Lex.regexFlag (l.moveTo (fs ++ r) (l.index + p.length + 1))).src = src from h.wf.same, slice, List.drop_take]

/-- C38: every regular expression literal has this form. -/
theorem C38_regex_text {src : Bytes} {l l' : Lex} {v : Bytes} (h : Lexing src l)
    (h' : l.readRegularExpression = .ok (l', v)) (ht : l'.token = .LiteralRegEx) :
    v = slice src (l.index - 1) l'.index ∧
    ∃ p fs, slice src l.index l'.index = p ++ #b'/' :: fs ∧ RegexScan false p false ∧ (∀ b ∈ fs, isFlag b) ∧
      isFlag (next (src.drop l'.index)) = false := by
  obtain ⟨p, c, q, h1, ho, hx⟩ := (readRegularExpression_spec _).of_ok h'
  simp only at ho hx
  have hw : l'.WF src := (Lexing.regex h h').wf
  have hrest := ho.rest
  rw [h.wf.rest] at hrest
  rw [ht] at hx
  rcases hx with ⟨-, rfl, ⟨fs, rfl, hf⟩, hn, hv⟩ | ⟨ht, -⟩ | ⟨ht, -⟩
  · refine ⟨by rw [hv, Lex.sliceSource, h.wf.same, slice, List.drop_take], p, fs, ?_, h1, hf, by rw [← hw.rest]; exact hn⟩
    rw [slice, List.drop_take, hrest, ho.index, Nat.add_sub_cancel_left, List.take_left]
  · simp at ht
  · simp at ht

end Ratel
