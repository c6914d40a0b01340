import Verif.Lemmas.Truncate
/-! Properties of the parser that hold for every run: C11, C12, and C10, C17 for `parse`. -/
namespace Ratel
open Spec

set_option linter.unusedSectionVars false
variable [Unicode]

/-! ### C11 -/

/-- C11: `parse` succeeds exactly when its run recorded no error. -/
theorem C11_ok_iff_no_error (fuel : Nat) (src : Bytes) (m : List Stmt) :
    parse fuel src = .ok (.ok m) ↔ ∃ s, runParser fuel src = .ok (m, s) ∧ s.errors = [] := by
  unfold parse
  cases h : runParser fuel src with
  | ok x =>
    obtain ⟨b, s⟩ := x
    by_cases he : s.errors = []
    · simp [Out.bind, he]
      constructor
      · rintro rfl; exact ⟨s, ⟨rfl, rfl⟩, he⟩
      · rintro ⟨s', ⟨rfl, -⟩, -⟩; rfl
    · simp [Out.bind, he]
  | _ => simp [Out.bind]

/-- C11: otherwise it returns all recorded errors, at least one. -/
theorem C11_error_iff_errors (fuel : Nat) (src : Bytes) (es : List Err) :
    parse fuel src = .ok (.error es) ↔ ∃ m s, runParser fuel src = .ok (m, s) ∧ s.errors = es ∧ es ≠ [] := by
  unfold parse
  cases h : runParser fuel src with
  | ok x =>
    obtain ⟨b, s⟩ := x
    by_cases he : s.errors = []
    · simp [Out.bind, he]
    · simp [Out.bind, he]
      constructor
      · rintro rfl; exact ⟨b, s, ⟨rfl, rfl⟩, rfl, he⟩
      · rintro ⟨b', s', ⟨rfl, rfl⟩, h, -⟩; exact h
  | _ => simp [Out.bind]

theorem PStep.errors {s t : PState} (h : PStep s t) : s.errors <+: t.errors := by
  cases h with
  | error h => exact List.prefix_append ..
  | _ => exact List.prefix_refl _

theorem PSteps.errors {s t : PState} (h : PSteps s t) : s.errors <+: t.errors := by
  induction h with
  | refl => exact List.prefix_refl _
  | step _ h' ih => exact ih.trans h'.errors

theorem known_steps {α : Type} (m : P α) (h : ∀ src, Known src m) {s s' : PState} {a : α} (hr : m s = .ok (a, s')) :
    PSteps s s' := (h []).is.steps hr

/-- C11: recorded errors are never dropped, by no procedure of the parser, in whatever state it is
called. -/
theorem C11_errors_never_dropped (fuel : Nat) {s s' : PState} :
    (∀ c lvl e, (procs fuel).expr c lvl s = .ok (e, s') → s.errors <+: s'.errors) ∧
    (∀ st, (procs fuel).stmt s = .ok (st, s') → s.errors <+: s'.errors) ∧
    (∀ p, (procs fuel).patArray s = .ok (p, s') → s.errors <+: s'.errors) ∧
    (∀ p, (procs fuel).property s = .ok (p, s') → s.errors <+: s'.errors) ∧
    (∀ b, program fuel (procs fuel) s = .ok (b, s') → s.errors <+: s'.errors) :=
  ⟨fun _ _ _ h => (known_steps _ (fun _ => inferInstance) h).errors,
    fun _ h => (known_steps _ (fun _ => inferInstance) h).errors,
    fun _ h => (known_steps _ (fun _ => inferInstance) h).errors,
    fun _ h => (known_steps _ (fun _ => inferInstance) h).errors,
    fun _ h => (known_steps _ (fun _ => inferInstance) h).errors⟩

/-- C11: reporting an error records it. -/
theorem C11_error_recorded {s s' : PState} (h : error s = .ok ((), s')) :
    ∃ e, s'.errors = s.errors ++ [e] ∧ e.token = s.lex.token ∧ e.start = s.lex.tokenStart ∧ e.stop = s.lex.index := by
  unfold error at h
  cases hc : s.lex.invalidToken with
  | ok x =>
    obtain ⟨e, l⟩ := x
    simp [hc, Out.bind] at h
    subst h
    refine ⟨e, rfl, ?_⟩
    rw [(invalidToken_ok hc).2]
    exact ⟨rfl, rfl, rfl⟩
  | _ => simp [hc, Out.bind] at h

/-! ### C12 -/

/-- The states of the parser on `src`. -/
structure Parsing (src : Bytes) (s : PState) : Prop where
  lexing : Lexing src s.lex
  errors : ∀ e ∈ s.errors, e.stop ≤ s.lex.tokenStart ∧
    ∃ l, Lexing src l ∧ l.seen = ⟨e.token, e.raw, e.start, e.stop⟩
  order : s.errors.Pairwise fun a b => a.stop ≤ b.start

theorem Spec.Lexing.eof_empty {src : Bytes} {l : Lex} (h : Lexing src l) (he : l.token = .EndOfProgram) :
    l.index = l.tokenStart := by
  have hx := h.lexeme (by simp [he]) (by simp [he]) (by simp [he]) (by simp [he]) (by simp [he])
  rw [he] at hx
  have := (Lexeme.eof_inv hx).1
  rw [h.wf.text, slice] at this
  have := congrArg List.length this
  simp at this
  have := h.wf.index
  have := h.wf.start
  omega

theorem PStep.tokenStart {src : Bytes} {s t : PState} (h : PStep s t) (hs : Lexing src s.lex) :
    s.lex.tokenStart ≤ t.lex.tokenStart := by
  have hc : ∀ {l}, s.lex.consume = .ok l → s.lex.tokenStart ≤ l.tokenStart := fun h =>
    Nat.le_trans hs.wf.start (C01_token_spans hs h).1
  cases h with
  | consume h => exact hc h
  | template h =>
    obtain ⟨p, q, -, ho, -⟩ := (Lex.readTemplateKind_spec _).of_ok h
    exact Nat.le_of_eq ho.tokenStart.symm
  | regex h =>
    obtain ⟨p, c, q, -, ho, -⟩ := (readRegularExpression_spec _).of_ok h
    exact Nat.le_of_eq ho.tokenStart.symm
  | error h =>
    rcases (invalidToken_ok h).1 with ⟨-, rfl⟩ | ⟨-, h⟩
    · exact Nat.le_refl _
    · exact hc h

theorem PStep.parsing {src : Bytes} {s t : PState} (h : PStep s t) (hs : Parsing src s) : Parsing src t := by
  have hl := h.lexing hs.lexing
  have ht := h.tokenStart hs.lexing
  cases h with
  | @error l e h =>
    obtain ⟨h, he⟩ := invalidToken_ok h
    have hsrc : l.src = s.lex.src := hl.wf.same.trans hs.lexing.wf.same.symm
    have hstop : s.lex.index ≤ l.tokenStart := by
      rcases h with ⟨hte, rfl⟩ | ⟨-, h⟩
      · exact Nat.le_of_eq (hs.lexing.eof_empty hte)
      · exact (C01_token_spans hs.lexing h).1
    refine ⟨hl, ?_, ?_⟩
    · intro e' he'
      simp only [List.mem_append, List.mem_singleton] at he'
      rcases he' with he' | rfl
      · obtain ⟨h1, h2⟩ := hs.errors e' he'
        exact ⟨Nat.le_trans h1 ht, h2⟩
      · refine ⟨by rw [he]; exact hstop, s.lex, hs.lexing, ?_⟩
        rw [he]
        simp [Lex.seen, Lex.tokenAsStr, Lex.sliceSource, hsrc]
    · refine List.pairwise_append.2 ⟨hs.order, by simp, ?_⟩
      intro a ha b hb
      simp at hb
      subst hb
      rw [he]
      exact (hs.errors a ha).1
  | _ => exact ⟨hl, fun e he => ⟨Nat.le_trans (hs.errors e he).1 ht, (hs.errors e he).2⟩, hs.order⟩

theorem PSteps.parsing {src : Bytes} {s t : PState} (h : PSteps s t) (hs : Parsing src s) : Parsing src t := by
  induction h with
  | refl => exact hs
  | step _ h' ih => exact h'.parsing ih

theorem runParser_ok {fuel : Nat} {src : Bytes} {b : List Stmt} {s : PState} (h : runParser fuel src = .ok (b, s)) :
    ∃ l, Lex.new src = .ok l ∧ program fuel (procs fuel) ⟨l, []⟩ = .ok (b, s) := by
  unfold runParser at h
  cases hn : Lex.new src with
  | ok l => simp [hn, Out.bind] at h; exact ⟨l, rfl, h⟩
  | _ => simp [hn, Out.bind] at h

theorem runParser_parsing {fuel : Nat} {src : Bytes} {b : List Stmt} {s : PState} (h : runParser fuel src = .ok (b, s)) :
    Parsing src s := by
  obtain ⟨l, hl, h⟩ := runParser_ok h
  refine (known_steps _ (fun _ => inferInstance) h).parsing ⟨.new hl, by simp, by simp⟩

/-- C12: every reported error lies in the source, carries the source text of its span, and describes a token
that the lexer produced. -/
theorem C12_errors_point_into_source {fuel : Nat} {src : Bytes} {es : List Err}
    (h : parse fuel src = .ok (.error es)) (e : Err) (he : e ∈ es) :
    e.start ≤ e.stop ∧ e.stop ≤ src.length ∧ e.raw = slice src e.start e.stop ∧
    ∃ l, Lexing src l ∧ l.seen = ⟨e.token, e.raw, e.start, e.stop⟩ := by
  obtain ⟨m, s, hr, rfl, -⟩ := (C11_error_iff_errors ..).1 h
  obtain ⟨-, l, hl, hx⟩ := (runParser_parsing hr).errors e he
  have hw := hl.wf
  simp only [Lex.seen, Seen.mk.injEq] at hx
  obtain ⟨h1, h2, h3, h4⟩ := hx
  refine ⟨?_, ?_, ?_, l, hl, by simp [Lex.seen, *]⟩
  · rw [← h3, ← h4]; exact hw.start
  · rw [← h4]; exact hw.index
  · rw [← h2, hw.text, h3, h4]

/-- C12: errors are reported in source order and do not overlap. -/
theorem C12_errors_in_source_order {fuel : Nat} {src : Bytes} {es : List Err}
    (h : parse fuel src = .ok (.error es)) : es.Pairwise fun a b => a.stop ≤ b.start := by
  obtain ⟨m, s, hr, rfl, -⟩ := (C11_error_iff_errors ..).1 h
  exact (runParser_parsing hr).order

/-! ### C10 and C17 for `parse` -/

theorem parse_bad {fuel : Nat} {src : Bytes} :
    (parse fuel src = .panic → Lex.new src = .panic ∨ ∃ l, Lexing src l ∧ l.consume = .panic) ∧
    (parse fuel src = .oob → Lex.new src = .oob ∨ ∃ l, Lexing src l ∧
      (l.consume = .oob ∨ (l.token = .BraceClose ∧ l.readTemplateKind = .oob) ∨
        (l.token = .OperatorDivision ∧ l.readRegularExpression = .oob))) := by
  unfold parse runParser
  cases hn : Lex.new src with
  | ok l =>
    have := (Known.is : IsProg src _ (program fuel (procs fuel))).bad (s := ⟨l, []⟩) (.new hn) trivial
    simp only [Out.bind]
    cases hp : program fuel (procs fuel) ⟨l, []⟩ with
    | panic => exact ⟨fun _ => .inr (this.1 hp), nofun⟩
    | oob => exact ⟨nofun, fun _ => .inr (this.2 hp)⟩
    | ok x => exact ⟨nofun, nofun⟩
    | timeout => exact ⟨nofun, nofun⟩
  | panic => exact ⟨fun _ => .inl rfl, nofun⟩
  | oob => exact ⟨nofun, fun _ => .inl rfl⟩
  | timeout => exact ⟨nofun, nofun⟩

/-- C17, partial: `parse` panics only if the source contains a dot that is followed, after white space or NULs,
by a non-ASCII byte. (The full property, no panic at all, is false: see `C17_parse_panics`.) -/
theorem C17_no_panic_partial {fuel : Nat} {src : Bytes} (h : parse fuel src = .panic) :
    ∃ a s, src = a ++ s ∧ Panics s := by
  rcases parse_bad.1 h with h | ⟨l, hl, h⟩
  · rw [Lex.new, Lex.consume_eq] at h
    have hs := Lex.scanAll_spec { Lex.init src with asi := .NoSemicolon }
    rw [h] at hs
    obtain ⟨g, s, h1, -, h2⟩ := hs
    exact ⟨g, s, h1, h2⟩
  · obtain ⟨g, s, h1, -, h2⟩ := (C17_consume_panics_iff hl).1 h
    exact ⟨src.take l.index ++ g, s, by rw [List.append_assoc, ← h1, List.take_append_drop], h2⟩

/-- C17, partial: parsing ASCII text never panics. -/
theorem C17_ascii_no_panic_partial (fuel : Nat) {src : Bytes} (h : ∀ b ∈ src, b < 128) : parse fuel src ≠ .panic := by
  intro hp
  obtain ⟨a, s, rfl, hs⟩ := C17_no_panic_partial hp
  cases hs with
  | @dot s c r _ hc =>
    have := h c (by simp)
    exact absurd hc (UInt8.not_le.2 this)

/-! ### C36 -/

/-- C36: what follows a NUL in the source does not matter, if `parse` on the text in front of it returns without
reading outside of its buffer. -/
theorem C36_nul_ends_source {fuel : Nat} {src t : Bytes} (h : parse fuel src ≠ .oob) (h' : parse fuel src ≠ .timeout) :
    parse fuel (src ++ 0 :: t) = parse fuel src := parse_ext (z := 0 :: t) rfl h h'

end Ratel
