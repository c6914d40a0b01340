import Verif.Lemmas.HaltAll
import Verif.Props.Termination
import Verif.Lemmas.Ticks
import Verif.Lemmas.Cut
import Verif.Lemmas.Decode
/-! C10, C16: the sources that `parse` may read outside of, and those on which it always returns. -/
namespace Ratel
open Spec

set_option linter.unusedSectionVars false
variable [Unicode]

theorem parse_oob {fuel : Nat} {src : Bytes} (h : parse fuel src = .oob) : Lex.new src = .oob ∨ ReadsOut src := by
  unfold parse runParser at h
  cases hn : Lex.new src with
  | ok l =>
    right
    rw [hn] at h
    simp only [Out.bind] at h
    have := procs_nobs (src := src) fuel
    have := procs_known (src := src) fuel
    have ht : Ticked src l := by
      refine ⟨.new hn, fun ht => ?_⟩
      have hc : (Lex.init src).consume = .ok l := hn
      obtain ⟨-, hx⟩ := C02_only_trivia_before_first_token hn
      have hsp := C01_first_token_span hn
      rw [ht] at hx
      have hm := hx.openTick
      rw [hsp.2.2] at hm
      exact List.mem_of_mem_drop hm
    have hp := (Nobs.is (m := program fuel (procs fuel)) l ht []).1.1
    generalize program fuel (procs fuel) { lex := l, errors := [] } = x at h hp
    cases x with
    | oob => exact hp rfl
    | _ => simp at h
  | oob => exact .inl rfl
  | panic => rw [hn] at h; simp [Out.bind] at h
  | timeout => rw [hn] at h; simp [Out.bind] at h

theorem parse_oob_where {fuel : Nat} {src : Bytes} (h : parse fuel src = .oob) :
    ∃ a s, src = a ++ s ∧ (ReadsBehind s ∧ (Utf8 src → Utf8 s) ∨ (∃ t, s = #b'}' :: t ∧ TplBody t ∧ #b'`' ∈ a) ∨
      (∃ t b, s = #b'/' :: t ∧ RegexScan false t b)) := by
  have key : ∀ {l : Lex} {c : Byte} {t : Token}, Lexing src l → l.token = t → ([c], t) ∈ puncts →
      (∀ x ∈ puncts, x.2 = t → x.1 = [c]) → (∀ w, wordToken w ≠ t) → t ∉ [.EndOfProgram, .Identifier, .LiteralNumber,
        .LiteralBinary, .LiteralString, .TemplateOpen, .TemplateClosed, .Accessor, .UnexpectedToken,
        .UnexpectedEndOfProgram, .LiteralRegEx] → 
        ∃ a, src = a ++ c :: src.drop l.index ∧ src.take l.index = a ++ [c] := by
    intro l c t hl ht hp hu hw hn
    have hx := hl.lexeme (by rintro h; simp [← ht, h] at hn) (by rintro h; simp [← ht, h] at hn)
      (by rintro h; simp [← ht, h] at hn) (by rintro h; simp [← ht, h] at hn) (by rintro h; simp [← ht, h] at hn)
    rw [ht] at hx
    have hc : l.tokenAsStr = [c] := by
      generalize l.tokenAsStr = p at hx
      generalize l.rest = r at hx
      cases hx with
      | punct h => exact hu _ h rfl
      | word _ _ _ => exact absurd rfl (hw _)
      | _ => simp at hn
    have hw := hl.wf
    rw [hw.text, slice] at hc
    refine ⟨src.take l.tokenStart, ?_⟩
    have h1 : src.take l.index = src.take l.tokenStart ++ [c] := by
      rw [← hc]
      conv => lhs; rw [← List.take_append_drop l.tokenStart (src.take l.index)]
      rw [List.take_take, Nat.min_eq_left hw.start]
    refine ⟨?_, h1⟩
    conv => lhs; rw [← List.take_append_drop l.index src, h1]
    simp
  rcases parse_oob h with h | ⟨l, hl, h | ⟨ht, h⟩ | ⟨ht, h, hb⟩⟩
  · rw [Lex.new, Lex.consume_eq] at h
    have hs := Lex.scanAll_spec { Lex.init src with asi := .NoSemicolon }
    rw [h] at hs
    obtain ⟨g, s, h1, h3, h2⟩ := hs
    exact ⟨g, s, h1, .inl ⟨h2, fun hu => Trivia.utf8 h3 (h1 ▸ hu)⟩⟩
  · obtain ⟨g, s, h1, h3, h2⟩ := (C10_consume_reads_outside_iff hl.proper.lexing).1 h
    exact ⟨src.take l.index ++ g, s, by rw [List.append_assoc, ← h1, List.take_append_drop],
      .inl ⟨h2, fun hu => Trivia.utf8 h3 (h1 ▸ (boundary_iff.1 (hl.proper.lexing.boundary hu).2).2.2)⟩⟩
  · obtain ⟨a, ha, -⟩ := key (c := #b'/') hl.proper.lexing ht (by decide +kernel) (by decide +kernel)
      (fun w hw => absurd (wordToken_inv hw (by decide)) (by simp [keywords])) (by decide)
    obtain ⟨b, hb⟩ := (C10_regex_reads_outside_iff hl.proper.lexing).1 h
    exact ⟨a, _, ha, .inr (.inr ⟨_, b, rfl, hb⟩)⟩
  · obtain ⟨a, ha, ha'⟩ := key (c := #b'}') hl.proper.lexing ht (by decide +kernel) (by decide +kernel)
      (fun w hw => absurd (wordToken_inv hw (by decide)) (by simp [keywords])) (by decide)
    rw [ha'] at hb
    exact ⟨a, _, ha, .inr (.inl ⟨_, rfl, (C10_template_reads_outside_iff hl.proper.lexing).1 h, by simpa using hb⟩)⟩

/-- C10, partial: `parse` reads outside of the source buffer only if some end of the source is a template that
is never closed (from its start or from the `}` after an embedded expression, if there is a back quote in front of it),
a dot followed by white space only, or a slash that starts a regular expression that is never closed (or text
that is not UTF-8). (The full property, no such read at all, is false: see `C10_parse_reads_outside`.) -/
theorem C10_parse_partial {fuel : Nat} {src : Bytes} (h : parse fuel src = .oob) :
    ∃ a s, src = a ++ s ∧ (ReadsBehind s ∨ (∃ t, s = #b'}' :: t ∧ TplBody t ∧ #b'`' ∈ a) ∨
      (∃ t b, s = #b'/' :: t ∧ RegexScan false t b)) := by
  obtain ⟨a, s, h1, h2 | h2⟩ := parse_oob_where h
  · exact ⟨a, s, h1, .inl h2.1⟩
  · exact ⟨a, s, h1, .inr h2⟩

/-- Valid UTF-8 has no truncated characters. -/
theorem Spec.Utf8.not_bad {s : Bytes} (h : Utf8 s) : ¬BadUtf8 s := by
  intro hb
  have := Lex.decodeFirst_bad hb
  obtain ⟨cs, rfl⟩ := h
  cases cs with
  | nil => exact hb
  | cons c cs => rw [utf8_cons, Lex.decodeFirst_encode] at this; cases this

/-- C10, partial: `parse` reads outside of the buffer of a valid UTF-8 source only if some end of the source is a template
that is never closed (from its start, or from the `}` after an embedded expression and with a back quote in front of it), a dot
followed by white space only, or a slash that starts a regular expression that is never closed. -/
theorem C10_utf8_partial {fuel : Nat} {src : Bytes} (hu : Utf8 src) (h : parse fuel src = .oob) :
    ∃ a t, (src = a ++ #b'`' :: t ∧ TplBody t) ∨ (src = a ++ #b'}' :: t ∧ TplBody t ∧ #b'`' ∈ a) ∨
      (src = a ++ #b'.' :: t ∧ ∀ b ∈ t, b ≤ 0x20) ∨ (src = a ++ #b'/' :: t ∧ ∃ b, RegexScan false t b) := by
  obtain ⟨a, s, rfl, ⟨h2, h3⟩ | ⟨t, rfl, h2⟩ | ⟨t, b, rfl, h2⟩⟩ := parse_oob_where h
  · cases h2 with
    | template h' => exact ⟨a, _, .inl ⟨rfl, h'⟩⟩
    | dot h' => exact ⟨a, _, .inr (.inr (.inl ⟨rfl, h'⟩))⟩
    | char h' => exact absurd h' (h3 hu).not_bad
  · exact ⟨a, t, .inr (.inl ⟨rfl, h2⟩)⟩
  · exact ⟨a, t, .inr (.inr (.inr ⟨rfl, b, h2⟩))⟩

/-- C16, partial: if the lexer never stands in front of a character that it reports but does not get past, and never
finds the keyword `switch`, then `parse` returns (or reads outside of the source or panics, see C10 and C17). It recurses at
most `src.length + 3` levels deep, and runs no loop for more rounds than that. (The full property, for every source,
is false: see `C16_euro_diverges` and `C16_switch_diverges`.) -/
theorem C16_terminates_partial {src : Bytes}
    (h1 : ∀ l l', Reach src l → l.consume = .ok l' → l'.token = .UnexpectedToken → l'.tokenStart < l'.index)
    (h2 : ∀ l, Reach src l → l.token ≠ .Switch) {fuel : Nat} (hf : src.length + 3 ≤ fuel) :
    parse fuel src ≠ .timeout := by
  have : Tame src := ⟨fun l l' hl h ht => by
    have := h1 l l' hl h ht
    rw [(C01_token_spans hl.lexing h).2.2.2]
    intro e
    have hlen := congrArg List.length e
    have := (C01_token_spans hl.lexing h).2.2.1
    simp [slice] at hlen
    omega, h2⟩
  unfold parse runParser
  cases h : Lex.new src with
  | ok l =>
    have hl : Reach src l := .new h
    have hle : l.left ≤ src.length + 1 := by
      have := congrArg List.length hl.lexing.wf.rest
      unfold Lex.left
      simp at this
      split <;> omega
    have := procs_ter (src := src) fuel
    have := program_fin (n := fuel) (R := procs fuel) hl (by omega) []
    simp only [Out.bind]
    generalize program fuel (procs fuel) { lex := l, errors := [] } = x at this
    cases x with
    | timeout => exact this.elim
    | _ => simp
  | oob => simp [Out.bind]
  | panic => simp [Out.bind]
  | timeout =>
    rw [Lex.new] at h
    exact absurd h (Lex.consume_ne_timeout _)

/-- C16, partial: the same, with conditions on the text: every non-ASCII character of the source is alphanumeric, and
the letters `switch` do not occur. -/
theorem C16_text_terminates_partial {src : Bytes}
    (h1 : ∀ r, r <:+ src → 128 ≤ next r → ¬ AlphanumericFirst r false) (h2 : ¬ bs!"switch" <:+: src)
    {fuel : Nat} (hf : src.length + 3 ≤ fuel) : parse fuel src ≠ .timeout := by
  refine C16_terminates_partial (fun l l' hl h ht => ?_) (fun l hl ht => h2 ?_) hf
  · obtain ⟨-, hx⟩ := C02_only_trivia_between_tokens hl.lexing h
    have hsp := C01_token_spans hl.lexing h
    have hlen := congrArg List.length hsp.2.2.2
    simp only [slice, List.length_drop, List.length_take] at hlen
    suffices l'.tokenAsStr ≠ [] by
      have := List.length_pos_iff.mpr this
      omega
    intro hp
    rw [ht, hp] at hx
    generalize hq : ([] : Bytes) = q at hx
    generalize hr : src.drop l'.index = r at hx
    generalize hu : Token.UnexpectedToken = t at hx
    cases hx with
    | badChar h8 ha => exact h1 _ (hr ▸ List.drop_suffix _ _) h8 ha
    | punct h => subst hq; exact absurd rfl (puncts_ne _ h)
    | eof => cases hu
    | number => cases hu
    | _ => simp at hq
  · have hw := hl.lexing.wf
    have hx : l.tokenAsStr = bs!"switch" := by
      have hx := hl.lexing.lexeme (by simp [ht]) (by simp [ht]) (by simp [ht]) (by simp [ht]) (by simp [ht])
      rw [ht] at hx
      generalize hq : Token.Switch = t at hx
      generalize l.tokenAsStr = q at hx
      cases hx with
      | punct h =>
        have : ∀ x ∈ puncts, x.2 ≠ .Switch := by decide +kernel
        exact absurd hq.symm (this _ h)
      | word _ _ _ =>
        have := wordToken_inv hq.symm (by decide)
        have hk : ∀ x ∈ keywords, x.2 = .Switch → x.1 = bs!"switch" := by decide +kernel
        exact hk _ this rfl
      | _ => simp at hq
    rw [← hx, hw.text, slice]
    exact (List.drop_suffix _ _).isInfix.trans (List.take_prefix _ _).isInfix

/-- C16, partial: `parse` returns on every ASCII text in which the letters `switch` do not occur. -/
theorem C16_ascii_terminates_partial {src : Bytes} (h1 : ∀ b ∈ src, b < 128) (h2 : ¬ bs!"switch" <:+: src)
    {fuel : Nat} (hf : src.length + 3 ≤ fuel) : parse fuel src ≠ .timeout := by
  refine C16_text_terminates_partial (fun r hr h8 => ?_) h2 hf
  cases r with
  | nil => simp [next] at h8
  | cons b r =>
    have := h1 b (hr.subset (by simp))
    exact absurd h8 (UInt8.not_le.2 this)

/-- What the lexer decodes at some place of a valid source is one of its characters. -/
theorem decodeFirst_suffix {cs : List Char} {r : Bytes} {k : Nat} (h : r <:+ utf8 cs) (hk : Lex.decodeFirst r = some k) :
    ∃ c ∈ cs, k = c.val.toNat ∧ ∃ s, r = String.utf8EncodeChar c ++ s := by
  obtain ⟨p, h⟩ := h
  cases hc : Lex.isCont (next r)
  · obtain ⟨⟨as, ha⟩, ⟨bs, hb⟩⟩ := Utf8.cut (p := p) (r := r) ⟨cs, h⟩ hc
    rw [ha, hb, ← utf8_append] at h
    have := utf8_injective h
    subst this
    cases bs with
    | nil => rw [hb] at hk; simp [utf8, Lex.decodeFirst] at hk
    | cons c bs =>
      rw [hb, utf8_cons, Lex.decodeFirst_encode] at hk
      exact ⟨c, by simp, (Option.some.inj hk).symm, _, by rw [hb, utf8_cons]⟩
  · cases r with
    | nil => cases hk
    | cons b r =>
      have hc : Lex.isCont b = true := hc
      have : ¬ b < 0x80 ∧ b < 0xC0 := by
        simp only [Lex.isCont, Bool.and_eq_true, decide_eq_true_eq] at hc
        exact ⟨UInt8.not_lt.2 hc.1, hc.2⟩
      rw [Lex.decodeFirst.eq_def] at hk
      simp only [if_neg this.1, if_pos this.2] at hk
      cases hk

/-- C16, partial: `parse` returns on every text whose non-ASCII characters are all alphanumeric and in which the letters
`switch` do not occur. -/
theorem C16_chars_terminates_partial {cs : List Char}
    (h1 : ∀ c ∈ cs, 128 ≤ c.val.toNat → Unicode.isAlphanumeric c.val.toNat = true) (h2 : ¬ bs!"switch" <:+: utf8 cs)
    {fuel : Nat} (hf : (utf8 cs).length + 3 ≤ fuel) : parse fuel (utf8 cs) ≠ .timeout := by
  refine C16_text_terminates_partial (fun r hr h8 ha => ?_) h2 hf
  obtain ⟨k, hk, hf⟩ := ha
  obtain ⟨c, hc, rfl, s, rfl⟩ := decodeFirst_suffix hr hk
  by_cases h : 128 ≤ c.val.toNat
  · rw [h1 c hc h] at hf; cases hf
  · have hn : next (String.utf8EncodeChar c ++ s) = UInt8.ofNat c.val.toNat := by
      unfold String.utf8EncodeChar
      simp only
      rw [if_pos (by omega)]
      rfl
    rw [hn, UInt8.le_iff_toNat_le, ofNat_toNat (by omega)] at h8
    exact h h8

theorem Spec.RegexScan.no_newline {a b : Bool} {t : Bytes} (h : RegexScan a t b) : ∀ {u v : Bytes}, t = u ++ #b'\n' :: v → #b'\\' ∈ u := by
  induction h with
  | nil => intro u v e; simp at e
  | openClass _ ih | closeClass _ ih | slash _ ih =>
    intro u v e
    cases u with
    | nil => simp at e
    | cons c u => simp at e; exact List.mem_cons_of_mem _ (ih e.2)
  | esc hc _ ih =>
    intro u v e
    cases u with
    | nil => simp at e
    | cons c u => simp at e; simp [← e.1]
  | plain hc _ ih =>
    intro u v e
    cases u with
    | nil => simp at e; simp [e.1] at hc
    | cons c u => simp at e; exact List.mem_cons_of_mem _ (ih e.2)

/-- C10, C16 and C17 together, partial: `parse` returns the program or a list of errors on every ASCII text in which the letters
`switch` and back quotes do not occur, that does not end with a dot, and in which every slash is followed by a line
break (with no backslash between the slash and that line break). -/
theorem C16_returns_partial {src : Bytes} (h1 : ∀ b ∈ src, b < 128) (h2 : ¬ bs!"switch" <:+: src) (h3 : #b'`' ∉ src)
    (h4 : ¬ ∃ a s, src = a ++ #b'.' :: s ∧ ∀ b ∈ s, b ≤ 0x20)
    (h5 : ∀ a t, src = a ++ #b'/' :: t → ∃ u v, t = u ++ #b'\n' :: v ∧ #b'\\' ∉ u)
    {fuel : Nat} (hf : src.length + 3 ≤ fuel) :
    (∃ body, parse fuel src = .ok (.ok body)) ∨ (∃ es, es ≠ [] ∧ parse fuel src = .ok (.error es)) := by
  cases h : parse fuel src with
  | ok r =>
    cases r with
    | ok b => exact .inl ⟨b, rfl⟩
    | error es =>
      obtain ⟨_, _, -, -, he⟩ := (C11_error_iff_errors fuel src es).1 h
      exact .inr ⟨es, he, rfl⟩
  | timeout => exact absurd h (C16_ascii_terminates_partial h1 h2 hf)
  | panic => exact absurd h (C17_ascii_no_panic_partial fuel h1)
  | oob =>
    exfalso
    obtain ⟨a, s, rfl, hs | ⟨t, rfl, -, hb⟩ | ⟨t, b, rfl, ht⟩⟩ := C10_parse_partial h
    · cases hs with
      | template => exact h3 (by simp)
      | dot hs => exact h4 ⟨a, _, rfl, hs⟩
      | char hs =>
        cases s with
        | nil => exact hs
        | cons b s => exact absurd hs.1 (UInt8.not_le.2 (h1 b (by simp)))
    · exact h3 (by simp [hb])
    · obtain ⟨u, v, rfl, hu⟩ := h5 a t rfl
      exact hu (ht.no_newline rfl)

/-- The same for all texts: the non-ASCII characters have to be alphanumeric, and none of them may follow a dot (after
white space). -/
theorem C16_returns_utf8_partial {cs : List Char}
    (h1 : ∀ c ∈ cs, 128 ≤ c.val.toNat → Unicode.isAlphanumeric c.val.toNat = true)
    (h2 : ¬ bs!"switch" <:+: utf8 cs) (h3 : #b'`' ∉ utf8 cs)
    (h4 : ∀ a s r, utf8 cs = a ++ #b'.' :: s ++ r → (∀ b ∈ s, b ≤ 0x20) → next r < 128 ∧ r ≠ [])
    (h5 : ∀ a t, utf8 cs = a ++ #b'/' :: t → ∃ u v, t = u ++ #b'\n' :: v ∧ #b'\\' ∉ u)
    {fuel : Nat} (hf : (utf8 cs).length + 3 ≤ fuel) :
    (∃ body, parse fuel (utf8 cs) = .ok (.ok body)) ∨ (∃ es, es ≠ [] ∧ parse fuel (utf8 cs) = .ok (.error es)) := by
  cases h : parse fuel (utf8 cs) with
  | ok r =>
    cases r with
    | ok b => exact .inl ⟨b, rfl⟩
    | error es =>
      obtain ⟨_, _, -, -, he⟩ := (C11_error_iff_errors fuel _ es).1 h
      exact .inr ⟨es, he, rfl⟩
  | timeout => exact absurd h (C16_chars_terminates_partial h1 h2 hf)
  | panic =>
    exfalso
    obtain ⟨a, s, hs, hp⟩ := C17_no_panic_partial h
    cases hp with
    | @dot s c r hb hc => exact absurd hc (UInt8.not_le.2 (h4 a s (c :: r) (by rw [hs]; simp) hb).1)
  | oob =>
    exfalso
    obtain ⟨a, t, ⟨hs, -⟩ | ⟨hs, -, hb⟩ | ⟨hs, hb⟩ | ⟨hs, b, ht⟩⟩ := C10_utf8_partial ⟨cs, rfl⟩ h
    · exact h3 (by simp [hs])
    · exact h3 (by simp [hs, hb])
    · exact (h4 a t [] (by simp [hs]) hb).2 rfl
    · obtain ⟨u, v, rfl, hu⟩ := h5 a t hs
      exact hu (ht.no_newline rfl)

end Ratel
