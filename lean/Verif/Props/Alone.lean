import Verif.Spec.Splits
import Verif.Props.Halt
import Verif.Props.Local
/-! C10, C16, C17, exactly, for texts without templates and divisions: there the lexer does not depend on the parser, and
what `parse` does is decided by how the text is cut into tokens. -/
namespace Ratel
open Spec

set_option linter.unusedSectionVars false
variable [Unicode]

theorem slice_append_drop {src : Bytes} {a b : Nat} (h : a ≤ b) : slice src a b ++ src.drop b = src.drop a := by
  obtain ⟨i, rfl⟩ := Nat.le.dest h
  rw [slice, List.drop_take, Nat.add_sub_cancel_left, ← List.drop_drop, List.take_append_drop]

/-- The lexer, called on its own. -/
def alone (src : Bytes) (k : Nat) : Out Lex := (Lex.new src).bind (consumes k)

theorem consumes_succ : ∀ (k : Nat) (l : Lex), consumes (k + 1) l = (consumes k l).bind Lex.consume
  | 0, l => by simp only [consumes, Out.bind]; cases l.consume <;> rfl
  | k + 1, l => by
    rw [consumes, consumes]
    cases l.consume with
    | ok m => exact consumes_succ k m
    | _ => rfl

theorem alone_succ (src : Bytes) (k : Nat) : alone src (k + 1) = (alone src k).bind Lex.consume := by
  unfold alone
  cases Lex.new src with
  | ok l => exact consumes_succ k l
  | _ => rfl

theorem alone_lexing {src : Bytes} : ∀ {k : Nat} {l : Lex}, alone src k = .ok l → Lexing src l
  | 0, l, h => by
    unfold alone at h
    cases hn : Lex.new src with
    | ok m => rw [hn] at h; cases h; exact .new hn
    | _ => rw [hn] at h; cases h
  | k + 1, l, h => by
    rw [alone_succ] at h
    obtain ⟨m, hm, h⟩ := Out.bind_eq_ok.1 h
    exact (alone_lexing hm).consume h

theorem alone_splits {src : Bytes} : ∀ {k : Nat} {l : Lex}, alone src k = .ok l →
    ∃ ts, Splits src (l.token :: ts) (src.drop l.index)
  | 0, l, h => by
    unfold alone at h
    cases hn : Lex.new src with
    | ok m =>
      rw [hn] at h
      cases h
      obtain ⟨hg, hx⟩ := C02_only_trivia_before_first_token hn
      have hs := C01_first_token_span hn
      refine ⟨[], .token (g := slice src 0 l.tokenStart) (p := l.tokenAsStr) ?_ ?_ hx⟩
      all_goals
        rw [hs.2.2, slice_append_drop hs.1]
      · rw [slice_append_drop (Nat.zero_le _)]; exact .start
      · exact hg
    | _ => rw [hn] at h; cases h
  | k + 1, l, h => by
    rw [alone_succ] at h
    obtain ⟨m, hm, h⟩ := Out.bind_eq_ok.1 h
    obtain ⟨ts, ht⟩ := alone_splits hm
    have hl := alone_lexing hm
    obtain ⟨hg, hx⟩ := C02_only_trivia_between_tokens hl h
    have hs := C01_token_spans hl h
    refine ⟨m.token :: ts, .token (g := slice src m.index l.tokenStart) (p := l.tokenAsStr) ?_ ?_ hx⟩
    all_goals
      rw [hs.2.2.2, slice_append_drop hs.2.1]
    · rw [slice_append_drop hs.1]; exact ht
    · exact hg

theorem init_wf (src : Bytes) : Lex.WF src (Lex.init src) := ⟨rfl, rfl, Nat.zero_le _, Nat.le_refl _, by simp [Lex.init]⟩

theorem splits_alone {src : Bytes} {ts : List Token} {s : Bytes} (h : Splits src ts s) :
    (ts = [] ∧ s = src) ∨ ∃ k l r, alone src k = .ok l ∧ src.drop l.index = s ∧ ts = l.token :: r := by
  induction h with
  | start => exact .inl ⟨rfl, rfl⟩
  | @token ts t g p r h hg hx ih =>
    right
    have fin : ∀ {l l' : Lex}, src.drop l.index = g ++ (p ++ r) →
        l'.seen = ⟨t, p, l.index + g.length, l.index + g.length + p.length⟩ → src.drop l'.index = r ∧ l'.token = t := by
      intro l l' hd hs
      simp only [Lex.seen, Seen.mk.injEq] at hs
      refine ⟨?_, hs.1⟩
      rw [hs.2.2.2, Nat.add_assoc, ← List.drop_drop, hd, ← List.append_assoc, ← List.length_append, List.drop_left]
    rcases ih with ⟨rfl, e⟩ | ⟨k, l, u, hl, hd, rfl⟩
    · obtain ⟨l', h1, h2⟩ := (init_wf src).finds_lexeme (g := g) (p := p) (r := r) (by simpa [Lex.init] using e.symm) hg hx
      obtain ⟨h3, h4⟩ := fin (l := Lex.init src) (by simpa [Lex.init] using e.symm) h2
      refine ⟨0, l', [], ?_, h3, by rw [h4]⟩
      unfold alone Lex.new
      rw [h1]
      rfl
    · obtain ⟨l', h1, h2⟩ := (alone_lexing hl).wf.finds_lexeme hd hg hx
      obtain ⟨h3, h4⟩ := fin hd h2
      exact ⟨k + 1, l', _, by rw [alone_succ, hl]; exact h1, h3, by rw [h4]⟩

/-! ### What comes last -/

theorem alone_add (src : Bytes) (k : Nat) : ∀ j, alone src (k + j) = (alone src k).bind (consumes j)
  | 0 => by cases alone src k <;> simp [Out.bind, consumes]
  | j + 1 => by
    rw [← Nat.add_assoc, alone_succ, alone_add src k j]
    cases alone src k with
    | ok l => exact (consumes_succ j l).symm
    | _ => rfl

/-- The lexer stops in exactly one way. -/
theorem alone_bad {src : Bytes} {k j : Nat} {o o' : Out Lex} (ho : o = .oob ∨ o = .panic) (h : alone src k = o)
    (h' : alone src j = o') (hk : k ≤ j) : o' = o := by
  obtain ⟨i, rfl⟩ := Nat.le.dest hk
  rw [alone_add, h] at h'
  rcases ho with rfl | rfl <;> exact h'.symm

theorem alone_end {src : Bytes} {k j : Nat} {l : Lex} {o : Out Lex} (h : alone src k = .ok l) (he : l.token = .EndOfProgram)
    (h' : alone src j = o) (hk : k ≤ j) : ∃ l', o = .ok l' := by
  obtain ⟨i, rfl⟩ := Nat.le.dest hk
  rw [alone_add, h] at h'
  cases i with
  | zero => exact ⟨l, h'.symm⟩
  | succ i =>
    obtain ⟨l', h1, -⟩ := C03_end_of_program_stable (alone_lexing h) he i
    exact ⟨l', h'.symm.trans h1⟩

/-- How the lexer stops. -/
inductive LexStops (src : Bytes) : Out Unit → Prop where
  | done {k : Nat} {l : Lex} (h : alone src k = .ok l) (he : l.token = .EndOfProgram) : LexStops src (.ok ())
  | oob {k : Nat} (h : alone src k = .oob) : LexStops src .oob
  | panic {k : Nat} (h : alone src k = .panic) : LexStops src .panic

theorem LexStops.unique {src : Bytes} {a b : Out Unit} (h : LexStops src a) (h' : LexStops src b) : a = b := by
  cases h with
  | @done k l h he =>
    cases h' with
    | done => rfl
    | @oob j h' =>
      exfalso
      rcases Nat.le_total k j with hk | hk
      · obtain ⟨_, e⟩ := alone_end h he h' hk; cases e
      · have e := alone_bad (.inl rfl) h' h hk; cases e
    | @panic j h' =>
      exfalso
      rcases Nat.le_total k j with hk | hk
      · obtain ⟨_, e⟩ := alone_end h he h' hk; cases e
      · have e := alone_bad (.inr rfl) h' h hk; cases e
  | @oob k h =>
    cases h' with
    | @done j l h' he =>
      exfalso
      rcases Nat.le_total k j with hk | hk
      · have e := alone_bad (.inl rfl) h h' hk; cases e
      · obtain ⟨_, e⟩ := alone_end h' he h hk; cases e
    | oob => rfl
    | @panic j h' =>
      exfalso
      rcases Nat.le_total k j with hk | hk
      · have e := alone_bad (.inl rfl) h h' hk; cases e
      · have e := alone_bad (.inr rfl) h' h hk; cases e
  | @panic k h =>
    cases h' with
    | @done j l h' he =>
      exfalso
      rcases Nat.le_total k j with hk | hk
      · have e := alone_bad (.inr rfl) h h' hk; cases e
      · obtain ⟨_, e⟩ := alone_end h' he h hk; cases e
    | @oob j h' =>
      exfalso
      rcases Nat.le_total k j with hk | hk
      · have e := alone_bad (.inr rfl) h h' hk; cases e
      · have e := alone_bad (.inl rfl) h' h hk; cases e
    | panic => rfl

/-! ### In terms of the text -/

theorem stops_oob {src : Bytes} :
    LexStops src .oob ↔ ∃ ts g s, Splits src ts (g ++ s) ∧ Trivia g s ∧ ReadsBehind s := by
  have hi : (Lex.init src).index = 0 := rfl
  constructor
  · intro h
    cases h with
    | @oob k h =>
      induction k with
      | zero =>
        have h : (Lex.init src).consume = .oob := by
          unfold alone Lex.new at h
          cases hc : (Lex.init src).consume <;> rw [hc] at h <;> cases h
        obtain ⟨g, s, h1, h2, h3⟩ := (init_wf src).reads_outside_iff.1 h
        rw [hi, List.drop_zero] at h1
        exact ⟨[], g, s, h1 ▸ .start, h2, h3⟩
      | succ k ih =>
        rw [alone_succ] at h
        cases hk : alone src k with
        | ok l =>
          rw [hk] at h
          obtain ⟨g, s, h1, h2, h3⟩ := (alone_lexing hk).wf.reads_outside_iff.1 h
          obtain ⟨ts, ht⟩ := alone_splits hk
          exact ⟨_, g, s, h1 ▸ ht, h2, h3⟩
        | oob => exact ih hk
        | _ => rw [hk] at h; cases h
  · rintro ⟨ts, g, s, h1, h2, h3⟩
    rcases splits_alone h1 with ⟨-, e⟩ | ⟨k, l, r, hl, hd, -⟩
    · have := (init_wf src).reads_outside_iff.2 ⟨g, s, by rw [hi, List.drop_zero, e], h2, h3⟩
      exact .oob (k := 0) (by unfold alone Lex.new; rw [this]; rfl)
    · have := (alone_lexing hl).wf.reads_outside_iff.2 ⟨g, s, hd, h2, h3⟩
      exact .oob (k := k + 1) (by rw [alone_succ, hl]; exact this)

theorem stops_panic {src : Bytes} :
    LexStops src .panic ↔ ∃ ts g s, Splits src ts (g ++ s) ∧ Trivia g s ∧ Panics s := by
  have hi : (Lex.init src).index = 0 := rfl
  constructor
  · intro h
    cases h with
    | @panic k h =>
      induction k with
      | zero =>
        have h : (Lex.init src).consume = .panic := by
          unfold alone Lex.new at h
          cases hc : (Lex.init src).consume <;> rw [hc] at h <;> cases h
        obtain ⟨g, s, h1, h2, h3⟩ := (init_wf src).panics_iff.1 h
        rw [hi, List.drop_zero] at h1
        exact ⟨[], g, s, h1 ▸ .start, h2, h3⟩
      | succ k ih =>
        rw [alone_succ] at h
        cases hk : alone src k with
        | ok l =>
          rw [hk] at h
          obtain ⟨g, s, h1, h2, h3⟩ := (alone_lexing hk).wf.panics_iff.1 h
          obtain ⟨ts, ht⟩ := alone_splits hk
          exact ⟨_, g, s, h1 ▸ ht, h2, h3⟩
        | panic => exact ih hk
        | _ => rw [hk] at h; cases h
  · rintro ⟨ts, g, s, h1, h2, h3⟩
    rcases splits_alone h1 with ⟨-, e⟩ | ⟨k, l, r, hl, hd, -⟩
    · have := (init_wf src).panics_iff.2 ⟨g, s, by rw [hi, List.drop_zero, e], h2, h3⟩
      exact .panic (k := 0) (by unfold alone Lex.new; rw [this]; rfl)
    · have := (alone_lexing hl).wf.panics_iff.2 ⟨g, s, hd, h2, h3⟩
      exact .panic (k := k + 1) (by rw [alone_succ, hl]; exact this)

theorem stops_done {src : Bytes} : LexStops src (.ok ()) ↔ ∃ ts s, Splits src (.EndOfProgram :: ts) s := by
  constructor
  · intro h
    cases h with
    | @done k l h he =>
      obtain ⟨ts, ht⟩ := alone_splits h
      exact ⟨ts, _, he ▸ ht⟩
  · rintro ⟨ts, s, h⟩
    rcases splits_alone h with ⟨e, -⟩ | ⟨k, l, r, hl, -, e⟩
    · cases e
    · exact .done hl (List.cons.inj e).1.symm

/-! ### The parser -/

theorem Reach.alone {src : Bytes} (hc : ContextFree src) {l : Lex} (h : Reach src l) : ∃ k, alone src k = .ok l := by
  induction h with
  | new h => exact ⟨0, by unfold Ratel.alone; rw [h]; rfl⟩
  | consume _ h' ih => obtain ⟨k, hk⟩ := ih; exact ⟨k + 1, by rw [alone_succ, hk]; exact h'⟩
  | template _ _ hb => exact absurd hb hc.noTick
  | regex _ ht _ ih =>
    obtain ⟨k, hk⟩ := ih
    obtain ⟨ts, hs⟩ := alone_splits hk
    exact absurd (by rw [ht]; simp) (hc.noSlash _ _ hs)

theorem ticked_new {src : Bytes} {l : Lex} (hn : Lex.new src = .ok l) : Ticked src l := by
  refine ⟨.new hn, fun ht => ?_⟩
  obtain ⟨-, hx⟩ := C02_only_trivia_before_first_token hn
  have hsp := C01_first_token_span hn
  rw [ht] at hx
  have hm := hx.openTick
  rw [hsp.2.2] at hm
  exact List.mem_of_mem_drop hm

theorem topLoop_end {R : Rec} : ∀ {k : Nat} {acc A : List Stmt} {s t : PState}, loop k (topBody R) acc s = .ok (A, t) →
    t.lex.token = .EndOfProgram
  | 0, _, _, _, _, h => by cases h
  | k + 1, acc, A, s, t, h => by
    rw [topBody_ok] at h
    split at h
    · cases h; assumption
    · obtain ⟨⟨a, u⟩, -, h2⟩ := Out.bind_eq_ok.1 h
      exact topLoop_end h2

/-- What the lexer stops with is what the parser stops with. -/
theorem parse_stops {src : Bytes} (hc : ContextFree src) {fuel : Nat} (hd : parse fuel src ≠ .timeout) :
    (∃ r, parse fuel src = .ok r ∧ LexStops src (.ok ())) ∨ (parse fuel src = .oob ∧ LexStops src .oob) ∨
      (parse fuel src = .panic ∧ LexStops src .panic) := by
  unfold parse runParser at *
  cases hn : Lex.new src with
  | ok l =>
    rw [hn] at hd
    simp only [Out.bind] at hd ⊢
    have := procs_nobs (src := src) fuel
    have := procs_known (src := src) fuel
    have hp := Nobs.is (m := program fuel (procs fuel)) l (ticked_new hn) []
    cases hr : program fuel (procs fuel) ⟨l, []⟩ with
    | ok x =>
      obtain ⟨A, t⟩ := x
      obtain ⟨k, hk⟩ := (hp.2 A t hr).reach.alone hc
      refine .inl ⟨_, rfl, .done hk ?_⟩
      rw [program_loop] at hr
      exact topLoop_end hr
    | oob =>
      refine .inr (.inl ⟨rfl, ?_⟩)
      obtain ⟨m, hm, h | ⟨h, -⟩ | ⟨-, -, h⟩⟩ := hp.1.1 hr
      · obtain ⟨k, hk⟩ := hm.alone hc
        exact .oob (k := k + 1) (by rw [alone_succ, hk]; exact h)
      · obtain ⟨k, hk⟩ := hm.alone hc
        obtain ⟨ts, hs⟩ := alone_splits hk
        exact absurd (by rw [h]; simp) (hc.noSlash _ _ hs)
      · exact absurd (List.mem_of_mem_take h) hc.noTick
    | panic =>
      refine .inr (.inr ⟨rfl, ?_⟩)
      obtain ⟨m, hm, h⟩ := hp.1.2 hr
      obtain ⟨k, hk⟩ := hm.alone hc
      exact .panic (k := k + 1) (by rw [alone_succ, hk]; exact h)
    | timeout => rw [hr] at hd; exact absurd rfl hd
  | oob => exact .inr (.inl ⟨rfl, .oob (k := 0) (by unfold alone; rw [hn]; rfl)⟩)
  | panic => exact .inr (.inr ⟨rfl, .panic (k := 0) (by unfold alone; rw [hn]; rfl)⟩)
  | timeout => rw [hn] at hd; exact absurd rfl hd

/-- C10, exactly for the texts without templates and divisions on which `parse` ends: `parse` reads outside of its
buffer exactly if behind some of the tokens there is (not in valid UTF-8: a truncated character or) a dot with nothing but
white space behind it. -/
theorem C10_exact_partial {src : Bytes} (hc : ContextFree src) {fuel : Nat} (hd : parse fuel src ≠ .timeout) :
    parse fuel src = .oob ↔ ∃ ts g s, Splits src ts (g ++ s) ∧ Trivia g s ∧ ReadsBehind s := by
  rw [← stops_oob]
  rcases parse_stops hc hd with ⟨r, h, hs⟩ | ⟨h, hs⟩ | ⟨h, hs⟩ <;> rw [h]
  · exact ⟨nofun, fun h' => nomatch hs.unique h'⟩
  · exact ⟨fun _ => hs, fun _ => rfl⟩
  · exact ⟨nofun, fun h' => nomatch hs.unique h'⟩

/-- C17, exactly for the texts without templates and divisions on which `parse` ends: `parse` panics exactly if behind
some of the tokens there is a dot and behind it, after white space, a non-ASCII byte. -/
theorem C17_exact_partial {src : Bytes} (hc : ContextFree src) {fuel : Nat} (hd : parse fuel src ≠ .timeout) :
    parse fuel src = .panic ↔ ∃ ts g s, Splits src ts (g ++ s) ∧ Trivia g s ∧ Panics s := by
  rw [← stops_panic]
  rcases parse_stops hc hd with ⟨r, h, hs⟩ | ⟨h, hs⟩ | ⟨h, hs⟩ <;> rw [h]
  · exact ⟨nofun, fun h' => nomatch hs.unique h'⟩
  · exact ⟨nofun, fun h' => nomatch hs.unique h'⟩
  · exact ⟨fun _ => hs, fun _ => rfl⟩

/-- C10, C17, for the same texts: `parse` gives the program or a list of errors exactly if the whole text is white space,
comments and tokens. -/
theorem C10_returns_exact_partial {src : Bytes} (hc : ContextFree src) {fuel : Nat} (hd : parse fuel src ≠ .timeout) :
    (∃ r, parse fuel src = .ok r) ↔ ∃ ts s, Splits src (.EndOfProgram :: ts) s := by
  rw [← stops_done]
  rcases parse_stops hc hd with ⟨r, h, hs⟩ | ⟨h, hs⟩ | ⟨h, hs⟩ <;> rw [h]
  · exact ⟨fun _ => hs, fun _ => ⟨r, rfl⟩⟩
  · exact ⟨nofun, fun h' => nomatch hs.unique h'⟩
  · exact ⟨nofun, fun h' => nomatch hs.unique h'⟩

/-- C16, for the texts without templates and divisions: if the text cannot be cut into tokens up to its end, and not up
to a place where the lexer reads outside of its buffer or panics either, then `parse` never returns. -/
theorem C16_never_returns_partial {src : Bytes} (hc : ContextFree src) (h1 : ¬∃ ts s, Splits src (.EndOfProgram :: ts) s)
    (h2 : ∀ ts g s, Splits src ts (g ++ s) → Trivia g s → ¬ReadsBehind s ∧ ¬Panics s) : Diverges src := by
  intro fuel
  apply Classical.byContradiction
  intro hd
  rcases parse_stops hc hd with ⟨-, -, hs⟩ | ⟨-, hs⟩ | ⟨-, hs⟩
  · exact h1 (stops_done.1 hs)
  · obtain ⟨ts, g, s, h, h', h''⟩ := stops_oob.1 hs
    exact (h2 ts g s h h').1 h''
  · obtain ⟨ts, g, s, h, h', h''⟩ := stops_panic.1 hs
    exact (h2 ts g s h h').2 h''

/-- C16, for the texts without templates and divisions: if behind some of the tokens there is a non-ASCII character that
is not alphanumeric, then `parse` never returns. -/
theorem C16_stalls_partial {src : Bytes} (hc : ContextFree src) {ts : List Token} {g s : Bytes} (h : Splits src ts (g ++ s))
    (hg : Trivia g s) (hn : 128 ≤ next s) (ha : AlphanumericFirst s false) : Diverges src := by
  have hx : Lexeme .UnexpectedToken [] s := .badChar hn ha
  have key : ∃ k, ∀ j, ∃ l, alone src (k + j) = .ok l ∧ src.drop l.index = s ∧ l.token = .UnexpectedToken := by
    rcases splits_alone (.token (p := []) h hg hx) with ⟨e, -⟩ | ⟨k, l, r, hl, hd, e⟩
    · cases e
    · refine ⟨k, fun j => ?_⟩
      induction j with
      | zero => exact ⟨l, hl, hd, (List.cons.inj e).1.symm⟩
      | succ j ih =>
        obtain ⟨m, h1, h2, -⟩ := ih
        obtain ⟨m', h3, h4⟩ := (alone_lexing h1).wf.finds_lexeme (g := []) (p := []) (r := s) h2 .nil hx
        simp only [Lex.seen, Seen.mk.injEq] at h4
        refine ⟨m', by rw [← Nat.add_assoc, alone_succ, h1]; exact h3, ?_, h4.1⟩
        rw [h4.2.2.2]
        exact h2
  obtain ⟨k, hk⟩ := key
  have no : ∀ o, ¬LexStops src o := by
    intro o ho
    cases ho with
    | @done j l h he =>
      obtain ⟨m, h1, h2, h3⟩ := hk j
      rw [Nat.add_comm, alone_add, h] at h1
      cases k with
      | zero =>
        cases h1
        rw [he] at h3
        cases h3
      | succ k =>
        obtain ⟨l', h5, h6, -⟩ := C03_end_of_program_stable (alone_lexing h) he k
        have h1 : consumes (k + 1) l = .ok m := h1
        rw [h5] at h1
        cases h1
        simp only [Lex.seen, Seen.mk.injEq] at h6
        rw [h6.1] at h3
        cases h3
    | @oob j h =>
      obtain ⟨m, h1, -⟩ := hk j
      rw [Nat.add_comm, alone_add, h] at h1
      cases h1
    | @panic j h =>
      obtain ⟨m, h1, -⟩ := hk j
      rw [Nat.add_comm, alone_add, h] at h1
      cases h1
  intro fuel
  apply Classical.byContradiction
  intro hd
  rcases parse_stops hc hd with ⟨-, -, hs⟩ | ⟨-, hs⟩ | ⟨-, hs⟩ <;> exact no _ hs

theorem Spec.Lexeme.empty {p r : Bytes} (h : Lexeme .UnexpectedToken p r) (hp : p = []) :
    128 ≤ next r ∧ AlphanumericFirst r false := by
  generalize ht : Token.UnexpectedToken = t at h
  cases h with
  | badChar h ha => exact ⟨h, ha⟩
  | punct h =>
    have : ∀ x ∈ puncts, x.2 ≠ .UnexpectedToken := by decide +kernel
    exact absurd ht.symm (this _ h)
  | _ => simp_all

/-- C16, exactly for the texts without templates, divisions and the keyword `switch`: `parse` never returns exactly if
behind some of the tokens there is a non-ASCII character that is not alphanumeric. -/
theorem C16_exact_partial {src : Bytes} (hc : ContextFree src) (hs : ∀ ts s, Splits src ts s → Token.Switch ∉ ts) :
    Diverges src ↔ ∃ ts g s, Splits src ts (g ++ s) ∧ Trivia g s ∧ 128 ≤ next s ∧ AlphanumericFirst s false := by
  constructor
  · intro hd
    apply Classical.byContradiction
    intro hn
    refine C16_terminates_partial (fun l l' hl h ht => ?_) (fun l hl ht => ?_) (Nat.le_refl _) (hd (src.length + 3))
    · obtain ⟨h1, h2, h3, h4⟩ := C01_token_spans hl.lexing h
      apply Classical.byContradiction
      intro hlt
      obtain ⟨hg, hx⟩ := C02_only_trivia_between_tokens hl.lexing h
      obtain ⟨k, hk⟩ := hl.alone hc
      obtain ⟨ts, hts⟩ := alone_splits hk
      have he : l'.tokenStart = l'.index := by omega
      have hp : l'.tokenAsStr = [] := by
        rw [h4, he, slice, List.drop_take]
        simp
      rw [ht, ← he] at hx
      obtain ⟨h5, h6⟩ := hx.empty hp
      exact hn ⟨_, slice src l.index l'.tokenStart, _, by rw [slice_append_drop h1]; exact hts, hg, h5, h6⟩
    · obtain ⟨k, hk⟩ := hl.alone hc
      obtain ⟨ts, hts⟩ := alone_splits hk
      exact hs _ _ hts (by rw [ht]; simp)
  · rintro ⟨ts, g, s, h1, h2, h3, h4⟩
    exact C16_stalls_partial hc h1 h2 h3 h4

theorem Spec.Lexeme.division {p r : Bytes} (h : Lexeme .OperatorDivision p r) : #b'/' ∈ p := by
  generalize ht : Token.OperatorDivision = t at h
  cases h with
  | punct hp =>
    have : ∀ x ∈ puncts, x.2 = .OperatorDivision → #b'/' ∈ x.1 := by decide +kernel
    exact this _ hp ht.symm
  | word _ _ _ => exact absurd (wordToken_inv ht.symm (by decide)) (by simp [keywords])
  | _ => cases ht

theorem Spec.Splits.suffix {src : Bytes} {ts : List Token} {s : Bytes} (h : Splits src ts s) : s <:+ src := by
  induction h with
  | start => exact List.suffix_refl _
  | token _ _ _ ih => exact (((List.suffix_append _ _).trans (List.suffix_append _ _))).trans ih

/-- A text without back quotes and slashes. -/
theorem Spec.ContextFree.of_text {src : Bytes} (h : #b'`' ∉ src) (h' : #b'/' ∉ src) : ContextFree src := by
  refine ⟨h, fun ts s hs => ?_⟩
  induction hs with
  | start => simp
  | @token ts t g p r hs hg hx ih =>
    simp only [List.mem_cons, not_or]
    refine ⟨?_, ih⟩
    rintro rfl
    exact h' (hs.suffix.subset (by simp [hx.division]))

/-! ### Concrete cases -/

section
private theorem splits_a (r : Bytes) (h : wordByte (next r) = false) : Splits (#b'a' :: r) [wordToken bs!"a"] r :=
  .token (g := []) (p := bs!"a") .start .nil (.word (by decide) (by simp) h)

/-- `a.`: outside of the buffer. -/
example : parse 20 bs!"a." = .oob :=
  (C10_exact_partial (.of_text (by decide) (by decide))
    (C16_ascii_terminates_partial (by decide) (by decide) (by decide))).2
    ⟨_, [], bs!".", splits_a _ (by decide), .nil, .dot (by simp)⟩

/-- `a;`: the program. -/
example : ∃ r, parse 20 bs!"a;" = .ok r :=
  (C10_returns_exact_partial (.of_text (by decide) (by decide))
    (C16_ascii_terminates_partial (by decide) (by decide) (by decide))).2
    ⟨_, _, .token (g := []) (p := [])
      (.token (g := []) (p := bs!";") (r := []) (splits_a bs!";" (by decide)) .nil (.punct (t := .Semicolon) (by decide) (by decide) (by decide)))
      .nil (.eof rfl)⟩

/-- `a.` and a non-ASCII character: a panic, if `parse` ends. -/
example (hd : parse 20 bs!"a.é" ≠ .timeout) : parse 20 bs!"a.é" = .panic :=
  (C17_exact_partial (.of_text (by decide) (by decide)) hd).2
    ⟨_, [], bs!".é", splits_a _ (by decide), .nil, .dot (s := []) (c := 0xc3) (r := [0xa9]) (by simp) (by decide)⟩

/-- `a` and a character that is not alphanumeric. -/
example (ha : AlphanumericFirst bs!"€" false) : Diverges bs!"a €" :=
  C16_stalls_partial (.of_text (by decide) (by decide)) (g := bs!" ") (splits_a _ (by decide))
    (.cons (p := bs!" ") (g := []) (.space (by decide)) .nil) (by decide) ha
end

end Ratel
