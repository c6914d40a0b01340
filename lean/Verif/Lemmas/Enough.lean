import Verif.Lemmas.Walk
import Verif.Props.Termination
/-! More fuel than there are bytes changes nothing: a run that is out of fuel by then never ends. Two runs with different
fuel are compared. Every round of every loop and every recursive call happens behind at least one more token of the source,
until the lexer is at the end of the program or in front of a character that it does not get past; there the loops that go on
go on forever. -/
namespace Ratel
open Spec

set_option linter.unusedSectionVars false
variable [Unicode]

/-- The lexer is in front of a character that it reports, and does not get past. -/
def Lex.Fixed (l : Lex) : Prop := l.token = .UnexpectedToken ∧ l.consume = .ok { l with asi := .NoSemicolon }

/-- The lexer does not move any more. -/
def Lex.Ended (l : Lex) : Prop := l.token = .EndOfProgram ∨ l.Fixed

open Classical in
/-- How much of the source is left to be consumed: the bytes behind the current token, and that token. -/
noncomputable def Lex.ahead (l : Lex) : Nat := l.rest.length + if l.Ended then 0 else 1

theorem Lex.consume_asi (l : Lex) (a : Asi) : ({ l with asi := a } : Lex).consume = l.consume := rfl

theorem Lex.Fixed.again {l : Lex} (h : l.Fixed) : ({ l with asi := .NoSemicolon } : Lex).Fixed :=
  ⟨h.1, by rw [Lex.consume_asi]; exact h.2⟩

theorem Lex.Fixed.consume {l l' : Lex} (h : l.Fixed) (hc : l.consume = .ok l') : l'.Fixed := by
  have := h.2
  rw [hc] at this
  cases this
  exact h.again

theorem Lex.consume_badChar {l : Lex} (h : 128 ≤ next l.rest) (ha : AlphanumericFirst l.rest false) :
    l.consume = .ok { l with asi := .NoSemicolon, token := .UnexpectedToken, tokenStart := l.index } := by
  have hu : handlerOf (next l.rest) = .UNI := by
    revert h
    exact byte_forall (P := fun b => 128 ≤ b → handlerOf b = .UNI) (by decide +kernel) _
  have hb : ({ l with asi := .NoSemicolon } : Lex).readByte = next l.rest := rfl
  unfold Lex.consume Lex.scan
  simp only [hb, hu, reduceCtorEq, if_false, Lex.runHandler, Lex.uni]
  obtain ⟨c, h1, h2⟩ := ha
  simp [h1, h2, Lex.setToken]

/-- The runs `m` and `m'` are the same from `l` on; if they return, `Q` holds. -/
def Two {α : Type} (m m' : P α) (l : Lex) (Q : α → Lex → Prop) : Prop :=
  ∀ es, m ⟨l, es⟩ = m' ⟨l, es⟩ ∧ ∀ a s, m ⟨l, es⟩ = .ok (a, s) → Q a s.lex

section
variable {src : Bytes} {α β σ : Type}

theorem Two.weaken {m m' : P α} {l : Lex} {Q Q' : α → Lex → Prop} (h : Two m m' l Q) (hq : ∀ a l', Q a l' → Q' a l') : Two m m' l Q' :=
  fun es => ⟨(h es).1, fun a s hm => hq _ _ ((h es).2 a s hm)⟩

theorem Two.pure {a : α} {l : Lex} {Q : α → Lex → Prop} (h : Q a l) : Two (pure a) (pure a) l Q :=
  fun _ => ⟨rfl, fun _ _ h' => by cases h'; exact h⟩
theorem Two.panic {l : Lex} {Q : α → Lex → Prop} : Two panic panic l Q := fun _ => ⟨rfl, nofun⟩

theorem Two.bind {m m' : P α} {f f' : α → P β} {l : Lex} {Q : β → Lex → Prop} (h : Two m m' l fun a l' => Two (f a) (f' a) l' Q) :
    Two (m >>= f) (m' >>= f') l Q := by
  intro es
  have := h es
  rw [P.bind_run, P.bind_run, ← this.1]
  cases e : m ⟨l, es⟩ with
  | ok x =>
    obtain ⟨a, s⟩ := x
    exact this.2 a s e s.errors
  | _ => exact ⟨rfl, nofun⟩

theorem Two.tok {f f' : Token → P β} {l : Lex} {Q : β → Lex → Prop} (h : Two (f l.token) (f' l.token) l Q) : Two (tok >>= f) (tok >>= f') l Q := h
theorem Two.asi {f f' : Asi → P β} {l : Lex} {Q : β → Lex → Prop} (h : Two (f l.asi) (f' l.asi) l Q) : Two (asi >>= f) (asi >>= f') l Q := h
theorem Two.start {f f' : Nat → P β} {l : Lex} {Q : β → Lex → Prop} (h : Two (f l.tokenStart) (f' l.tokenStart) l Q) : Two (start >>= f) (start >>= f') l Q := h
theorem Two.stop {f f' : Nat → P β} {l : Lex} {Q : β → Lex → Prop} (h : Two (f l.index) (f' l.index) l Q) : Two (stop >>= f) (stop >>= f') l Q := h
theorem Two.curLoc {f f' : Loc → P β} {l : Lex} {Q : β → Lex → Prop} (h : Two (f ⟨l.tokenStart, l.index⟩) (f' ⟨l.tokenStart, l.index⟩) l Q) :
    Two (curLoc >>= f) (curLoc >>= f') l Q := h
theorem Two.tokStr {f f' : Bytes → P β} {l : Lex} {Q : β → Lex → Prop} (h : Two (f l.tokenAsStr) (f' l.tokenAsStr) l Q) : Two (tokStr >>= f) (tokStr >>= f') l Q := h
theorem Two.accStr {f f' : Bytes → P β} {l : Lex} {Q : β → Lex → Prop} (h : Two (f l.accessorAsStr) (f' l.accessorAsStr) l Q) : Two (accStr >>= f) (accStr >>= f') l Q := h
theorem Two.quasi {f f' : Bytes → P β} {l : Lex} {Q : β → Lex → Prop} (h : Two (f l.quasi) (f' l.quasi) l Q) : Two (quasi >>= f) (quasi >>= f') l Q := h

theorem Proper.consume_ahead {l l' : Lex} (h : Proper src l) (h' : l.consume = .ok l') :
    l'.ahead ≤ l.ahead ∧ (¬l.Ended → l'.ahead < l.ahead) := by
  obtain ⟨g, p, hs, hw, hp⟩ := h.lexing.consume_scanned h'
  have hr : l.rest.length = g.length + (p.length + l'.rest.length) := by
    have := congrArg List.length hs.rest
    simpa using this
  unfold Lex.ahead
  by_cases he : l.Ended
  · have he' : l'.Ended := by
      rcases he with he | he
      · have hn : next l.rest = 0 := h.lexing.wf.eof he
        have hc := consume_at_nul hn
        rw [h'] at hc
        cases hc
        exact .inl rfl
      · exact .inr (he.consume h')
    simp only [he, he', if_true, not_true_eq_false, false_implies, and_true]
    omega
  · by_cases he' : l'.Ended
    · simp [he, he']; omega
    · have : l'.tokenStart < l'.index := by
        refine Nat.lt_of_not_le fun hle => he' ?_
        by_cases he2 : l'.token = .EndOfProgram
        · exact .inl he2
        by_cases hu : l'.token = .UnexpectedToken
        · exact .inr ⟨hu, by
            rw [hs.index, hs.tokenStart] at hle
            have hp0 : p = [] := List.length_eq_zero_iff.1 (by omega)
            have hx := hs.lexeme
            have hi : l'.tokenStart = l'.index := by rw [hs.index, hs.tokenStart, hp0]; rfl
            rw [hp0, hu] at hx
            generalize ht : Token.UnexpectedToken = t at hx
            generalize hq : ([] : Bytes) = q at hx
            cases hx with
            | badChar h1 h2 =>
              rw [Lex.consume_badChar h1 h2, ← hi]
              congr
              exact hu.symm
            | punct hm =>
              subst ht hq
              exact absurd hm (by decide +kernel)
            | _ => first
              | (cases ht; done)
              | (cases hq; done)⟩
        · exact absurd (C02_tokens_nonempty h.lexing h' he2 hu) (by omega)
      have hp' : 0 < p.length := by
        rw [hs.index, hs.tokenStart] at this
        omega
      simp [he, he']; omega

/-- What `consume` and `error` do. -/
@[reducible] def Onto (src : Bytes) (l l' : Lex) : Prop :=
  Proper src l' ∧ l'.ahead ≤ l.ahead ∧ (¬l.Ended → l'.ahead < l.ahead)

theorem Two.consume' {l : Lex} {Q : Unit → Lex → Prop} (hl : Proper src l) (h : ∀ l', Onto src l l' → Q () l') :
    Two consume consume l Q := by
  refine fun es => ⟨rfl, fun a s hs => ?_⟩
  unfold Ratel.consume at hs
  cases hc : l.consume <;> simp [hc, Out.bind] at hs
  subst hs
  exact h _ ⟨hl.consume hc, hl.consume_ahead hc⟩

theorem Two.error' {l : Lex} {Q : Unit → Lex → Prop} (hl : Proper src l) (h : ∀ l', Onto src l l' → Q () l') :
    Two error error l Q := by
  refine fun es => ⟨rfl, fun a s hs => ?_⟩
  unfold Ratel.error at hs
  cases hc : l.invalidToken with
  | ok x =>
    obtain ⟨e, l'⟩ := x
    simp [hc, Out.bind] at hs
    subst hs
    rcases (invalidToken_ok hc).1 with ⟨ht, rfl⟩ | ⟨-, hc⟩
    · exact h _ ⟨hl, Nat.le_refl _, fun hn => absurd (.inl ht) hn⟩
    · exact h _ ⟨hl.consume hc, hl.consume_ahead hc⟩
  | _ => simp [hc, Out.bind] at hs

theorem Two.consume {f f' : Unit → P β} {l : Lex} {Q : β → Lex → Prop} (hl : Proper src l)
    (h : ∀ l', Onto src l l' → Two (f ()) (f' ()) l' Q) : Two (Ratel.consume >>= f) (Ratel.consume >>= f') l Q := .bind (.consume' hl h)
theorem Two.error {f f' : Unit → P β} {l : Lex} {Q : β → Lex → Prop} (hl : Proper src l)
    (h : ∀ l', Onto src l l' → Two (f ()) (f' ()) l' Q) : Two (Ratel.error >>= f) (Ratel.error >>= f') l Q := .bind (.error' hl h)
theorem Two.startThenConsume {f f' : Nat → P β} {l : Lex} {Q : β → Lex → Prop} (hl : Proper src l)
    (h : ∀ l', Onto src l l' → Two (f l.tokenStart) (f' l.tokenStart) l' Q) :
    Two (Ratel.startThenConsume >>= f) (Ratel.startThenConsume >>= f') l Q :=
  .bind (.start (.consume hl fun l' h' => .pure (h l' h')))
theorem Two.endThenConsume {f f' : Nat → P β} {l : Lex} {Q : β → Lex → Prop} (hl : Proper src l)
    (h : ∀ l', Onto src l l' → Two (f l.index) (f' l.index) l' Q) :
    Two (Ratel.endThenConsume >>= f) (Ratel.endThenConsume >>= f') l Q :=
  .bind (.stop (.consume hl fun l' h' => .pure (h l' h')))
theorem Two.expect' {t : Token} {l : Lex} {Q : Unit → Lex → Prop} (hl : Proper src l)
    (h : ∀ l', Onto src l l' → Q () l') : Two (expect t) (expect t) l Q := by
  unfold Ratel.expect
  refine .tok ?_
  split
  · exact .consume' hl h
  · exact .error' hl h
theorem Two.expect {t : Token} {f f' : Unit → P β} {l : Lex} {Q : β → Lex → Prop} (hl : Proper src l)
    (h : ∀ l', Onto src l l' → Two (f ()) (f' ()) l' Q) : Two (Ratel.expect t >>= f) (Ratel.expect t >>= f') l Q := .bind (.expect' hl h)

theorem Lex.not_ended {l : Lex} {t : Token} (h : l.token = t) (h1 : t ≠ .EndOfProgram) (h2 : t ≠ .UnexpectedToken) : ¬l.Ended := by
  rintro (h' | h')
  · exact h1 (h ▸ h')
  · exact h2 (h ▸ h'.1)

theorem Lex.ahead_le (l : Lex) : l.ahead ≤ l.rest.length + 1 := by
  unfold Lex.ahead
  split <;> omega

theorem Lex.ahead_eq {l : Lex} (h : ¬l.Ended) : l.ahead = l.rest.length + 1 := by simp [Lex.ahead, h]

theorem Two.template' {l : Lex} {Q : Unit → Lex → Prop} (hl : Proper src l) (ht : l.token = .BraceClose)
    (h : ∀ l', Proper src l' → l'.ahead ≤ l.ahead → Q () l') : Two readTemplateKind readTemplateKind l Q := by
  refine fun es => ⟨rfl, fun a s hs => ?_⟩
  unfold Ratel.readTemplateKind at hs
  have hp := Lex.readTemplateKind_spec l
  cases hc : l.readTemplateKind <;> simp [hc, Out.bind] at hs
  subst hs
  refine h _ (hl.template ht hc) ?_
  obtain ⟨p, q, -, ho, -⟩ := hp.of_ok hc
  have := congrArg List.length ho.rest
  simp only [List.length_append] at this
  rw [Lex.ahead_eq (l := l) (Lex.not_ended ht (by decide) (by decide))]
  refine Nat.le_trans (Lex.ahead_le _) ?_
  dsimp only
  omega

theorem Two.regex {f f' : Bytes → P β} {l : Lex} {Q : β → Lex → Prop} (hl : Proper src l) (ht : l.token = .OperatorDivision)
    (h : ∀ v l', Proper src l' → l'.ahead ≤ l.ahead → l'.ahead < l.ahead ∨ ¬l'.Ended → Two (f v) (f' v) l' Q) :
    Two (readRegex >>= f) (readRegex >>= f') l Q := by
  refine .bind fun es => ⟨rfl, fun a s hs => ?_⟩
  unfold Ratel.readRegex at hs
  have hp := readRegularExpression_spec l
  cases hc : l.readRegularExpression with
  | ok x =>
    obtain ⟨l', v⟩ := x
    simp [hc, Out.bind] at hs
    obtain ⟨rfl, rfl⟩ := hs
    obtain ⟨p, c, q, -, ho, hx⟩ := hp.of_ok hc
    have := congrArg List.length ho.rest
    simp only [List.length_append] at this
    have he := Lex.ahead_eq (l := l) (Lex.not_ended ht (by decide) (by decide))
    refine h _ _ (hl.regex ht hc) (Nat.le_trans (Lex.ahead_le _) (by dsimp only at *; omega)) ?_
    by_cases hE : l'.Ended
    · left
      rw [he]
      simp only [Lex.ahead, hE, if_true]
      dsimp only at *
      omega
    · exact .inr hE
  | _ => simp [hc, Out.bind] at hs

/-- A procedure that does not need more fuel if it is started with at least `d` more rounds than tokens left; `st` says that
it does not return without consuming something, unless there is nothing to consume. -/
class Two.Ter (src : Bytes) (n n' : Nat) (m m' : P α) (d : outParam Nat) (st : outParam Bool) : Prop where
  is : ∀ l, Proper src l → l.ahead + d ≤ n → l.ahead + d ≤ n' → Two m m' l fun _ l' =>
    Proper src l' ∧ l'.ahead ≤ l.ahead ∧ (st = true → ¬l.Ended → l'.ahead < l.ahead)

/-- A procedure that is started at a token, with more rounds than tokens left, and consumes that token. -/
class Two.Hi (src : Bytes) (n n' : Nat) (m m' : P α) : Prop where
  is : ∀ l, Proper src l → ¬l.Ended → l.ahead + 1 ≤ n → l.ahead + 1 ≤ n' → Two m m' l fun _ l' =>
    Proper src l' ∧ l'.ahead < l.ahead

/-- In front of a character that the lexer does not get past, the procedure returns without moving, if it returns. -/
class Stall (m : P α) : Prop where
  is : ∀ s : PState, s.lex.Fixed → m s = .timeout ∨ ∃ a t, m s = .ok (a, t) ∧ t.lex.Fixed

/-- The recursive procedures. -/
class Rec.Two (src : Bytes) (n n' : Nat) (R R' : Rec) : Prop where
  expr : ∀ c lvl, Two.Ter src n n' (R.expr c lvl) (R'.expr c lvl) 2 false
  stmt : Two.Ter src n n' R.stmt R'.stmt 2 true
  patArray : ∀ l, Proper src l → l.ahead + 2 ≤ n → l.ahead + 2 ≤ n' → l.token = .BracketOpen → Ratel.Two R.patArray R'.patArray l fun _ l' =>
    Proper src l' ∧ l'.ahead ≤ l.ahead
  property : Two.Ter src n n' R.property R'.property 2 false
  stuck : ∀ s : PState, s.lex.token = .EndOfProgram → R.stmt s = .timeout ∨ ∃ a t, R.stmt s = .ok (a, t) ∧ t.lex.token = .EndOfProgram
  stuck' : ∀ s : PState, s.lex.token = .EndOfProgram → R'.stmt s = .timeout ∨ ∃ a t, R'.stmt s = .ok (a, t) ∧ t.lex.token = .EndOfProgram

theorem Two.ter' {n n' d : Nat} {st : Bool} {m m' : P α} [h : Two.Ter src n n' m m' d st] {l : Lex} {Q : α → Lex → Prop} (hl : Proper src l)
    (hn : l.ahead + d ≤ n) (hn' : l.ahead + d ≤ n')
    (hq : ∀ a l', Proper src l' → l'.ahead ≤ l.ahead ∧ (st = true → ¬l.Ended → l'.ahead < l.ahead) → Q a l') : Two m m' l Q :=
  (h.is l hl hn hn').weaken fun a l' h => hq a l' h.1 h.2
theorem Two.ter {n n' d : Nat} {st : Bool} {m m' : P α} [h : Two.Ter src n n' m m' d st] {f f' : α → P β} {l : Lex} {Q : β → Lex → Prop}
    (hl : Proper src l) (hn : l.ahead + d ≤ n) (hn' : l.ahead + d ≤ n')
    (hq : ∀ a l', Proper src l' → l'.ahead ≤ l.ahead ∧ (st = true → ¬l.Ended → l'.ahead < l.ahead) → Two (f a) (f' a) l' Q) :
    Two (m >>= f) (m' >>= f') l Q := .bind (.ter' hl hn hn' hq)
theorem Two.hi' {n n' : Nat} {m m' : P α} [h : Two.Hi src n n' m m'] {l : Lex} {Q : α → Lex → Prop} (hl : Proper src l)
    (ht : ¬l.Ended) (hn : l.ahead + 1 ≤ n) (hn' : l.ahead + 1 ≤ n')
    (hq : ∀ a l', Proper src l' → l'.ahead < l.ahead → Q a l') : Two m m' l Q :=
  (h.is l hl ht hn hn').weaken fun a l' h => hq a l' h.1 h.2
theorem Two.hi {n n' : Nat} {m m' : P α} [h : Two.Hi src n n' m m'] {f f' : α → P β} {l : Lex} {Q : β → Lex → Prop} (hl : Proper src l)
    (ht : ¬l.Ended) (hn : l.ahead + 1 ≤ n) (hn' : l.ahead + 1 ≤ n')
    (hq : ∀ a l', Proper src l' → l'.ahead < l.ahead → Two (f a) (f' a) l' Q) : Two (m >>= f) (m' >>= f') l Q := .bind (.hi' hl ht hn hn' hq)

/-- What a round of a loop has to do. -/
@[reducible] def Step.Turn (src : Bytes) (l : Lex) (r : Step σ α) (l' : Lex) : Prop :=
  match r with
  | .again _ => Proper src l' ∧ l'.ahead < l.ahead
  | .done _ => Proper src l' ∧ l'.ahead ≤ l.ahead

/-- A loop, that may also go on forever where the lexer is stuck. -/
theorem Two.loopAt {body body' : σ → P (Step σ α)} {m : Nat} {I : PState → Prop}
    (hs : ∀ x s, I s → body x s = .timeout ∨ ∃ y t, body x s = .ok (.again y, t) ∧ I t)
    (hs' : ∀ x s, I s → body' x s = .timeout ∨ ∃ y t, body' x s = .ok (.again y, t) ∧ I t)
    (hb : ∀ x l, Proper src l → l.ahead ≤ m → (∀ es, I ⟨l, es⟩) ∨ Two (body x) (body' x) l (Step.Turn src l)) :
    ∀ {n n' : Nat} {x : σ} {l : Lex} {Q : α → Lex → Prop}, Proper src l → l.ahead ≤ m → l.ahead + 1 ≤ n → l.ahead + 1 ≤ n' →
      (∀ a l', Proper src l' → l'.ahead ≤ l.ahead → Q a l') → Two (Ratel.loop n body x) (Ratel.loop n' body' x) l Q := by
  intro n
  induction n with
  | zero => intro n' x l Q _ _ h; omega
  | succ n ih =>
    intro n' x l Q hl hm hn hn' hq
    rcases hb x l hl hm with h | h
    · intro es
      rw [loop_stuck hs _ _ _ (h es), loop_stuck hs' _ _ _ (h es)]
      exact ⟨rfl, nofun⟩
    · obtain ⟨n', rfl⟩ : ∃ k, n' = k + 1 := ⟨n' - 1, by omega⟩
      rw [Ratel.loop, Ratel.loop]
      refine .bind (h.weaken fun r l' hr => ?_)
      cases r with
      | again y =>
        have := hr.2
        exact ih hr.1 (by omega) (by omega) (by omega) fun a l'' h1 h2 => hq a l'' h1 (by omega)
      | done a => exact .pure (hq a l' hr.1 hr.2)

theorem Two.loop' {body body' : σ → P (Step σ α)} {m : Nat} (hb : ∀ x l, Proper src l → l.ahead ≤ m → Two (body x) (body' x) l (Step.Turn src l))
    {n n' : Nat} {x : σ} {l : Lex} {Q : α → Lex → Prop} (hl : Proper src l) (hm : l.ahead ≤ m) (hn : l.ahead + 1 ≤ n) (hn' : l.ahead + 1 ≤ n')
    (hq : ∀ a l', Proper src l' → l'.ahead ≤ l.ahead → Q a l') : Two (Ratel.loop n body x) (Ratel.loop n' body' x) l Q :=
  .loopAt (I := fun _ => False) nofun nofun (fun x l h h' => .inr (hb x l h h')) hl hm hn hn' hq

end
end Ratel
