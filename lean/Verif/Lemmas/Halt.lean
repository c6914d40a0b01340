import Verif.Lemmas.Reach
/-! Termination of the parser. Every round of every loop and every recursive call happens behind at least one more
token of the source, except in front of a non-ASCII character that cannot start a token (the lexer does not get
past it) and in the body of a `switch` case at the end of the program. -/
namespace Ratel
open Spec

set_option linter.unusedSectionVars false
variable [Unicode]

/-- The lexer never meets a character it cannot get past, and the program has no `switch`. -/
class Spec.Tame (src : Bytes) : Prop where
  moves : ∀ l l', Reach src l → l.consume = .ok l' → l'.token = .UnexpectedToken → l'.tokenAsStr ≠ []
  noSwitch : ∀ l, Reach src l → l.token ≠ .Switch

/-- How much of the source is left to be consumed: the bytes behind the current token, and that token. -/
def Lex.left (l : Lex) : Nat := l.rest.length + if l.token = .EndOfProgram then 0 else 1

/-- Total correctness: `m` does not run out of fuel; if it returns, `Q` holds. -/
def Fin {α : Type} (m : P α) (l : Lex) (Q : α → Lex → Prop) : Prop :=
  ∀ es, match m ⟨l, es⟩ with
    | .ok (a, s) => Q a s.lex
    | .timeout => False
    | _ => True

section
variable {src : Bytes} {α β σ : Type}

theorem Fin.weaken {m : P α} {l : Lex} {Q Q' : α → Lex → Prop} (h : Fin m l Q) (hq : ∀ a l', Q a l' → Q' a l') : Fin m l Q' := by
  intro es
  have := h es
  cases e : m ⟨l, es⟩ <;> rw [e] at this
  · exact hq _ _ this
  all_goals exact this

theorem Fin.pure {a : α} {l : Lex} {Q : α → Lex → Prop} (h : Q a l) : Fin (pure a) l Q := fun _ => h
theorem Fin.panic {l : Lex} {Q : α → Lex → Prop} : Fin panic l Q := fun _ => trivial

theorem Fin.bind {m : P α} {f : α → P β} {l : Lex} {Q : β → Lex → Prop} (h : Fin m l fun a l' => Fin (f a) l' Q) :
    Fin (m >>= f) l Q := by
  intro es
  have := h es
  rw [P.bind_run]
  cases e : m ⟨l, es⟩ <;> rw [e] at this
  · exact this _
  all_goals first | trivial | exact this.elim

theorem Fin.tok {f : Token → P β} {l : Lex} {Q : β → Lex → Prop} (h : Fin (f l.token) l Q) : Fin (tok >>= f) l Q := h
theorem Fin.asi {f : Asi → P β} {l : Lex} {Q : β → Lex → Prop} (h : Fin (f l.asi) l Q) : Fin (asi >>= f) l Q := h
theorem Fin.start {f : Nat → P β} {l : Lex} {Q : β → Lex → Prop} (h : Fin (f l.tokenStart) l Q) : Fin (start >>= f) l Q := h
theorem Fin.stop {f : Nat → P β} {l : Lex} {Q : β → Lex → Prop} (h : Fin (f l.index) l Q) : Fin (stop >>= f) l Q := h
theorem Fin.curLoc {f : Loc → P β} {l : Lex} {Q : β → Lex → Prop} (h : Fin (f ⟨l.tokenStart, l.index⟩) l Q) : Fin (curLoc >>= f) l Q := h
theorem Fin.tokStr {f : Bytes → P β} {l : Lex} {Q : β → Lex → Prop} (h : Fin (f l.tokenAsStr) l Q) : Fin (tokStr >>= f) l Q := h
theorem Fin.accStr {f : Bytes → P β} {l : Lex} {Q : β → Lex → Prop} (h : Fin (f l.accessorAsStr) l Q) : Fin (accStr >>= f) l Q := h
theorem Fin.quasi {f : Bytes → P β} {l : Lex} {Q : β → Lex → Prop} (h : Fin (f l.quasi) l Q) : Fin (quasi >>= f) l Q := h

theorem Reach.consume_left {l l' : Lex} [ht : Tame src] (h : Reach src l) (h' : l.consume = .ok l') :
    l'.left ≤ l.left ∧ (l.token ≠ .EndOfProgram → l'.left < l.left) := by
  obtain ⟨g, p, hs, hw, hp⟩ := h.lexing.consume_scanned h'
  have hr : l.rest.length = g.length + (p.length + l'.rest.length) := by
    have := congrArg List.length hs.rest
    simpa using this
  unfold Lex.left
  by_cases he : l.token = .EndOfProgram
  · have hn : next l.rest = 0 := h.lexing.wf.eof he
    have hc := consume_at_nul hn
    rw [h'] at hc
    cases hc
    simp [he]
  · by_cases he' : l'.token = .EndOfProgram
    · simp [he, he']; omega
    · have : l'.tokenStart < l'.index := by
        by_cases hu : l'.token = .UnexpectedToken
        · have hx := ht.moves l l' h h' hu
          rw [hp] at hx
          have := List.length_pos_iff.mpr hx
          rw [hs.index, hs.tokenStart]
          omega
        · exact C02_tokens_nonempty h.lexing h' he' hu
      have hp' : 0 < p.length := by
        rw [hs.index, hs.tokenStart] at this
        omega
      simp [he, he']; omega

/-- What `consume` and `error` do. -/
@[reducible] def Moves (src : Bytes) (l l' : Lex) : Prop :=
  Reach src l' ∧ l'.left ≤ l.left ∧ (l.token ≠ .EndOfProgram → l'.left < l.left)

variable [Tame src]

theorem Lex.consume_ne_timeout (l : Lex) : l.consume ≠ .timeout := by
  intro h
  rw [Lex.consume_eq] at h
  have := Lex.scanAll_spec { l with asi := .NoSemicolon }
  rw [h] at this
  exact this

theorem Fin.consume' {l : Lex} {Q : Unit → Lex → Prop} (hl : Reach src l) (h : ∀ l', Moves src l l' → Q () l') :
    Fin consume l Q := by
  intro es
  cases hc : l.consume <;> simp [Ratel.consume, hc, Out.bind]
  · exact h _ ⟨hl.consume hc, hl.consume_left hc⟩
  · exact absurd hc l.consume_ne_timeout

theorem Fin.error' {l : Lex} {Q : Unit → Lex → Prop} (hl : Reach src l) (h : ∀ l', Moves src l l' → Q () l') :
    Fin error l Q := by
  intro es
  cases hc : l.invalidToken with
  | ok x =>
    obtain ⟨e, l'⟩ := x
    simp [Ratel.error, hc, Out.bind]
    rcases (invalidToken_ok hc).1 with ⟨ht, rfl⟩ | ⟨-, hc⟩
    · exact h _ ⟨hl, Nat.le_refl _, fun hn => absurd ht hn⟩
    · exact h _ ⟨hl.consume hc, hl.consume_left hc⟩
  | timeout =>
    unfold Lex.invalidToken at hc
    split at hc
    · cases hc
    · cases hc' : l.consume <;> simp [hc'] at hc
      exact absurd hc' l.consume_ne_timeout
  | _ => simp [Ratel.error, hc, Out.bind]

theorem Fin.consume {f : Unit → P β} {l : Lex} {Q : β → Lex → Prop} (hl : Reach src l)
    (h : ∀ l', Moves src l l' → Fin (f ()) l' Q) : Fin (Ratel.consume >>= f) l Q := .bind (.consume' hl h)
theorem Fin.error {f : Unit → P β} {l : Lex} {Q : β → Lex → Prop} (hl : Reach src l)
    (h : ∀ l', Moves src l l' → Fin (f ()) l' Q) : Fin (Ratel.error >>= f) l Q := .bind (.error' hl h)
theorem Fin.startThenConsume {f : Nat → P β} {l : Lex} {Q : β → Lex → Prop} (hl : Reach src l)
    (h : ∀ l', Moves src l l' → Fin (f l.tokenStart) l' Q) : Fin (Ratel.startThenConsume >>= f) l Q :=
  .bind (.start (.consume hl fun l' h' => .pure (h l' h')))
theorem Fin.endThenConsume {f : Nat → P β} {l : Lex} {Q : β → Lex → Prop} (hl : Reach src l)
    (h : ∀ l', Moves src l l' → Fin (f l.index) l' Q) : Fin (Ratel.endThenConsume >>= f) l Q :=
  .bind (.stop (.consume hl fun l' h' => .pure (h l' h')))
theorem Fin.expect' {t : Token} {l : Lex} {Q : Unit → Lex → Prop} (hl : Reach src l)
    (h : ∀ l', Moves src l l' → Q () l') : Fin (expect t) l Q := by
  unfold Ratel.expect
  refine .tok ?_
  split
  · exact .consume' hl h
  · exact .error' hl h
theorem Fin.expect {t : Token} {f : Unit → P β} {l : Lex} {Q : β → Lex → Prop} (hl : Reach src l)
    (h : ∀ l', Moves src l l' → Fin (f ()) l' Q) : Fin (Ratel.expect t >>= f) l Q := .bind (.expect' hl h)

theorem Fin.template' {l : Lex} {Q : Unit → Lex → Prop} (hl : Reach src l) (ht : l.token = .BraceClose) (hb : #b'`' ∈ src)
    (h : ∀ l', Reach src l' → l'.left ≤ l.left → Q () l') : Fin readTemplateKind l Q := by
  intro es
  have hp := Lex.readTemplateKind_spec l
  cases hc : l.readTemplateKind <;> simp [Ratel.readTemplateKind, hc, Out.bind]
  · refine h _ (hl.template ht hb hc) ?_
    obtain ⟨p, q, -, ho, -⟩ := hp.of_ok hc
    have := congrArg List.length ho.rest
    simp only [List.length_append] at this
    unfold Lex.left
    simp only [ht]
    split <;> simp <;> omega
  · rw [hc] at hp; exact hp

theorem Fin.regex {f : Bytes → P β} {l : Lex} {Q : β → Lex → Prop} (hl : Reach src l) (ht : l.token = .OperatorDivision)
    (h : ∀ v l', Reach src l' → l'.left ≤ l.left → l'.token ≠ .EndOfProgram → Fin (f v) l' Q) : Fin (readRegex >>= f) l Q := by
  refine .bind ?_
  intro es
  have hp := readRegularExpression_spec l
  cases hc : l.readRegularExpression <;> simp [Ratel.readRegex, hc, Out.bind]
  · obtain ⟨p, c, q, -, ho, hx⟩ := hp.of_ok hc
    refine h _ _ (hl.regex ht hc) ?_ ?_
    · have := congrArg List.length ho.rest
      simp only [List.length_append] at this
      unfold Lex.left
      simp only [ht]
      split <;> simp <;> omega
    · rcases hx with hx | hx | hx <;> simp_all
  · rw [hc] at hp; exact hp

/-- A procedure that returns if it is started with at least `d` more rounds than tokens left; `st` says that it does not
return without consuming something, unless it is started at the end of the program. -/
class Ter (src : Bytes) (n : Nat) (m : P α) (d : outParam Nat) (st : outParam Bool) : Prop where
  is : ∀ l, Reach src l → l.left + d ≤ n → Fin m l fun _ l' =>
    Reach src l' ∧ l'.left ≤ l.left ∧ (st = true → l.token ≠ .EndOfProgram → l'.left < l.left)

/-- A procedure that is started at a token, with more rounds than tokens left, and consumes that token. -/
class Hi (src : Bytes) (n : Nat) (m : P α) : Prop where
  is : ∀ l, Reach src l → l.token ≠ .EndOfProgram → l.left + 1 ≤ n → Fin m l fun _ l' =>
    Reach src l' ∧ l'.left < l.left

/-- The recursive procedures return. -/
class Rec.Ter (src : Bytes) (n : Nat) (R : Rec) : Prop where
  expr : ∀ c lvl, Ratel.Ter src n (R.expr c lvl) 2 false
  stmt : Ratel.Ter src n R.stmt 2 true
  patArray : ∀ l, Reach src l → l.left + 2 ≤ n → l.token = .BracketOpen → Fin R.patArray l fun _ l' =>
    Reach src l' ∧ l'.left ≤ l.left
  property : Ratel.Ter src n R.property 2 false

theorem Fin.ter' {n d : Nat} {st : Bool} {m : P α} [h : Ter src n m d st] {l : Lex} {Q : α → Lex → Prop} (hl : Reach src l)
    (hn : l.left + d ≤ n)
    (hq : ∀ a l', Reach src l' → l'.left ≤ l.left ∧ (st = true → l.token ≠ .EndOfProgram → l'.left < l.left) → Q a l') : Fin m l Q :=
  (h.is l hl hn).weaken fun a l' h => hq a l' h.1 h.2
theorem Fin.ter {n d : Nat} {st : Bool} {m : P α} [h : Ter src n m d st] {f : α → P β} {l : Lex} {Q : β → Lex → Prop}
    (hl : Reach src l) (hn : l.left + d ≤ n)
    (hq : ∀ a l', Reach src l' → l'.left ≤ l.left ∧ (st = true → l.token ≠ .EndOfProgram → l'.left < l.left) → Fin (f a) l' Q) :
    Fin (m >>= f) l Q := .bind (.ter' hl hn hq)
theorem Fin.hi' {n : Nat} {m : P α} [h : Hi src n m] {l : Lex} {Q : α → Lex → Prop} (hl : Reach src l)
    (ht : l.token ≠ .EndOfProgram) (hn : l.left + 1 ≤ n)
    (hq : ∀ a l', Reach src l' → l'.left < l.left → Q a l') : Fin m l Q :=
  (h.is l hl ht hn).weaken fun a l' h => hq a l' h.1 h.2
theorem Fin.hi {n : Nat} {m : P α} [h : Hi src n m] {f : α → P β} {l : Lex} {Q : β → Lex → Prop} (hl : Reach src l)
    (ht : l.token ≠ .EndOfProgram) (hn : l.left + 1 ≤ n)
    (hq : ∀ a l', Reach src l' → l'.left < l.left → Fin (f a) l' Q) : Fin (m >>= f) l Q := .bind (.hi' hl ht hn hq)

/-- What a round of a loop has to do. -/
@[reducible] def Turn (src : Bytes) (l : Lex) (r : Step σ α) (l' : Lex) : Prop :=
  match r with
  | .again _ => Reach src l' ∧ l'.left < l.left
  | .done _ => Reach src l' ∧ l'.left ≤ l.left

theorem Fin.loop' {body : σ → P (Step σ α)} {m : Nat} (hb : ∀ x l, Reach src l → l.left ≤ m → Fin (body x) l (Turn src l)) :
    ∀ {n : Nat} {x : σ} {l : Lex} {Q : α → Lex → Prop}, Reach src l → l.left ≤ m → l.left + 1 ≤ n →
      (∀ a l', Reach src l' → l'.left ≤ l.left → Q a l') → Fin (Ratel.loop n body x) l Q := by
  intro n
  induction n with
  | zero => intro x l Q _ _ h; omega
  | succ n ih =>
    intro x l Q hl hm hn hq
    rw [Ratel.loop]
    refine .bind ((hb x l hl hm).weaken fun r l' hr => ?_)
    cases r with
    | again y => exact ih hr.1 (by have := hr.2; omega) (by have := hr.2; omega) fun a l'' h1 h2 => hq a l'' h1 (by have := hr.2; omega)
    | done a => exact .pure (hq a l' hr.1 hr.2)

end
end Ratel
