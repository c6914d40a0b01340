import Verif.Lemmas.EnoughAll
/-! How many errors the parser reports. Every token pays for 9 errors: the number of errors plus 9 times what is left of the
source grows by a constant at most, in every procedure. At the end of the program, where errors do not consume anything, every
procedure that is still open reports a bounded number of errors. -/
namespace Ratel
open Spec

set_option linter.unusedSectionVars false
variable [Unicode]

/-- If `m`, started with `k` errors, returns, `Q` holds of the result, the state of the lexer and the number of errors. -/
def Few {α : Type} (m : P α) (l : Lex) (k : Nat) (Q : α → Lex → Nat → Prop) : Prop :=
  ∀ es, es.length = k → ∀ a s, m ⟨l, es⟩ = .ok (a, s) → Q a s.lex s.errors.length

section
variable {src : Bytes} {α β σ : Type} {l : Lex} {k : Nat}

theorem Few.weaken {m : P α} {Q Q' : α → Lex → Nat → Prop} (h : Few m l k Q) (hq : ∀ a l' k', Q a l' k' → Q' a l' k') : Few m l k Q' :=
  fun es he a s hm => hq _ _ _ (h es he a s hm)
theorem Few.pure {a : α} {Q : α → Lex → Nat → Prop} (h : Q a l k) : Few (pure a) l k Q := by
  intro es he a s hm
  cases hm
  subst he
  exact h
theorem Few.panic {Q : α → Lex → Nat → Prop} : Few panic l k Q := fun _ _ _ _ => nofun
theorem Few.bind {m : P α} {f : α → P β} {Q : β → Lex → Nat → Prop} (h : Few m l k fun a l' k' => Few (f a) l' k' Q) :
    Few (m >>= f) l k Q := by
  intro es he b s hm
  rw [P.bind_run] at hm
  cases e : m ⟨l, es⟩ with
  | ok x =>
    obtain ⟨a, t⟩ := x
    rw [e] at hm
    exact h es he a t e t.errors rfl b s hm
  | _ => rw [e] at hm; cases hm
theorem Few.tok {f : Token → P β} {Q : β → Lex → Nat → Prop} (h : Few (f l.token) l k Q) : Few (tok >>= f) l k Q := h
theorem Few.asi {f : Asi → P β} {Q : β → Lex → Nat → Prop} (h : Few (f l.asi) l k Q) : Few (asi >>= f) l k Q := h
theorem Few.start {f : Nat → P β} {Q : β → Lex → Nat → Prop} (h : Few (f l.tokenStart) l k Q) : Few (start >>= f) l k Q := h
theorem Few.stop {f : Nat → P β} {Q : β → Lex → Nat → Prop} (h : Few (f l.index) l k Q) : Few (stop >>= f) l k Q := h
theorem Few.curLoc {f : Loc → P β} {Q : β → Lex → Nat → Prop} (h : Few (f ⟨l.tokenStart, l.index⟩) l k Q) : Few (curLoc >>= f) l k Q := h
theorem Few.tokStr {f : Bytes → P β} {Q : β → Lex → Nat → Prop} (h : Few (f l.tokenAsStr) l k Q) : Few (tokStr >>= f) l k Q := h
theorem Few.accStr {f : Bytes → P β} {Q : β → Lex → Nat → Prop} (h : Few (f l.accessorAsStr) l k Q) : Few (accStr >>= f) l k Q := h
theorem Few.quasi {f : Bytes → P β} {Q : β → Lex → Nat → Prop} (h : Few (f l.quasi) l k Q) : Few (quasi >>= f) l k Q := h

theorem Few.consume' {Q : Unit → Lex → Nat → Prop} (hl : Proper src l) (h : ∀ l', Onto src l l' → Q () l' k) : Few consume l k Q := by
  intro es he a s hs
  subst he
  unfold Ratel.consume at hs
  cases hc : l.consume <;> simp [hc, Out.bind] at hs
  subst hs
  exact h _ ⟨hl.consume hc, hl.consume_ahead hc⟩
theorem Few.error' {Q : Unit → Lex → Nat → Prop} (hl : Proper src l) (h : ∀ l', Onto src l l' → Q () l' (k + 1)) : Few error l k Q := by
  intro es he a s hs
  subst he
  unfold Ratel.error at hs
  cases hc : l.invalidToken with
  | ok x =>
    obtain ⟨e, l'⟩ := x
    simp [hc, Out.bind] at hs
    subst hs
    have hx : ∀ x, Onto src l x → Q () x (es ++ [e]).length := fun x hx => by simpa using h x hx
    rcases (invalidToken_ok hc).1 with ⟨ht, rfl⟩ | ⟨-, hc⟩
    · exact hx _ ⟨hl, Nat.le_refl _, fun hn => absurd (.inl ht) hn⟩
    · exact hx _ ⟨hl.consume hc, hl.consume_ahead hc⟩
  | _ => simp [hc, Out.bind] at hs
theorem Few.consume {f : Unit → P β} {Q : β → Lex → Nat → Prop} (hl : Proper src l)
    (h : ∀ l', Onto src l l' → Few (f ()) l' k Q) : Few (Ratel.consume >>= f) l k Q := .bind (.consume' hl h)
theorem Few.error {f : Unit → P β} {Q : β → Lex → Nat → Prop} (hl : Proper src l)
    (h : ∀ l', Onto src l l' → Few (f ()) l' (k + 1) Q) : Few (Ratel.error >>= f) l k Q := .bind (.error' hl h)
theorem Few.startThenConsume {f : Nat → P β} {Q : β → Lex → Nat → Prop} (hl : Proper src l)
    (h : ∀ l', Onto src l l' → Few (f l.tokenStart) l' k Q) : Few (Ratel.startThenConsume >>= f) l k Q :=
  .bind (.start (.consume hl fun l' h' => .pure (h l' h')))
theorem Few.endThenConsume {f : Nat → P β} {Q : β → Lex → Nat → Prop} (hl : Proper src l)
    (h : ∀ l', Onto src l l' → Few (f l.index) l' k Q) : Few (Ratel.endThenConsume >>= f) l k Q :=
  .bind (.stop (.consume hl fun l' h' => .pure (h l' h')))
theorem Few.expect' {t : Token} {Q : Unit → Lex → Nat → Prop} (hl : Proper src l)
    (h : ∀ l' k', k' ≤ k + 1 → Onto src l l' → Q () l' k') : Few (expect t) l k Q := by
  unfold Ratel.expect
  refine .tok ?_
  split
  · exact .consume' hl (h · _ (by omega))
  · exact .error' hl (h · _ (by omega))
theorem Few.expect {t : Token} {f : Unit → P β} {Q : β → Lex → Nat → Prop} (hl : Proper src l)
    (h : ∀ l' k', k' ≤ k + 1 → Onto src l l' → Few (f ()) l' k' Q) : Few (Ratel.expect t >>= f) l k Q := .bind (.expect' hl h)

theorem Few.template' {Q : Unit → Lex → Nat → Prop} (hl : Proper src l) (ht : l.token = .BraceClose)
    (h : ∀ l', Proper src l' → l'.ahead ≤ l.ahead → Q () l' k) : Few readTemplateKind l k Q := by
  intro es he a s hs
  subst he
  have h1 := ((Two.template' (Q := fun _ l' => Proper src l' ∧ l'.ahead ≤ l.ahead) hl ht fun l' h1 h2 => ⟨h1, h2⟩) es).2 a s hs
  have h2 : s.errors = es := by
    unfold Ratel.readTemplateKind at hs
    cases hc : l.readTemplateKind <;> simp [hc, Out.bind] at hs
    subst hs
    rfl
  rw [h2]
  exact h _ h1.1 h1.2
theorem Few.regex {f : Bytes → P β} {Q : β → Lex → Nat → Prop} (hl : Proper src l) (ht : l.token = .OperatorDivision)
    (h : ∀ v l', Proper src l' → l'.ahead ≤ l.ahead → l'.ahead < l.ahead ∨ ¬l'.Ended → Few (f v) l' k Q) :
    Few (readRegex >>= f) l k Q := by
  refine .bind fun es he a s hs => ?_
  subst he
  have h1 := ((Two.regex (f := Pure.pure) (f' := Pure.pure) (Q := fun _ l' => Proper src l' ∧ l'.ahead ≤ l.ahead ∧ (l'.ahead < l.ahead ∨ ¬l'.Ended)) hl ht
    fun v l' h1 h2 h3 => .pure ⟨h1, h2, h3⟩) es).2 a s (by rw [P.bind_eq hs]; rfl)
  have h2 : s.errors = es := by
    unfold Ratel.readRegex at hs
    cases hc : l.readRegularExpression <;> simp [hc, Out.bind] at hs
    obtain ⟨-, rfl⟩ := hs
    rfl
  rw [h2]
  exact h _ _ h1.1 h1.2.1 h1.2.2

/-- A procedure that reports at most `d` errors that are not paid for by the tokens it consumes; `st` says that it does not return
without consuming something, and reports no such errors, unless there is nothing to consume. -/
class Few.Ter (src : Bytes) (m : P α) (d : outParam Nat) (st : outParam Bool) : Prop where
  is : ∀ l k, Proper src l → Few m l k fun _ l' k' => Proper src l' ∧ l'.ahead ≤ l.ahead ∧ k' + 9 * l'.ahead ≤ k + 9 * l.ahead + d ∧
    (st = true → ¬l.Ended → l'.ahead < l.ahead ∧ k' + 9 * l'.ahead ≤ k + 9 * l.ahead)
/-- A procedure that is started at a token and consumes it, which pays for its errors. -/
class Few.Hi (src : Bytes) (m : P α) : Prop where
  is : ∀ l k, Proper src l → ¬l.Ended → Few m l k fun _ l' k' => Proper src l' ∧ l'.ahead < l.ahead ∧ k' + 9 * l'.ahead + 1 ≤ k + 9 * l.ahead
/-- How many errors there are if the expression is taken for a list of parameters, apart from the first. -/
def Expr.claims : Expr → Nat
  | .seq _ b => b.length
  | _ => 0
/-- An expression, whose errors as a list of parameters are paid for, too. -/
class Few.Val (src : Bytes) (m : P Expr) (d : outParam Nat) : Prop where
  is : ∀ l k, Proper src l → Few m l k fun a l' k' => Proper src l' ∧ l'.ahead ≤ l.ahead ∧ k' + a.claims + 9 * l'.ahead ≤ k + 9 * l.ahead + d

/-- What an expression that starts with a token pays for. -/
@[reducible] def Few.Paid (src : Bytes) (l : Lex) (k : Nat) (a : Expr) (l' : Lex) (k' : Nat) : Prop :=
  Proper src l' ∧ l'.ahead < l.ahead ∧ k' + a.claims + 9 * l'.ahead + 1 ≤ k + 9 * l.ahead
/-- An expression that is started at a token. -/
class Few.Vi (src : Bytes) (m : P Expr) : Prop where
  is : ∀ l k, Proper src l → ¬l.Ended → Few m l k (Few.Paid src l k)

/-- The recursive procedures. -/
class Rec.Few (src : Bytes) (R : Rec) : Prop where
  expr : ∀ c lvl, Few.Val src (R.expr c lvl) 1
  stmt : Few.Ter src R.stmt 1 true
  patArray : ∀ l k, Proper src l → l.token = .BracketOpen → Ratel.Few R.patArray l k fun _ l' k' =>
    Proper src l' ∧ l'.ahead ≤ l.ahead ∧ k' + 9 * l'.ahead ≤ k + 9 * l.ahead
  property : Few.Ter src R.property 1 false
  stuck : ∀ s : PState, s.lex.token = .EndOfProgram → R.stmt s = .timeout ∨ ∃ a t, R.stmt s = .ok (a, t) ∧ t.lex.token = .EndOfProgram

theorem Few.ter' {d : Nat} {st : Bool} {m : P α} [h : Few.Ter src m d st] {Q : α → Lex → Nat → Prop} (hl : Proper src l)
    (hq : ∀ a l' k', Proper src l' → l'.ahead ≤ l.ahead ∧ k' + 9 * l'.ahead ≤ k + 9 * l.ahead + d ∧
      (st = true → ¬l.Ended → l'.ahead < l.ahead ∧ k' + 9 * l'.ahead ≤ k + 9 * l.ahead) → Q a l' k') : Few m l k Q :=
  (h.is l k hl).weaken fun a l' k' h => hq a l' k' h.1 h.2
theorem Few.ter {d : Nat} {st : Bool} {m : P α} [h : Few.Ter src m d st] {f : α → P β} {Q : β → Lex → Nat → Prop} (hl : Proper src l)
    (hq : ∀ a l' k', Proper src l' → l'.ahead ≤ l.ahead ∧ k' + 9 * l'.ahead ≤ k + 9 * l.ahead + d ∧
      (st = true → ¬l.Ended → l'.ahead < l.ahead ∧ k' + 9 * l'.ahead ≤ k + 9 * l.ahead) → Few (f a) l' k' Q) : Few (m >>= f) l k Q :=
  .bind (.ter' hl hq)
theorem Few.val' {d : Nat} {m : P Expr} [h : Few.Val src m d] {Q : Expr → Lex → Nat → Prop} (hl : Proper src l)
    (hq : ∀ a l' k', Proper src l' → l'.ahead ≤ l.ahead → k' + a.claims + 9 * l'.ahead ≤ k + 9 * l.ahead + d → Q a l' k') : Few m l k Q :=
  (h.is l k hl).weaken fun a l' k' h => hq a l' k' h.1 h.2.1 h.2.2
theorem Few.val {d : Nat} {m : P Expr} [h : Few.Val src m d] {f : Expr → P β} {Q : β → Lex → Nat → Prop} (hl : Proper src l)
    (hq : ∀ a l' k', Proper src l' → l'.ahead ≤ l.ahead → k' + a.claims + 9 * l'.ahead ≤ k + 9 * l.ahead + d → Few (f a) l' k' Q) :
    Few (m >>= f) l k Q := .bind (.val' hl hq)
theorem Few.hi' {m : P α} [h : Few.Hi src m] {Q : α → Lex → Nat → Prop} (hl : Proper src l) (ht : ¬l.Ended)
    (hq : ∀ a l' k', Proper src l' → l'.ahead < l.ahead → k' + 9 * l'.ahead + 1 ≤ k + 9 * l.ahead → Q a l' k') : Few m l k Q :=
  (h.is l k hl ht).weaken fun a l' k' h => hq a l' k' h.1 h.2.1 h.2.2
theorem Few.hi {m : P α} [h : Few.Hi src m] {f : α → P β} {Q : β → Lex → Nat → Prop} (hl : Proper src l) (ht : ¬l.Ended)
    (hq : ∀ a l' k', Proper src l' → l'.ahead < l.ahead → k' + 9 * l'.ahead + 1 ≤ k + 9 * l.ahead → Few (f a) l' k' Q) : Few (m >>= f) l k Q :=
  .bind (.hi' hl ht hq)
theorem Few.vi' {m : P Expr} [h : Few.Vi src m] {Q : Expr → Lex → Nat → Prop} (hl : Proper src l) (ht : ¬l.Ended)
    (hq : ∀ a l' k', Proper src l' → l'.ahead < l.ahead → k' + a.claims + 9 * l'.ahead + 1 ≤ k + 9 * l.ahead → Q a l' k') : Few m l k Q :=
  (h.is l k hl ht).weaken fun a l' k' h => hq a l' k' h.1 h.2.1 h.2.2
theorem Few.patArray' {R : Rec} [h : Rec.Few src R] {Q : Pattern → Lex → Nat → Prop} (hl : Proper src l) (ht : l.token = .BracketOpen)
    (hq : ∀ a l' k', Proper src l' → l'.ahead ≤ l.ahead → k' + 9 * l'.ahead ≤ k + 9 * l.ahead → Q a l' k') : Few R.patArray l k Q :=
  (h.patArray l k hl ht).weaken fun a l' k' h => hq a l' k' h.1 h.2.1 h.2.2

/-- What a round of a loop has to do; `w` and `w'` are what is set aside for later errors, `d` is for the last round. -/
@[reducible] def Step.Pays (src : Bytes) (w : σ → Nat) (w' : α → Nat) (d : Nat) (l : Lex) (k : Nat) (x : σ) (r : Step σ α) (l' : Lex) (k' : Nat) : Prop :=
  match r with
  | .again y => Proper src l' ∧ l'.ahead ≤ l.ahead ∧ k' + w y + 9 * l'.ahead ≤ k + w x + 9 * l.ahead
  | .done a => Proper src l' ∧ l'.ahead ≤ l.ahead ∧ k' + w' a + 9 * l'.ahead ≤ k + w x + 9 * l.ahead + d

/-- A loop, that may also go on forever where the lexer is stuck. -/
theorem Few.loopAt {body : σ → P (Step σ α)} (w : σ → Nat) (w' : α → Nat) (d : Nat) {m : Nat} {I : PState → Prop}
    (hs : ∀ x s, I s → body x s = .timeout ∨ ∃ y t, body x s = .ok (.again y, t) ∧ I t)
    (hb : ∀ x l k, Proper src l → l.ahead ≤ m → (∀ es, I ⟨l, es⟩) ∨ Few (body x) l k (Step.Pays src w w' d l k x)) :
    ∀ {n : Nat} {x : σ} {l : Lex} {k : Nat} {Q : α → Lex → Nat → Prop}, Proper src l → l.ahead ≤ m →
      (∀ a l' k', Proper src l' → l'.ahead ≤ l.ahead → k' + w' a + 9 * l'.ahead ≤ k + w x + 9 * l.ahead + d → Q a l' k') →
      Few (Ratel.loop n body x) l k Q := by
  intro n
  induction n with
  | zero => exact fun _ _ _ _ _ _ _ => nofun
  | succ n ih =>
    intro x l k Q hl hm hq
    rcases hb x l k hl hm with h | h
    · intro es he a s ho
      rw [loop_stuck hs _ _ _ (h es)] at ho
      cases ho
    · rw [Ratel.loop]
      refine .bind (h.weaken fun r l' k' hr => ?_)
      cases r with
      | again y =>
        obtain ⟨h1, h2, h3⟩ := hr
        exact ih h1 (by omega) fun a l'' k'' h4 h5 h6 => hq a l'' k'' h4 (by omega) (by omega)
      | done a => exact .pure (hq a l' k' hr.1 hr.2.1 hr.2.2)

theorem Few.loop' {body : σ → P (Step σ α)} (w : σ → Nat) (w' : α → Nat) (d : Nat) {m : Nat}
    (hb : ∀ x l k, Proper src l → l.ahead ≤ m → Few (body x) l k (Step.Pays src w w' d l k x)) {n : Nat} {x : σ} {Q : α → Lex → Nat → Prop}
    (hl : Proper src l) (hm : l.ahead ≤ m)
    (hq : ∀ a l' k', Proper src l' → l'.ahead ≤ l.ahead → k' + w' a + 9 * l'.ahead ≤ k + w x + 9 * l.ahead + d → Q a l' k') :
    Few (Ratel.loop n body x) l k Q :=
  .loopAt w w' d (I := fun _ => False) nofun (fun x l k h h' => .inr (hb x l k h h')) hl hm hq

end

/-- Closes goals about how much is paid for. -/
macro "ahead3" : tactic => `(tactic| first
  | omega
  | ((try simp only [Expr.claims]); omega)
  | ((try simp only [Expr.claims]); grind))

macro "moved3" : tactic => `(tactic| (
  intro l' hm
  obtain ⟨hp', hle, hlt⟩ := hm
  (try replace hlt := hlt (by tok_run))))

macro "called3" : tactic => `(tactic| (
  intro a l' k' hp' hm
  obtain ⟨hle, hkk, hlt⟩ := hm
  (try replace hlt := hlt rfl (by tok_run))))

set_option hygiene false in
macro "few_step" : tactic => `(tactic| with_reducible first
  | apply Few.pure
  | apply Few.panic
  | apply Few.tok
  | apply Few.asi
  | apply Few.start
  | apply Few.stop
  | apply Few.curLoc
  | apply Few.tokStr
  | apply Few.accStr
  | apply Few.quasi
  | (apply Few.startThenConsume (by assumption); moved3)
  | (apply Few.endThenConsume (by assumption); moved3)
  | (apply Few.expect (by assumption); intro l' k' hk'; revert l'; moved3)
  | (apply Few.expect' (by assumption); intro l' k' hk'; revert l'; moved3)
  | (apply Few.consume (by assumption); moved3)
  | (apply Few.consume' (by assumption); moved3)
  | (apply Few.error (by assumption); moved3)
  | (apply Few.error' (by assumption); moved3)
  | (refine Few.val (src := src) (by assumption) ?_; intro a l' k' hp' hle hkk)
  | (refine Few.val' (src := src) (by assumption) ?_; intro a l' k' hp' hle hkk)
  | (refine Few.ter (src := src) (by assumption) ?_; called3)
  | (refine Few.ter' (src := src) (by assumption) ?_; called3)
  | (refine Few.hi (src := src) (by assumption) (by tok_run) ?_; intro a l' k' hp' hlt hkk)
  | (refine Few.hi' (src := src) (by assumption) (by tok_run) ?_; intro a l' k' hp' hlt hkk)
  | (refine Few.vi' (src := src) (by assumption) (by tok_run) ?_; intro a l' k' hp' hlt hkk)
  | (refine Few.patArray' (src := src) (by assumption) (by assumption) ?_; intro a l' k' hp' hle hkk)
  | (refine Few.template' (by assumption) (by assumption) ?_; intro l' hp' hle)
  | (refine Few.loop' (fun _ => 0) (fun _ => 0) 1 ?_ (by assumption) (Nat.le_refl _) ?_; rotate_left; (intro a l' k' hp' hle hkk; (try simp only [Nat.add_zero] at hkk)); rotate_left; intro x l' k' hp' hle)
  | apply Few.bind
  | (refine And.intro (by assumption) ?_; (try refine And.intro ?_ ?_; (try refine And.intro ?_ ?_)) <;> first | (intro h _; exact Bool.noConfusion h) | (intros; ahead3) | ahead3)
  | dsimp only
  | split)

macro "few" : tactic => `(tactic| repeat' few_step)
/-- Proves `Few.Ter`. -/
macro "ter3" : tactic => `(tactic| (refine ⟨fun l k hl => ?_⟩; few))
/-- Proves `Few.Hi`. -/
macro "hi3" : tactic => `(tactic| (refine ⟨fun l k hl ht => ?_⟩; few))

section
variable {src : Bytes} {n : Nat}

instance few_p1 {k} : Few.Ter src (parseName k) 1 false := by unfold parseName; ter3
instance few_p2 : Few.Ter src identifier 1 true := by unfold identifier; ter3
instance few_p3 : Few.Ter src expectSemicolon 1 false := by unfold expectSemicolon; ter3
end
end Ratel
