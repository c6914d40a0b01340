import Verif.Parser
import Verif.Props.Tables
import Verif.Props.Lexer
import Verif.Spec.Grammar
/-! Runs of the parser that succeed without errors, for all large enough amounts of fuel. -/
namespace Ratel
open Spec

set_option linter.unusedSectionVars false
variable [Unicode]

/-- With enough fuel, the procedure `m` started in `l` returns `a` in state `l'` and reports no error. -/
def Ev {α : Type} (m : Nat → P α) (l : Lex) (a : α) (l' : Lex) : Prop :=
  ∃ N, ∀ n, N ≤ n → m n ⟨l, []⟩ = .ok (a, ⟨l', []⟩)

/-- The same for a loop, whose bound on the number of rounds is independent of the fuel of its body. -/
def EvLoop {σ α : Type} (b : Nat → σ → P (Step σ α)) (x : σ) (l : Lex) (a : α) (l' : Lex) : Prop :=
  ∃ N, ∀ n k, N ≤ n → N ≤ k → loop k (b n) x ⟨l, []⟩ = .ok (a, ⟨l', []⟩)

namespace Ev
variable {α β σ : Type} {l l1 l' : Lex}

theorem ret {a : α} : Ev (fun _ => pure a) l a l := ⟨0, fun _ _ => rfl⟩

theorem hyp {m : Nat → P α} {a : α} (h : Ev m l a l') : Ev m l a l' := h

theorem ret_iff {a b : α} : Ev (fun _ => pure a) l b l' ↔ a = b ∧ l = l' := by
  constructor
  · rintro ⟨N, h⟩
    have := h N (Nat.le_refl _)
    simp only [pure, P.pure, Out.ok.injEq, Prod.mk.injEq, PState.mk.injEq, and_true] at this
    exact this
  · rintro ⟨rfl, rfl⟩; exact ret

theorem bind {m : Nat → P α} {f : Nat → α → P β} {a : α} {b : β} (h : Ev m l a l1)
    (hf : Ev (fun n => f n a) l1 b l') : Ev (fun n => m n >>= f n) l b l' := by
  obtain ⟨N, h⟩ := h
  obtain ⟨M, hf⟩ := hf
  refine ⟨max N M, fun n hn => ?_⟩
  change (m n ⟨l, []⟩).bind _ = _
  rw [h n (by omega)]
  exact hf n (by omega)

theorem assoc {γ : Type} {m : Nat → P α} {f : Nat → α → P β} {g : Nat → β → P γ} {c : γ} :
    Ev (fun n => (m n >>= f n) >>= g n) l c l' ↔ Ev (fun n => m n >>= fun a => f n a >>= g n) l c l' := by
  have : ∀ n, (m n >>= f n) >>= g n = m n >>= fun a => f n a >>= g n := by
    intro n; funext s
    change ((m n s).bind _).bind _ = (m n s).bind _
    cases m n s <;> rfl
  simp only [this]

theorem pure_bind {a : α} {f : Nat → α → P β} {b : β} :
    Ev (fun n => pure a >>= f n) l b l' ↔ Ev (fun n => f n a) l b l' := Iff.rfl

theorem tok {f : Nat → Token → P β} {b : β} :
    Ev (fun n => Ratel.tok >>= f n) l b l' ↔ Ev (fun n => f n l.token) l b l' := Iff.rfl
theorem asi {f : Nat → Asi → P β} {b : β} :
    Ev (fun n => Ratel.asi >>= f n) l b l' ↔ Ev (fun n => f n l.asi) l b l' := Iff.rfl
theorem start {f : Nat → Nat → P β} {b : β} :
    Ev (fun n => Ratel.start >>= f n) l b l' ↔ Ev (fun n => f n l.tokenStart) l b l' := Iff.rfl
theorem stop {f : Nat → Nat → P β} {b : β} :
    Ev (fun n => Ratel.stop >>= f n) l b l' ↔ Ev (fun n => f n l.index) l b l' := Iff.rfl
theorem curLoc {f : Nat → Loc → P β} {b : β} :
    Ev (fun n => Ratel.curLoc >>= f n) l b l' ↔ Ev (fun n => f n ⟨l.tokenStart, l.index⟩) l b l' := Iff.rfl
theorem tokStr {f : Nat → Bytes → P β} {b : β} :
    Ev (fun n => Ratel.tokStr >>= f n) l b l' ↔ Ev (fun n => f n l.tokenAsStr) l b l' := Iff.rfl
theorem accStr {f : Nat → Bytes → P β} {b : β} :
    Ev (fun n => Ratel.accStr >>= f n) l b l' ↔ Ev (fun n => f n l.accessorAsStr) l b l' := Iff.rfl
theorem quasi {f : Nat → Bytes → P β} {b : β} :
    Ev (fun n => Ratel.quasi >>= f n) l b l' ↔ Ev (fun n => f n l.quasi) l b l' := Iff.rfl

theorem consume (h : l.consume = .ok l1) : Ev (fun _ => Ratel.consume) l () l1 :=
  ⟨0, fun n _ => by change l.consume.bind _ = _; rw [h]; rfl⟩
theorem consume_bind (h : l.consume = .ok l1) {f : Nat → Unit → P β} {b : β} :
    Ev (fun n => Ratel.consume >>= f n) l b l' ↔ Ev (fun n => f n ()) l1 b l' := by
  have : ∀ n, (Ratel.consume >>= f n) ⟨l, []⟩ = f n () ⟨l1, []⟩ := by
    intro n
    change (Out.bind (l.consume.bind _) _) = _
    rw [h]; rfl
  simp only [Ev, this]
theorem startThenConsume (h : l.consume = .ok l1) {f : Nat → Nat → P β} {b : β} :
    Ev (fun n => Ratel.startThenConsume >>= f n) l b l' ↔ Ev (fun n => f n l.tokenStart) l1 b l' := by
  simp only [Ratel.startThenConsume, assoc, start, consume_bind h, pure_bind]
theorem endThenConsume (h : l.consume = .ok l1) {f : Nat → Nat → P β} {b : β} :
    Ev (fun n => Ratel.endThenConsume >>= f n) l b l' ↔ Ev (fun n => f n l.index) l1 b l' := by
  simp only [Ratel.endThenConsume, assoc, stop, consume_bind h, pure_bind]
theorem expect {t : Token} (ht : l.token = t) (h : l.consume = .ok l1) {f : Nat → Unit → P β} {b : β} :
    Ev (fun n => Ratel.expect t >>= f n) l b l' ↔ Ev (fun n => f n ()) l1 b l' := by
  simp only [Ratel.expect, assoc, tok, ht, if_true, consume_bind h]
theorem readTemplateKind (h : l.readTemplateKind = .ok l1) {f : Nat → Unit → P β} {b : β} :
    Ev (fun n => Ratel.readTemplateKind >>= f n) l b l' ↔ Ev (fun n => f n ()) l1 b l' := by
  have : ∀ n, (Ratel.readTemplateKind >>= f n) ⟨l, []⟩ = f n () ⟨l1, []⟩ := by
    intro n
    change (Out.bind (l.readTemplateKind.bind _) _) = _
    rw [h]; rfl
  simp only [Ev, this]
theorem readRegex {v : Bytes} (h : l.readRegularExpression = .ok (l1, v)) {f : Nat → Bytes → P β} {b : β} :
    Ev (fun n => Ratel.readRegex >>= f n) l b l' ↔ Ev (fun n => f n v) l1 b l' := by
  have : ∀ n, (Ratel.readRegex >>= f n) ⟨l, []⟩ = f n v ⟨l1, []⟩ := by
    intro n
    change (Out.bind (l.readRegularExpression.bind _) _) = _
    rw [h]; rfl
  simp only [Ev, this]

theorem run_consume (h : l.consume = .ok l1) {f : Nat → Unit → P β} {b : β} (hf : Ev (fun n => f n ()) l1 b l') :
    Ev (fun n => Ratel.consume >>= f n) l b l' := (consume_bind h).mpr hf
theorem run_startThenConsume (h : l.consume = .ok l1) {f : Nat → Nat → P β} {b : β}
    (hf : Ev (fun n => f n l.tokenStart) l1 b l') : Ev (fun n => Ratel.startThenConsume >>= f n) l b l' :=
  (startThenConsume h).mpr hf
theorem run_endThenConsume (h : l.consume = .ok l1) {f : Nat → Nat → P β} {b : β}
    (hf : Ev (fun n => f n l.index) l1 b l') : Ev (fun n => Ratel.endThenConsume >>= f n) l b l' :=
  (endThenConsume h).mpr hf
theorem run_expect {t : Token} (ht : l.token = t) (h : l.consume = .ok l1) {f : Nat → Unit → P β} {b : β}
    (hf : Ev (fun n => f n ()) l1 b l') : Ev (fun n => Ratel.expect t >>= f n) l b l' := (expect ht h).mpr hf
theorem run_readTemplateKind (h : l.readTemplateKind = .ok l1) {f : Nat → Unit → P β} {b : β}
    (hf : Ev (fun n => f n ()) l1 b l') : Ev (fun n => Ratel.readTemplateKind >>= f n) l b l' :=
  (readTemplateKind h).mpr hf
theorem run_readRegex {v : Bytes} (h : l.readRegularExpression = .ok (l1, v)) {f : Nat → Bytes → P β} {b : β}
    (hf : Ev (fun n => f n v) l1 b l') : Ev (fun n => Ratel.readRegex >>= f n) l b l' := (readRegex h).mpr hf

/-- Two procedures with the same first results behave the same. -/
theorem congr {m m' : Nat → P α} {a : α} (hm : ∀ n, m n ⟨l, []⟩ = m' n ⟨l, []⟩) (h : Ev m l a l') : Ev m' l a l' := by
  obtain ⟨N, h⟩ := h
  exact ⟨N, fun n hn => (hm n).symm.trans (h n hn)⟩

theorem loop {b : Nat → σ → P (Step σ α)} {x : σ} {a : α} (h : EvLoop b x l a l') :
    Ev (fun n => Ratel.loop n (b n) x) l a l' := by
  obtain ⟨N, h⟩ := h
  exact ⟨N, fun n hn => h n n hn hn⟩

end Ev

namespace EvLoop
variable {α σ : Type} {l l1 l' : Lex} {b : Nat → σ → P (Step σ α)} {x y : σ} {a : α}

theorem again (h : Ev (fun n => b n x) l (.again y) l1) (h' : EvLoop b y l1 a l') : EvLoop b x l a l' := by
  obtain ⟨N, h⟩ := h
  obtain ⟨M, h'⟩ := h'
  refine ⟨max N M + 1, fun n k hn hk => ?_⟩
  obtain ⟨k, rfl⟩ : ∃ k', k = k' + 1 := ⟨k - 1, by omega⟩
  have h : b n x ⟨l, []⟩ = _ := h n (by omega)
  change (b n x ⟨l, []⟩).bind _ = _
  rw [h]
  exact h' n k (by omega) (by omega)

theorem done (h : Ev (fun n => b n x) l (.done a) l') : EvLoop b x l a l' := by
  obtain ⟨N, h⟩ := h
  refine ⟨N + 1, fun n k hn hk => ?_⟩
  obtain ⟨k, rfl⟩ : ∃ k', k = k' + 1 := ⟨k - 1, by omega⟩
  have h : b n x ⟨l, []⟩ = _ := h n (by omega)
  change (b n x ⟨l, []⟩).bind _ = _
  rw [h]
  rfl

end EvLoop

/-! The recursive procedures -/

section
variable {l l' : Lex}

theorem Ev.shift {α : Type} {m m' : Nat → P α} {a : α} (hm : ∀ n, m' (n + 1) = m n) (h : Ev m l a l') : Ev m' l a l' := by
  obtain ⟨N, h⟩ := h
  refine ⟨N + 1, fun n hn => ?_⟩
  obtain ⟨n, rfl⟩ : ∃ k, n = k + 1 := ⟨n - 1, by omega⟩
  rw [hm]
  exact h n (by omega)

theorem Ev.expr {c : Ctx} {L : Lvl} {e : Expr} (h : Ev (fun n => expression n (procs n) c L) l e l') :
    Ev (fun n => (procs n).expr c L) l e l' := h.shift fun _ => rfl
theorem Ev.stmt {s : Stmt} (h : Ev (fun n => statement n (procs n)) l s l') :
    Ev (fun n => (procs n).stmt) l s l' := h.shift fun _ => rfl
theorem Ev.patArray {p : Pattern} (h : Ev (fun n => patternArray n (procs n)) l p l') :
    Ev (fun n => (procs n).patArray) l p l' := h.shift fun _ => rfl
theorem Ev.property {p : Property} (h : Ev (fun n => Ratel.property n (procs n)) l p l') :
    Ev (fun n => (procs n).property) l p l' := h.shift fun _ => rfl

end

/-! ### Streams -/

/-- The text the parser takes from a token. -/
def Lex.text (l : Lex) : Bytes :=
  match l.token with
  | .Accessor => l.accessorAsStr
  | .TemplateOpen | .TemplateClosed => l.quasi
  | _ => l.tokenAsStr

/-- The lexer in state `l` will deliver the items. -/
inductive Stream : Lex → List Item → Prop where
  | eof {l : Lex} (h : l.token = .EndOfProgram) (ha : l.asi = .ImplicitSemicolon) (hr : next l.rest = 0) : Stream l []
  | tok {l l' : Lex} {i : List Item} {t : Token} {w : Bytes} {a : Asi} (ht : l.token = t) (hw : l.text = w) (ha : l.asi = a)
      (hc : l.consume = .ok l') (h : Stream l' i) : Stream l (.tok t w a :: i)
  | regex {l l1 l' : Lex} {i : List Item} {w : Bytes} {a : Asi} (ht : l.token = .OperatorDivision) (ha : l.asi = a)
      (hr : l.readRegularExpression = .ok (l1, w)) (h1 : l1.token = .LiteralRegEx) (hc : l1.consume = .ok l')
      (h : Stream l' i) : Stream l (.regex w a :: i)
  | resume {l l1 l' : Lex} {i : List Item} {w : Bytes} {c : Bool} (ht : l.token = .BraceClose)
      (ha : l.asi = .ImplicitSemicolon) (hr : l.readTemplateKind = .ok l1)
      (h1 : l1.token = if c then .TemplateClosed else .TemplateOpen) (hw : l1.quasi = w) (hc : l1.consume = .ok l')
      (h : Stream l' i) : Stream l (.resume c w :: i)

namespace Stream
variable {l : Lex} {i j : List Item}

theorem token (h : Stream l i) : l.token = look i := by
  cases h <;> assumption
theorem asi (h : Stream l i) : l.asi = semicolon i := by
  cases h <;> assumption

theorem tk {t : Token} (h : Stream l i) (hi : Tk t i j) : l.token = t ∧ ∃ l', l.consume = .ok l' ∧ Stream l' j := by
  obtain ⟨w, a, rfl⟩ := hi
  cases h with
  | tok ht hw ha hc h => exact ⟨ht, _, hc, h⟩
theorem wd {t : Token} {w : Bytes} (h : Stream l i) (hi : Wd t w i j) :
    l.token = t ∧ l.text = w ∧ ∃ l', l.consume = .ok l' ∧ Stream l' j := by
  obtain ⟨a, rfl⟩ := hi
  cases h with
  | tok ht hw ha hc h => exact ⟨ht, hw, _, hc, h⟩
/-- The end of the program stays. -/
theorem more (h : Stream l []) : ∃ l', l.consume = .ok l' ∧ Stream l' [] := by
  cases h with
  | eof h ha hr => exact ⟨_, consume_at_nul hr, .eof rfl rfl hr⟩

end Stream

/-- The procedure `m`, started where the items are `i`, succeeds with the bare tree `t` where the items are `j`. -/
def Parses {α β : Type} (m : Nat → P α) (f : α → β) (i : List Item) (t : β) (j : List Item) : Prop :=
  ∀ l, Stream l i → ∃ a l', f a = t ∧ Stream l' j ∧ Ev m l a l'

/-- Run a procedure step by step, with the given facts about tokens. -/
macro "ev_step" "[" ts:Lean.Parser.Tactic.simpLemma,* "]" : tactic => `(tactic| with_reducible first
  | exact Ev.ret
  | (apply Ev.hyp; (focus assumption))
  | apply Ev.assoc.mpr
  | apply Ev.pure_bind.mpr
  | apply Ev.tok.mpr
  | apply Ev.asi.mpr
  | apply Ev.start.mpr
  | apply Ev.stop.mpr
  | apply Ev.curLoc.mpr
  | apply Ev.tokStr.mpr
  | apply Ev.accStr.mpr
  | apply Ev.quasi.mpr
  | (apply Ev.run_consume; focus assumption)
  | (apply Ev.run_startThenConsume; focus assumption)
  | (apply Ev.run_endThenConsume; focus assumption)
  | (apply Ev.run_expect; (focus assumption); (focus assumption))
  | (apply Ev.run_readTemplateKind; focus assumption)
  | (apply Ev.run_readRegex; focus assumption)
  | (apply Ev.consume; focus assumption)
  | (apply Ev.bind; focus assumption)
  | simp only [ne_eq, not_true, not_false_eq_true, and_true, true_and, and_false, false_and, if_true, if_false,
      reduceCtorEq, reduceIte, $ts,*])

macro "ev" "[" ts:Lean.Parser.Tactic.simpLemma,* "]" : tactic => `(tactic| repeat' ev_step [$ts,*])

end Ratel
