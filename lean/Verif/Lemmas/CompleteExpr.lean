import Verif.Lemmas.Run
/-! The parser finds every expression of the grammar: the rules for expressions. -/
namespace Ratel
open Spec

set_option linter.unusedSectionVars false
variable [Unicode]

/-! ### Tables -/

/-- The power of the expressions parsed at a level. -/
def minPower : Lvl → Nat
  | .ANY => 0 | .B0 | .B1 => 1 | .B5 => 6 | .B6 => 7 | .B7 => 8 | .B8 => 9 | .B9 => 10 | .B10 => 11 | .B11 => 12
  | .B12 => 13 | .B13 => 14 | .B14 => 15 | .B15 => 16

/-- The level of the right operand of an operator of the given power. -/
def lvlOf : Nat → Lvl
  | 5 => .B5 | 6 => .B6 | 7 => .B7 | 8 => .B8 | 9 => .B9 | 10 => .B10 | 11 => .B11 | 12 => .B12 | 13 => .B13
  | 14 => .B14 | _ => .B15

def Asi.all : List Asi := [.NoSemicolon, .ImplicitSemicolon, .ExplicitSemicolon]
theorem Asi.mem_all (a : Asi) : a ∈ Asi.all := by cases a <;> decide

theorem handler_binary {L : Lvl} {a : Asi} {t : Token} {op : Op} {p : Nat} (h : binaryOp t = some (op, p))
    (hk : minPower L ≤ p) : nestedHandler L a t = some (.binary (lvlOf p) op) ∧ minPower (lvlOf p) = p + 1 := by
  have h1 : ∀ L ∈ Lvl.all, ∀ a ∈ Asi.all, ∀ t ∈ Token.all, (match binaryOp t with
      | some (op, p) => decide (minPower L ≤ p →
        nestedHandler L a t = some (.binary (lvlOf p) op) ∧ minPower (lvlOf p) = p + 1)
      | none => true) = true := by decide +kernel
  have := h1 L L.mem_all a a.mem_all t t.mem_all
  rw [h] at this
  exact of_decide_eq_true this hk

theorem handler_assign {L : Lvl} {a : Asi} {t : Token} {op : Op} (h : assignOp t = some op) (hk : minPower L ≤ 1) :
    nestedHandler L a t = some (.assign op) := by
  have h1 : ∀ L ∈ Lvl.all, ∀ a ∈ Asi.all, ∀ t ∈ Token.all, (match assignOp t with
      | some op => decide (minPower L ≤ 1 → nestedHandler L a t = some (.assign op))
      | none => true) = true := by decide +kernel
  have := h1 L L.mem_all a a.mem_all t t.mem_all
  rw [h] at this
  exact of_decide_eq_true this hk

theorem handler_cond {L : Lvl} {a : Asi} (hk : minPower L ≤ 1) :
    nestedHandler L a .OperatorConditional = some .COND := by
  have h1 : ∀ L ∈ Lvl.all, ∀ a ∈ Asi.all, minPower L ≤ 1 → nestedHandler L a .OperatorConditional = some .COND := by
    decide +kernel
  exact h1 L L.mem_all a a.mem_all hk

theorem handler_comma {a : Asi} : nestedHandler .ANY a .Comma = some .SEQ := by cases a <;> decide +kernel

theorem minPower_zero {L : Lvl} (h : minPower L ≤ 0) : L = .ANY := by
  cases L <;> simp [minPower] at h ⊢

theorem handler_postfix {L : Lvl} {a : Asi} {t : Token} {op : Op} (h : postfixOp t = some op) (ha : a ≠ .ImplicitSemicolon) :
    nestedHandler L a t = some (.postfix op) := by
  have h1 : ∀ L ∈ Lvl.all, ∀ a ∈ Asi.all, ∀ t ∈ Token.all, (match postfixOp t with
      | some op => decide (a ≠ .ImplicitSemicolon → nestedHandler L a t = some (.postfix op))
      | none => true) = true := by decide +kernel
  have := h1 L L.mem_all a a.mem_all t t.mem_all
  rw [h] at this
  exact of_decide_eq_true this ha

/-- The handlers that are available at every level. -/
def tightHandler : Token → Option NH
  | .ParenOpen => some .CALL
  | .BracketOpen => some .CMEM
  | .Accessor => some .ACCS
  | .TemplateOpen => some .TPLE
  | .TemplateClosed => some .TPLS
  | .OperatorFatArrow => some .ARRW
  | _ => none

theorem handler_tight {L : Lvl} {a : Asi} {t : Token} {h : NH} (ht : tightHandler t = some h) :
    nestedHandler L a t = some h := by
  have h1 : ∀ L ∈ Lvl.all, ∀ a ∈ Asi.all, ∀ t ∈ Token.all, (match tightHandler t with
      | some h => decide (nestedHandler L a t = some h)
      | none => true) = true := by decide +kernel
  have := h1 L L.mem_all a a.mem_all t t.mem_all
  rw [ht] at this
  exact of_decide_eq_true this

/-- `continues` as a function of the token. -/
def continuesTok (k : Nat) (a : Asi) : Token → Bool
  | .ParenOpen | .BracketOpen | .Accessor | .TemplateOpen | .TemplateClosed | .OperatorFatArrow => true
  | .OperatorIncrement | .OperatorDecrement => a != .ImplicitSemicolon
  | .Comma => k == 0
  | .OperatorConditional => k ≤ 1
  | t => ((assignOp t).isSome && k ≤ 1) ||
    (match binaryOp t with | some (_, p) => k ≤ p | none => false)

theorem continues_eq (k : Nat) (j : List Item) : continues k j = continuesTok k (semicolon j) (look j) := rfl

theorem handler_iff {L : Lvl} {a : Asi} {t : Token} :
    (nestedHandler L a t).isSome = continuesTok (minPower L) a t := by
  have h1 : ∀ L ∈ Lvl.all, ∀ a ∈ Asi.all, ∀ t ∈ Token.all,
      (nestedHandler L a t).isSome = continuesTok (minPower L) a t := by decide +kernel
  exact h1 L L.mem_all a a.mem_all t t.mem_all

theorem handler_none {L : Lvl} {j : List Item} (h : continues (minPower L) j = false) :
    nestedHandler L (semicolon j) (look j) = none := by
  rw [continues_eq, ← handler_iff] at h
  simpa using h

/-! ### The loop -/

/-- The loop of `nested_expression` at level `L`, started with `e`. -/
def Nest (L : Lvl) (e : Expr) (l : Lex) (r : Expr) (l' : Lex) : Prop :=
  EvLoop (fun n left => do
    match nestedHandler L (← asi) (← tok) with
    | some h => do
      let e ← runNH n (procs n) h left
      pure (.again e)
    | none => pure (.done left)) e l r l'

variable {L : Lvl} {l l1 l' : Lex} {e e1 r : Expr} {i j : List Item}

theorem Nest.step {h : NH} (hh : nestedHandler L l.asi l.token = some h)
    (h1 : Ev (fun n => runNH n (procs n) h e) l e1 l1) (h2 : Nest L e1 l1 r l') : Nest L e l r l' := by
  refine EvLoop.again ?_ h2
  refine Ev.asi.mpr (Ev.tok.mpr ?_)
  simp only [hh]
  exact h1.bind .ret

theorem Nest.stop (hh : nestedHandler L l.asi l.token = none) : Nest L e l e l := by
  refine EvLoop.done ?_
  refine Ev.asi.mpr (Ev.tok.mpr ?_)
  simp only [hh]
  exact .ret

theorem Nest.run (h : Nest L e l r l') : Ev (fun n => nestedExpression n (procs n) L e) l r l' := Ev.loop h

theorem expression_of {c : Ctx} {h : EH} (hh : exprHandler c l.token = h)
    (h1 : Ev (fun n => runEH n (procs n) h) l e l1) (h2 : Nest L e l1 r l') :
    Ev (fun n => expression n (procs n) c L) l r l' := by
  unfold expression
  refine Ev.tok.mpr ?_
  rw [hh]
  exact h1.bind h2.run

theorem exprHandler_ctx {c : Ctx} {t : Token} (h : exprHandler .DEF t ≠ .ERR) : exprHandler c t = exprHandler .DEF t := by
  have h1 : ∀ c ∈ [Ctx.DEF, .ARRAY, .CALL], ∀ t ∈ Token.all, exprHandler .DEF t ≠ .ERR →
      exprHandler c t = exprHandler .DEF t := by decide +kernel
  exact h1 c (by cases c <;> decide) t t.mem_all h

/-- What the parser does with an expression that the loop may extend. -/
def Opens (k : Nat) (i : List Item) (e : Expr) (j : List Item) : Prop :=
  exprHandler .DEF (look i) ≠ .ERR ∧
  ∀ l, Stream l i → ∃ e' l', bareExpr e' = e ∧ Stream l' j ∧
    ∀ c L, minPower L ≤ k → ∀ r lr, Nest L e' l' r lr → Ev (fun n => expression n (procs n) c L) l r lr

/-- What the parser does with a whole expression. -/
def Finds (k : Nat) (i : List Item) (e : Expr) (j : List Item) : Prop :=
  exprHandler .DEF (look i) ≠ .ERR ∧ continues k j = false ∧
  ∀ l, Stream l i → ∃ e' l', bareExpr e' = e ∧ Stream l' j ∧
    ∀ c L, minPower L = k → Ev (fun n => expression n (procs n) c L) l e' l'

theorem Finds.run {k : Nat} (h : Finds k i e j) {c : Ctx} {L : Lvl} (hL : minPower L = k) :
    Parses (fun n => (procs n).expr c L) bareExpr i e j := by
  intro l hl
  obtain ⟨e', l', h1, h2, h3⟩ := h.2.2 l hl
  exact ⟨e', l', h1, h2, (h3 c L hL).expr⟩

theorem Opens.whole {k : Nat} (h : Opens k i e j) (hs : continues k j = false) : Finds k i e j := by
  refine ⟨h.1, hs, fun l hl => ?_⟩
  obtain ⟨e', l', h1, h2, h3⟩ := h.2 l hl
  refine ⟨e', l', h1, h2, fun c L hL => h3 c L (by omega) _ _ (Nest.stop ?_)⟩
  rw [h2.asi, h2.token]
  exact handler_none (hL ▸ hs)

/-- Expressions that are read by one handler. -/
theorem Opens.head {k : Nat} {h : EH} (hh : exprHandler .DEF (look i) = h) (hne : h ≠ .ERR)
    (hp : Parses (fun n => runEH n (procs n) h) bareExpr i e j) : Opens k i e j := by
  refine ⟨by rw [hh]; exact hne, fun l hl => ?_⟩
  obtain ⟨e', l', h1, h2, h3⟩ := hp l hl
  refine ⟨e', l', h1, h2, fun c L _ r lr hn => expression_of ?_ h3 hn⟩
  rw [hl.token, exprHandler_ctx (by rw [hh]; exact hne), hh]

/-- Expressions that extend an expression by one step of the loop. -/
theorem Opens.extend {k p : Nat} {m : List Item} (h : Opens p i e m) (hk : k ≤ p) {e1 : Expr} {j : List Item}
    (hs : ∀ e' l, bareExpr e' = e → Stream l m → ∃ e1' l', bareExpr e1' = e1 ∧ Stream l' j ∧
      ∀ L, minPower L ≤ k → ∃ h, nestedHandler L l.asi l.token = some h ∧ Ev (fun n => runNH n (procs n) h e') l e1' l') :
    Opens k i e1 j := by
  refine ⟨h.1, fun l hl => ?_⟩
  obtain ⟨e', l', h1, h2, h3⟩ := h.2 l hl
  obtain ⟨e1', l1, h4, h5, h6⟩ := hs e' l' h1 h2
  refine ⟨e1', l1, h4, h5, fun c L hL r lr hn => ?_⟩
  obtain ⟨nh, h7, h8⟩ := h6 L hL
  exact h3 c L (by omega) r lr (Nest.step h7 h8 hn)

end Ratel
