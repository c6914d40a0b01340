import Verif.ParserTables
/-! C35: the tables of the parser and of the operators agree. All statements are about closed finite
domains (108 tokens, 48 operators, 14 levels); the proofs compute over the whole domain. -/
namespace Ratel

namespace Spec

/-- The binding power that a level of the parser stands for (`B5` is 5, …; `ANY` and `B0` are 0). -/
def power : Lvl → Nat
  | .ANY | .B0 => 0
  | .B1 => 1 | .B5 => 5 | .B6 => 6 | .B7 => 7 | .B8 => 8 | .B9 => 9 | .B10 => 10 | .B11 => 11
  | .B12 => 12 | .B13 => 13 | .B14 => 14 | .B15 => 15

/-- How tightly the parser binds an infix operator: its binding power, but one more for `**`. -/
def parserPower (op : Op) : Nat := if op = .Exponent then 15 else op.bindingPower

/-- Is the operator a plain binary operator: infix, not an assignment, not `=>` and not `?`. -/
def isBinary (op : Op) : Bool :=
  op.isInfix && !op.assignment && op != .FatArrow && op != .Conditional

end Spec
open Spec

/-- All levels. -/
def Lvl.all : List Lvl :=
  [.ANY, .B0, .B1, .B5, .B6, .B7, .B8, .B9, .B10, .B11, .B12, .B13, .B14, .B15]

theorem Lvl.mem_all (l : Lvl) : l ∈ Lvl.all := by cases l <;> decide
theorem Token.mem_all (t : Token) : t ∈ Token.all := by cases t <;> decide +kernel
theorem Op.mem_all (o : Op) : o ∈ Op.all := by cases o <;> decide +kernel

theorem forall_lvl {P : Lvl → Prop} (h : ∀ l ∈ Lvl.all, P l) (l : Lvl) : P l := h l l.mem_all
theorem forall_token {P : Token → Prop} (h : ∀ t ∈ Token.all, P t) (t : Token) : P t := h t t.mem_all
theorem forall_op {P : Op → Prop} (h : ∀ o ∈ Op.all, P o) (o : Op) : P o := h o o.mem_all

/-- C35, tokens and operators: an operator has exactly one token. -/
theorem C35_token_of_operator (op : Op) :
    ∃ t, Op.fromToken t = some op ∧ ∀ t', Op.fromToken t' = some op → t' = t := by
  have h : ∀ op ∈ Op.all, ∃ t ∈ Token.all, Op.fromToken t = some op ∧
      ∀ t' ∈ Token.all, Op.fromToken t' = some op → t' = t := by decide +kernel
  obtain ⟨t, -, h1, h2⟩ := h op op.mem_all
  exact ⟨t, h1, fun t' ht => h2 t' t'.mem_all ht⟩

/-- C35, binary operators: after an operand parsed at a level, the token of an operator continues the
expression as a binary operator exactly when that operator is a binary infix operator that binds
tighter than the level; its right operand is then parsed at the level of the operator's own
power. -/
theorem C35_binary (lvl : Lvl) (t : Token) (op : Op) (ht : Op.fromToken t = some op) :
    (isBinary op = true ∧ power lvl < parserPower op →
      ∃ r, nestedHandler lvl .NoSemicolon t = some (.binary r op) ∧ power r = parserPower op) ∧
    (∀ r op', nestedHandler lvl .NoSemicolon t = some (.binary r op') →
      op' = op ∧ isBinary op = true ∧ power lvl < parserPower op) := by
  have h1 : ∀ lvl ∈ Lvl.all, ∀ t ∈ Token.all, (match Op.fromToken t with
      | none => true
      | some op => decide (isBinary op = true ∧ power lvl < parserPower op →
        ∃ r ∈ Lvl.all, nestedHandler lvl .NoSemicolon t = some (.binary r op) ∧
          power r = parserPower op)) = true := by
    decide +kernel
  have h2 : ∀ lvl ∈ Lvl.all, ∀ t ∈ Token.all, (match Op.fromToken t, nestedHandler lvl .NoSemicolon t with
      | some op, some (.binary _ op') =>
        decide (op' = op ∧ isBinary op = true ∧ power lvl < parserPower op)
      | _, _ => true) = true := by
    decide +kernel
  constructor
  · intro h
    have := h1 lvl lvl.mem_all t t.mem_all
    rw [ht] at this
    obtain ⟨r, -, h⟩ := of_decide_eq_true this h
    exact ⟨r, h⟩
  · intro r op' h
    have := h2 lvl lvl.mem_all t t.mem_all
    rw [ht, h] at this
    exact of_decide_eq_true this

/-- C35, assignments: a token is handled as an assignment exactly when it is the token of an operator
for which `assignment()` holds; this happens only at the levels of power at most 1. -/
theorem C35_assignment (lvl : Lvl) (t : Token) (op : Op) :
    nestedHandler lvl .NoSemicolon t = some (.assign op) ↔
      Op.fromToken t = some op ∧ op.assignment = true ∧ power lvl ≤ 1 := by
  have h : ∀ lvl ∈ Lvl.all, ∀ t ∈ Token.all, ∀ op ∈ Op.all,
      (nestedHandler lvl .NoSemicolon t = some (.assign op) ↔
      Op.fromToken t = some op ∧ op.assignment = true ∧ power lvl ≤ 1) := by
    have h1 : ∀ lvl ∈ Lvl.all, ∀ t ∈ Token.all, (match nestedHandler lvl .NoSemicolon t with
      | some (.assign op) => decide (Op.fromToken t = some op ∧ op.assignment = true ∧ power lvl ≤ 1)
      | _ => true) = true := by decide +kernel
    have h2 : ∀ lvl ∈ Lvl.all, ∀ t ∈ Token.all, (match Op.fromToken t with
      | some op => decide (op.assignment = true ∧ power lvl ≤ 1 →
          nestedHandler lvl .NoSemicolon t = some (.assign op))
      | _ => true) = true := by decide +kernel
    intro lvl hl t ht op _
    constructor
    · intro h
      have := h1 lvl hl t ht
      rw [h] at this
      exact of_decide_eq_true this
    · rintro ⟨a, b⟩
      have := h2 lvl hl t ht
      rw [a] at this
      exact of_decide_eq_true this b
  exact h lvl lvl.mem_all t t.mem_all op op.mem_all

/-- C35, the other handlers: every token that continues an expression and is an operator token is an
infix operator or a postfix `++`/`--`. -/
theorem C35_continuation (lvl : Lvl) (t : Token) (op : Op) (ht : Op.fromToken t = some op) (h : NH)
    (hh : nestedHandler lvl .NoSemicolon t = some h) :
    op.isInfix = true ∨ h = .postfix op ∧ (op = .Increment ∨ op = .Decrement) := by
  have h1 : ∀ lvl ∈ Lvl.all, ∀ t ∈ Token.all, (match Op.fromToken t, nestedHandler lvl .NoSemicolon t with
      | some op, some h =>
        decide (op.isInfix = true ∨ h = .postfix op ∧ (op = .Increment ∨ op = .Decrement))
      | _, _ => true) = true := by decide +kernel
  have := h1 lvl lvl.mem_all t t.mem_all
  rw [ht, hh] at this
  exact of_decide_eq_true this

/-- C35, prefix operators: in each of the three contexts a token starts a prefix expression exactly
when it is the token of a prefix operator other than `new` and `...`; in particular the panic for a
token that is no operator is not reachable. -/
theorem C35_prefix (c : Ctx) (t : Token) :
    exprHandler c t = .OP ↔
      ∃ op, Op.fromToken t = some op ∧ op.isPrefix = true ∧ op ≠ .New ∧ op ≠ .Spread := by
  have h : ∀ c ∈ [Ctx.DEF, .ARRAY, .CALL], ∀ t ∈ Token.all, (exprHandler c t = .OP ↔
      ∃ op ∈ Op.all, Op.fromToken t = some op ∧ op.isPrefix = true ∧ op ≠ .New ∧ op ≠ .Spread) := by
    decide +kernel
  have := h c (by cases c <;> decide) t t.mem_all
  rw [this]
  exact ⟨fun ⟨op, _, h⟩ => ⟨op, h⟩, fun ⟨op, h⟩ => ⟨op, op.mem_all, h⟩⟩

/-- C35, statements: a token starts an expression statement with a prefix operator exactly when it
starts a prefix expression. -/
theorem C35_statement_prefix (t : Token) : stmtHandler t = .E .OP ↔ exprHandler .DEF t = .OP := by
  have h : ∀ t ∈ Token.all, stmtHandler t = .E .OP ↔ exprHandler .DEF t = .OP := by decide +kernel
  exact h t t.mem_all

/-- C35, statements: whatever shared expression handler starts a statement is the one that starts an
expression. -/
theorem C35_statement_expression (t : Token) (h : EH) (hh : stmtHandler t = .E h) :
    exprHandler .DEF t = h := by
  have h1 : ∀ t ∈ Token.all, (match stmtHandler t with
      | .E h => decide (exprHandler .DEF t = h)
      | _ => true) = true := by decide +kernel
  have := h1 t t.mem_all
  rw [hh] at this
  exact of_decide_eq_true this

/-- C35, contexts: array and call contexts differ from the default context only in holes (array) and
`...`. -/
theorem C35_contexts (t : Token) :
    (exprHandler .CALL t = if t = .OperatorSpread then .SPRD else exprHandler .DEF t) ∧
    (exprHandler .ARRAY t = if t = .OperatorSpread then .SPRD
      else if t = .Comma ∨ t = .BracketClose then .VOID else exprHandler .DEF t) := by
  have h : ∀ t ∈ Token.all,
    (exprHandler .CALL t = if t = .OperatorSpread then .SPRD else exprHandler .DEF t) ∧
    (exprHandler .ARRAY t = if t = .OperatorSpread then .SPRD
      else if t = .Comma ∨ t = .BracketClose then .VOID else exprHandler .DEF t) := by decide +kernel
  exact h t t.mem_all

/-- C35, restricted `++`/`--`: where a semicolon may be inserted they do not continue an expression,
all other tokens behave as without. -/
theorem C35_asi (lvl : Lvl) (t : Token) :
    nestedHandler lvl .ImplicitSemicolon t =
      if t = .OperatorIncrement ∨ t = .OperatorDecrement then none
      else nestedHandler lvl .NoSemicolon t := by
  simp [nestedHandler]

/-- The one place where the parser and the operator table disagree: `**` has the binding power of `*`
but the parser binds it tighter, so the generated code of `(a * b) ** c` loses its parentheses (see
C21). -/
theorem C35_exponent_disagrees :
    Op.bindingPower .Exponent = Op.bindingPower .Multiplication ∧
    nestedHandler .B14 .NoSemicolon .OperatorExponent = some (.binary .B15 .Exponent) ∧
    nestedHandler .B14 .NoSemicolon .OperatorMultiplication = none := by decide +kernel

example : Op.fromToken .OperatorAddition = some .Addition ∧ isBinary .Addition = true ∧
    nestedHandler .B12 .NoSemicolon .OperatorAddition = some (.binary .B13 .Addition) ∧
    nestedHandler .B13 .NoSemicolon .OperatorAddition = none := by decide +kernel

end Ratel
