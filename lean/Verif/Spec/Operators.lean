import Verif.Spec.Spelling
import Verif.Operator
/-! Operator expressions as they are written, for C18. -/
namespace Ratel.Spec
open Ratel

/-- An operator expression as it is written: names, parentheses, and operators. -/
inductive Written where
  | name (w : Bytes)
  | paren (t : Written)
  | unary (op : Op) (t : Written)
  | binary (op : Op) (a b : Written)
  | cond (a b c : Written)
  | assign (op : Op) (w : Bytes) (b : Written)
deriving DecidableEq, Repr

namespace Written

/-- The words an expression is written with. -/
def words : Written → List Bytes
  | name w => [w]
  | paren t => bs!"(" :: t.words ++ [bs!")"]
  | unary op t => op.asStr :: t.words
  | binary op a b => a.words ++ op.asStr :: b.words
  | cond a b c => a.words ++ bs!"?" :: b.words ++ bs!":" :: c.words
  | assign op w b => w :: op.asStr :: b.words

/-- Its text: a blank before every word. -/
def text (t : Written) : Bytes := t.words.flatMap fun w => #b' ' :: w

/-- Its tree: parentheses leave no trace. -/
def tree : Written → Expr
  | name w => .ident z w
  | paren t => t.tree
  | unary op t => .prefix z op t.tree
  | binary op a b => .binary z op a.tree b.tree
  | cond a b c => .cond z a.tree b.tree c.tree
  | assign op w b => .binary z op (.ident z w) b.tree

end Written

/-- The precedence of the binary operators, loosest first. -/
def precedence : Op → Option Nat
  | .LogicalOr => some 5
  | .LogicalAnd => some 6
  | .BitwiseOr => some 7
  | .BitwiseXor => some 8
  | .BitwiseAnd => some 9
  | .StrictEquality | .StrictInequality | .Equality | .Inequality => some 10
  | .Lesser | .LesserEquals | .Greater | .GreaterEquals | .Instanceof | .In => some 11
  | .BitShiftLeft | .BitShiftRight | .UBitShiftRight => some 12
  | .Addition | .Subtraction => some 13
  | .Multiplication | .Division | .Remainder => some 14
  | .Exponent => some 15
  | _ => none

def unaryOperator : Op → Bool
  | .LogicalNot | .BitwiseNot | .Typeof | .Void | .Delete | .Addition | .Subtraction | .Increment | .Decrement => true
  | _ => false

def assignOperator : Op → Bool
  | .Assign | .AddAssign | .SubtractAssign | .ExponentAssign | .MultiplyAssign | .DivideAssign | .RemainderAssign
  | .BSLAssign | .BSRAssign | .UBSRAssign | .BitAndAssign | .BitXorAssign | .BitOrAssign => true
  | _ => false

/-- A name: a word without a meaning of its own. -/
def IsName (w : Bytes) : Prop :=
  ∃ c v, w = c :: v ∧ wordStart c = true ∧ (∀ b ∈ v, wordByte b = true) ∧ wordToken w = .Identifier

/-- The expression needs no further parentheses where an expression of precedence `k` is expected: the left
operand of a binary operator may have the same precedence, the right one must bind tighter; operands of unary
operators have no binary operator outside of parentheses; conditionals and assignments are the weakest, and take
another one on their right. -/
def Ordered : Nat → Written → Prop
  | _, .name w => IsName w
  | _, .paren t => Ordered 0 t
  | k, .unary op t => k ≤ 16 ∧ unaryOperator op = true ∧ Ordered 16 t
  | k, .binary op a b => ∃ p, precedence op = some p ∧ k ≤ p ∧ Ordered p a ∧ Ordered (p + 1) b
  | k, .cond a b c => k ≤ 1 ∧ Ordered 2 a ∧ Ordered 1 b ∧ Ordered 1 c
  | k, .assign op w b => k ≤ 1 ∧ assignOperator op = true ∧ IsName w ∧ Ordered 1 b

/-- Parentheses around `t`, unless they are not needed. -/
def Written.wrap (ok : Bool) (t : Written) : Written := if ok then t else .paren t

/-- The expression with only the parentheses that are needed where one of precedence `k` is expected. -/
def minimal : Nat → Written → Written
  | _, .name w => .name w
  | k, .paren t => minimal k t
  | k, .unary op t => .wrap (k ≤ 16) (.unary op (minimal 16 t))
  | k, .binary op a b => let p := (precedence op).getD 0; .wrap (k ≤ p) (.binary op (minimal p a) (minimal (p + 1) b))
  | k, .cond a b c => .wrap (k ≤ 1) (.cond (minimal 2 a) (minimal 1 b) (minimal 1 c))
  | k, .assign op w b => .wrap (k ≤ 1) (.assign op w (minimal 1 b))

/-- Only operators where they belong. -/
def Sensible : Written → Prop
  | .name w => IsName w
  | .paren t => Sensible t
  | .unary op t => unaryOperator op = true ∧ Sensible t
  | .binary op a b => (precedence op).isSome = true ∧ Sensible a ∧ Sensible b
  | .cond a b c => Sensible a ∧ Sensible b ∧ Sensible c
  | .assign op w b => assignOperator op = true ∧ IsName w ∧ Sensible b

/-- `t` followed by the operator `op` of precedence `p` and a name: the operator takes as its left operand as
much of `t` as does not bind looser. -/
def extend (op : Op) (p : Nat) (w : Bytes) : Written → Written
  | .binary q a b => if (precedence q).getD 0 < p then .binary q a (extend op p w b) else .binary op (.binary q a b) (.name w)
  | t => .binary op t (.name w)

/-- The reading of the chain `w op1 w1 op2 w2 …`. -/
def chain (t : Written) : List (Op × Bytes) → Written
  | [] => t
  | (op, w) :: l => chain (extend op ((precedence op).getD 0) w t) l

/-- The program `src` is accepted, with the given statements up to positions. -/
def Accepts [Unicode] (parse : Nat → Bytes → Out (Except (List Err) (List Stmt))) (src : Bytes) (ss : List Stmt) : Prop :=
  ∃ N ms, bareStmts ms = ss ∧ ∀ fuel, N ≤ fuel → parse fuel src = .ok (.ok ms)

end Ratel.Spec
