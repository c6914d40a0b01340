import Verif.Visitor
import Verif.Spec.Tree
/-! Specification of traversals: what a visitor should be told about a module, in terms of the
nodes of the module only (`Verif/Spec/Tree.lean`). -/
namespace Ratel.Spec
open Ratel

/-! ### Reading event lists -/

/-- Number of scope entries. -/
def enters : List Event → Nat
  | [] => 0
  | .enter _ :: r => enters r + 1
  | _ :: r => enters r

/-- Number of scope exits. -/
def leaves : List Event → Nat
  | [] => 0
  | .leave :: r => leaves r + 1
  | _ :: r => leaves r

/-- The names of the use events, in order. -/
def uses : List Event → List Bytes
  | [] => []
  | .use n :: r => n :: uses r
  | _ :: r => uses r

/-- The names of the declare events, in order. -/
def declares : List Event → List Bytes
  | [] => []
  | .declare n :: r => n :: declares r
  | _ :: r => declares r

/-- The callback methods called, each with its node, in order. -/
def called : List Event → List ((ExprCb ⊕ StmtCb) × Node)
  | [] => []
  | .onExpr cb e :: r => (.inl cb, .expr e) :: called r
  | .onStmt cb s :: r => (.inr cb, .stmt s) :: called r
  | _ :: r => called r

/-- The statement lists listed, in order. -/
def listed : List Event → List (List Stmt)
  | [] => []
  | .statementList b :: r => b :: listed r
  | _ :: r => listed r

/-- A call of a callback method as a visitor that keeps a stack of parents sees it: the method, the
node and the stack. -/
structure Call where
  method : ExprCb ⊕ StmtCb
  node : Node
  parents : List Node

/-- A visitor that only keeps a stack of parents: the callbacks it receives and the final stack.
`none` if it has to pop from an empty stack. -/
def stackRun : List Event → List Node → Option (List Call × List Node)
  | [], st => some ([], st)
  | .pushExpr e :: r, st => stackRun r (.expr e :: st)
  | .pushStmt s :: r, st => stackRun r (.stmt s :: st)
  | .pop :: _, [] => none
  | .pop :: r, _ :: st => stackRun r st
  | .onExpr cb e :: r, st => (stackRun r st).map fun x => (⟨.inl cb, .expr e, st⟩ :: x.1, x.2)
  | .onStmt cb s :: r, st => (stackRun r st).map fun x => (⟨.inr cb, .stmt s, st⟩ :: x.1, x.2)
  | _ :: r, st => stackRun r st

/-! ### The nodes a visitor should see -/

/-- The method for an expression; a hole in an array has none. -/
def exprMethod : Expr → Option ExprCb
  | .void _ => none
  | .this _ => some .this
  | .ident .. => some .identifier
  | .lit .. => some .literal
  | .seq .. => some .sequence
  | .array .. => some .array
  | .member .. => some .member
  | .cmember .. => some .computedMember
  | .metaProp .. => some .metaProperty
  | .call .. => some .call
  | .binary .. => some .binary
  | .prefix .. => some .prefix
  | .postfix .. => some .postfix
  | .cond .. => some .conditional
  | .template .. => some .template
  | .tagged .. => some .taggedTemplate
  | .spread .. => some .spread
  | .arrowE .. => some .arrow
  | .arrowB .. => some .arrow
  | .object .. => some .object
  | .function .. => some .function
  | .class .. => some .class

/-- The method for a statement; `;` and `debugger` have none. -/
def stmtMethod : Stmt → Option StmtCb
  | .empty _ => none
  | .debugger _ => none
  | .expr .. => some .expression
  | .decl .. => some .declaration
  | .ret .. => some .ret
  | .brk .. => some .brk
  | .cont .. => some .cont
  | .throw .. => some .throw
  | .ifS .. => some .ifS
  | .whileS .. => some .whileS
  | .doS .. => some .doS
  | .forS .. => some .forS
  | .forIn .. => some .forIn
  | .forOf .. => some .forOf
  | .tryS .. => some .tryS
  | .block .. => some .block
  | .labeled .. => some .labeled
  | .function .. => some .function
  | .class .. => some .class
  | .switch .. => some .switch
  | .import .. => some .importDeclaration

/-- The callback method for a node. -/
def nodeMethod : Node → Option (ExprCb ⊕ StmtCb)
  | .expr e => (exprMethod e).map .inl
  | .stmt s => (stmtMethod s).map .inr
  | _ => none

/-- The statement list of a node: the body of a block, of a function, of an arrow function with braces, and of a case. -/
def ownList : Node → List (List Stmt)
  | .expr (.arrowB _ _ (.mk _ body)) => [body]
  | .func (.mk _ _ _ (.mk _ body)) => [body]
  | .block (.mk _ body) => [body]
  | .stmt (.block _ body) => [body]
  | .case (.mk _ _ body) => [body]
  | _ => []

/-- The chain of parents below a node: nodes with a callback are parents, other kinds of nodes (keys,
declarators, …) are transparent. -/
def below (anc : List Node) (n : Node) : List Node :=
  if (nodeMethod n).isSome then n :: anc else anc

/-- All nodes with a callback in source order, each with its method and the chain of its ancestors
that are expressions or statements, innermost first; `anc` is the chain above `n`. -/
def calls (anc : List Node) (n : Node) : List Call :=
  ((nodeMethod n).toList.map fun cb => ⟨cb, n, anc⟩) ++
  n.children.attach.flatMap fun c => calls (below anc n) c.1
termination_by n.size
decreasing_by exact Node.child_lt c.2

theorem calls_eq (anc : List Node) (n : Node) :
    calls anc n = ((nodeMethod n).toList.map fun cb => ⟨cb, n, anc⟩) ++
      n.children.flatMap (calls (below anc n)) := by
  rw [calls]
  congr 1
  generalize n.children = l
  rw [List.flatMap_subtype (g := calls (below anc n)) (by simp), List.unattach_attach]

/-! ### Names -/

/-- The names of an import specifier as the visitor lists them. -/
def importNames : ImportSpec → List Bytes
  | .named _ imported l => [l.name, imported.name]
  | .default _ l => [l.name]
  | .namespace _ l => [l.name]

/-- The names a node itself uses: an identifier expression uses its name, a shorthand property the
variable of the same name. The code also counts the argument of a rest element, both names of a meta
property, and the source and the names of an import. -/
def usedNames : Node → List Bytes
  | .expr (.ident _ n) => [n]
  | .prop (.shorthand _ n) => [n]
  | .expr (.metaProp _ m p) => [m.name, p.name]
  | .pat (.rest _ a) => [a.name]
  | .stmt (.import _ specs source) => source :: specs.flatMap importNames
  | _ => []

/-- The name a declaration declares in the scope around it. -/
def nameDeclared : Name → List Bytes
  | .mandatory n => [n.name]
  | _ => []

/-- The names a node itself declares according to the code: an identifier pattern, and the name of a
function or class declaration. -/
def declaredNames : Node → List Bytes
  | .pat (.ident _ n) => [n]
  | .func (.mk name _ _ _) => nameDeclared name
  | .cls (.mk name _ _ _) => nameDeclared name
  | _ => []

/-- The name bound by a property of an object pattern. -/
def propBinds : Property → List Bytes
  | .shorthand _ n => [n]
  | .literal _ _ (.ident _ n) => [n]
  | _ => []

/-- The name bound by an import specifier. -/
def importBinds : ImportSpec → List Bytes
  | .named _ _ l => [l.name]
  | .default _ l => [l.name]
  | .namespace _ l => [l.name]

/-- The names a node itself binds in JavaScript. -/
def boundNames : Node → List Bytes
  | .pat (.ident _ n) => [n]
  | .pat (.rest _ a) => [a.name]
  | .pat (.object _ ps) => ps.flatMap propBinds
  | .func (.mk name _ _ _) => nameDeclared name
  | .cls (.mk name _ _ _) => nameDeclared name
  | .stmt (.import _ specs _) => specs.flatMap importBinds
  | _ => []

/-- An import declaration. -/
def Node.isImport : Node → Bool
  | .stmt (.import ..) => true
  | _ => false

/-- Node kinds whose bindings the code misses. -/
def Node.missesBinding : Node → Bool
  | .pat (.rest ..) => true
  | .pat (.object ..) => true
  | .stmt (.import ..) => true
  | _ => false

end Ratel.Spec
