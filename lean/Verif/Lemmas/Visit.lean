import Verif.Visitor
import Verif.Spec.Tree
/-! The shape of a traversal: own events, then the children, then own events. -/
namespace Ratel
open Spec

theorem visitExprs_eq (l : List Expr) : visitExprs l = l.flatMap visitExpr := by
  induction l <;> simp [visitExprs, *]
theorem visitProperties_eq (l : List Property) : visitProperties l = l.flatMap visitProperty := by
  induction l <;> simp [visitProperties, *]
theorem visitPatterns_eq (l : List Pattern) : visitPatterns l = l.flatMap visitPattern := by
  induction l <;> simp [visitPatterns, *]
theorem visitMembers_eq (l : List ClassMember) : visitMembers l = l.flatMap visitMember := by
  induction l <;> simp [visitMembers, *]
theorem visitStmts_eq (l : List Stmt) : visitStmts l = l.flatMap visitStmt := by
  induction l <;> simp [visitStmts, *]
theorem visitDeclarators_eq (l : List Declarator) : visitDeclarators l = l.flatMap visitDeclarator := by
  induction l <;> simp [visitDeclarators, *]
theorem visitCases_eq (l : List SwitchCase) : visitCases l = l.flatMap visitCase := by
  induction l <;> simp [visitCases, *]

/-- The events of a node of any kind. -/
def visitNode : Node → List Event
  | .expr e => visitExpr e
  | .key k => visitKey k
  | .prop p => visitProperty p
  | .pat p => visitPattern p
  | .func f => visitFunc f
  | .cls c => visitClass c
  | .member m => visitMember m
  | .block b => visitBlock b
  | .stmt s => visitStmt s
  | .declarator d => visitDeclarator d
  | .forInit i => visitForInit i
  | .case c => visitCase c
  | .catch c => visitCatch c
  | .switchBody cs => [.enter .Block] ++ visitCases cs ++ [.leave]

/-- Not an announcement of a statement list. -/
def Event.notList : Event → Bool
  | .statementList _ => false
  | _ => true

/-- The events of a node except for the announcements of statement lists. -/
def visitBare (n : Node) : List Event := (visitNode n).filter Event.notList

/-- The callback of an expression. -/
def exprCb : Expr → Option ExprCb
  | .void _ => none
  | .this _ => some .this
  | .ident .. => some .identifier
  | .lit .. => some .literal
  | .seq .. => some .sequence
  | .array .. => some .array
  | .member .. => some .member
  | .cmember .. => some .computedMember
  | .metaProp .. => some .metaProperty
  | .call .. => some .call
  | .binary .. => some .binary
  | .prefix .. => some .prefix
  | .postfix .. => some .postfix
  | .cond .. => some .conditional
  | .template .. => some .template
  | .tagged .. => some .taggedTemplate
  | .spread .. => some .spread
  | .arrowE .. => some .arrow
  | .arrowB .. => some .arrow
  | .object .. => some .object
  | .function .. => some .function
  | .class .. => some .class

/-- The callback of a statement. -/
def stmtCb : Stmt → Option StmtCb
  | .empty _ => none
  | .debugger _ => none
  | .expr .. => some .expression
  | .decl .. => some .declaration
  | .ret .. => some .ret
  | .brk .. => some .brk
  | .cont .. => some .cont
  | .throw .. => some .throw
  | .ifS .. => some .ifS
  | .whileS .. => some .whileS
  | .doS .. => some .doS
  | .forS .. => some .forS
  | .forIn .. => some .forIn
  | .forOf .. => some .forOf
  | .tryS .. => some .tryS
  | .block .. => some .block
  | .labeled .. => some .labeled
  | .function .. => some .function
  | .class .. => some .class
  | .switch .. => some .switch
  | .import .. => some .importDeclaration

/-- Own events of a node before its children. -/
def preEvents : Node → List Event
  | .expr (.void _) => []
  | .expr (.this l) => [.onExpr .this (.this l)]
  | .expr (.lit l v) => [.onExpr .literal (.lit l v)]
  | .expr (.ident l n) => [.onExpr .identifier (.ident l n), .pushExpr (.ident l n), .use n]
  | .expr (.metaProp l m p) =>
    [.onExpr .metaProperty (.metaProp l m p), .pushExpr (.metaProp l m p), .use m.name, .use p.name]
  | .expr e => match exprCb e with | some cb => [.onExpr cb e, .pushExpr e] | none => []
  | .prop (.shorthand _ n) => [.use n]
  | .pat (.ident _ n) => [.declare n]
  | .pat (.rest _ a) => [.use a.name]
  | .func (.mk name _ _ _) => visitName name ++ [.enter .Function]
  | .cls (.mk name _ _ _) => visitName name
  | .member (.error _) => [.panic]
  | .block _ => [.enter .Block]
  | .stmt (.block l b) => [.onStmt .block (.block l b), .pushStmt (.block l b), .enter .Block]
  | .stmt (.import l specs source) =>
    [.onStmt .importDeclaration (.import l specs source), .use source] ++
    specs.flatMap visitImportSpec
  | .stmt s => match stmtCb s with | some cb => [.onStmt cb s, .pushStmt s] | none => []
  | .switchBody _ => [.enter .Block]
  | _ => []

/-- Own events of a node after its children. -/
def postEvents : Node → List Event
  | .expr (.void _) => []
  | .expr (.this _) => []
  | .expr (.lit _ _) => []
  | .expr _ => [.pop]
  | .func _ => [.leave]
  | .block _ => [.leave]
  | .stmt (.empty _) => []
  | .stmt (.debugger _) => []
  | .stmt (.block _ _) => [.leave, .pop]
  | .stmt _ => [.pop]
  | .switchBody _ => [.leave]
  | _ => []

section
@[simp] theorem notList_pushExpr {e} : (Event.pushExpr e).notList = true := rfl
@[simp] theorem notList_pushStmt {e} : (Event.pushStmt e).notList = true := rfl
@[simp] theorem notList_pop : Event.pop.notList = true := rfl
@[simp] theorem notList_statementList {e} : (Event.statementList e).notList = false := rfl
@[simp] theorem notList_enter {e} : (Event.enter e).notList = true := rfl
@[simp] theorem notList_leave : Event.leave.notList = true := rfl
@[simp] theorem notList_use {e} : (Event.use e).notList = true := rfl
@[simp] theorem notList_declare {e} : (Event.declare e).notList = true := rfl
@[simp] theorem notList_onExpr {c e} : (Event.onExpr c e).notList = true := rfl
@[simp] theorem notList_onStmt {c e} : (Event.onStmt c e).notList = true := rfl
@[simp] theorem notList_panic : Event.panic.notList = true := rfl
end

set_option maxHeartbeats 1000000 in
/-- A traversal emits the own events of a node around those of its children. -/
theorem visitBare_eq (n : Node) :
    visitBare n = preEvents n ++ n.children.flatMap visitBare ++ postEvents n := by
  have spec : ∀ s : ImportSpec, (visitImportSpec s).filter Event.notList = visitImportSpec s := by
    intro s; cases s <;> rfl
  have nm : ∀ s : Name, (visitName s).filter Event.notList = visitName s := by
    intro s; cases s <;> rfl
  rcases n with e | k | p | p | f | c' | m | b | s | d | i | c' | c' | cs
  all_goals first | cases e | cases k | cases p | cases f | cases c' | cases m | cases b | cases s | cases d | cases i | skip
  all_goals try (rename_i b; have hb : Block := b; clear hb; cases b)
  case cls.mk e _ _ => cases e <;> simp [visitBare, visitNode, visitClass, preEvents, postEvents, nm, visitMembers_eq, Node.children, List.flatMap_map, List.filter_flatMap]
  case stmt.forS i t u _ =>
    cases i <;> cases t <;> cases u <;> simp [List.filter_cons, visitBare, visitNode, visitStmt, stmtEvents, preEvents, postEvents, Node.children, stmtCb]
  case stmt.ret e => cases e <;> simp [List.filter_cons, visitBare, visitNode, visitStmt, stmtEvents, preEvents, postEvents, Node.children, stmtCb]
  case stmt.ifS e => cases e <;> simp [List.filter_cons, visitBare, visitNode, visitStmt, stmtEvents, preEvents, postEvents, Node.children, stmtCb]
  case stmt.tryS h f => cases h <;> cases f <;> simp [List.filter_cons, visitBare, visitNode, visitStmt, stmtEvents, preEvents, postEvents, Node.children, stmtCb]
  case declarator.mk h => cases h <;> simp [visitBare, visitNode, visitDeclarator, preEvents, postEvents, Node.children]
  case case.mk h _ => cases h <;> simp [visitBare, visitNode, visitCase, preEvents, postEvents, Node.children, visitStmts_eq, List.flatMap_map, List.filter_flatMap]
  all_goals
    simp [visitBare, visitNode, visitExpr, visitKey, visitProperty, visitPattern, visitFunc,
      visitMember, visitBlock, visitStmt, visitForInit,
      visitCatch, visitExprs_eq, visitProperties_eq, visitPatterns_eq,
      visitStmts_eq, visitDeclarators_eq, visitCases_eq, preEvents, postEvents, Node.children,
      visitBlockBody, exprEvents, stmtEvents, exprCb, stmtCb,
      List.flatMap_map, List.filter_flatMap, spec, nm, List.filter_cons]
end Ratel
