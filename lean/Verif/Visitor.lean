import Verif.Ast
/-! The visitor: `ratel-visitor/src/*.rs`.

`Visitable::visit_with` calls the methods of a `Visitor`. The model of `visit_with` is the list of
these calls (events); a concrete visitor interprets it. -/
namespace Ratel

/-- `ScopeKind`, `ratel-visitor/src/lib.rs:17-21`. -/
inductive ScopeKind where
  | Function | Block
deriving DecidableEq, Repr

/-- The callbacks for expressions, `ratel-visitor/src/lib.rs:48-69`. -/
inductive ExprCb where
  | this | identifier | literal | sequence | array | member | computedMember | metaProperty | call
  | binary | «prefix» | postfix | conditional | template | taggedTemplate | spread | arrow | object
  | function | class
deriving DecidableEq, Repr

/-- The callbacks for statements, `ratel-visitor/src/lib.rs:72-90`. -/
inductive StmtCb where
  | expression | declaration | ret | brk | cont | throw | ifS | whileS | doS | forS | forIn | forOf
  | tryS | block | labeled | switch | function | class | importDeclaration
deriving DecidableEq, Repr

/-- A call of a method of `Visitor`, `ratel-visitor/src/lib.rs:27-91`. `panic` is the panic of
`ratel-visitor/src/function.rs:72`. -/
inductive Event where
  | pushExpr (e : Expr)
  | pushStmt (s : Stmt)
  | pop
  | statementList (body : List Stmt)
  | enter (k : ScopeKind)
  | leave
  | use (name : Bytes)
  | declare (name : Bytes)
  | onExpr (cb : ExprCb) (e : Expr)
  | onStmt (cb : StmtCb) (s : Stmt)
  | panic

/-- The shape shared by all expressions with children, `ratel-visitor/src/expression.rs:26-121`. -/
def exprEvents (cb : ExprCb) (e : Expr) (children : List Event) : List Event :=
  [.onExpr cb e, .pushExpr e] ++ children ++ [.pop]

/-- The shape shared by all statements with children but imports,
`ratel-visitor/src/statement.rs:25-120`. -/
def stmtEvents (cb : StmtCb) (s : Stmt) (children : List Event) : List Event :=
  [.onStmt cb s, .pushStmt s] ++ children ++ [.pop]

/-- `Visitable for EmptyName, OptionalName, MandatoryName`,
`ratel-visitor/src/function.rs:7-37`. -/
def visitName : Name → List Event
  | .empty => []
  | .optional _ => []
  | .mandatory n => [.declare n.name]

/-- `Visitable for ForImportSpecifier` and the three specifiers,
`ratel-visitor/src/statement.rs:400-451`. -/
def visitImportSpec : ImportSpec → List Event
  | .named _ imported l => [.use l.name, .use imported.name]
  | .default _ l => [.use l.name]
  | .namespace _ l => [.use l.name]

mutual

/-- `Visitable for ExpressionNode`, `ratel-visitor/src/expression.rs:7-123`, and the
implementations of the expression types, 125-349. -/
def visitExpr : Expr → List Event
  | .void _ => []
  | .this l => [.onExpr .this (.this l)]
  | .ident l n => exprEvents .identifier (.ident l n) [.use n]
  | .lit l v => [.onExpr .literal (.lit l v)]
  | .seq l body => exprEvents .sequence (.seq l body) (visitExprs body)
  | .array l body => exprEvents .array (.array l body) (visitExprs body)
  | .member l object p => exprEvents .member (.member l object p) (visitExpr object)
  | .cmember l object p =>
    exprEvents .computedMember (.cmember l object p) (visitExpr object ++ visitExpr p)
  | .metaProp l m p => exprEvents .metaProperty (.metaProp l m p) [.use m.name, .use p.name]
  | .call l callee args => exprEvents .call (.call l callee args) (visitExpr callee ++ visitExprs args)
  | .binary l op a b => exprEvents .binary (.binary l op a b) (visitExpr a ++ visitExpr b)
  | .prefix l op a => exprEvents .prefix (.prefix l op a) (visitExpr a)
  | .postfix l op a => exprEvents .postfix (.postfix l op a) (visitExpr a)
  | .cond l t c a => exprEvents .conditional (.cond l t c a) (visitExpr t ++ visitExpr c ++ visitExpr a)
  | .template l es qs => exprEvents .template (.template l es qs) (visitExprs es)
  | .tagged l tag ql es qs =>
    exprEvents .taggedTemplate (.tagged l tag ql es qs) (visitExpr tag ++ visitExprs es)
  | .spread l a => exprEvents .spread (.spread l a) (visitExpr a)
  | .arrowE l ps b => exprEvents .arrow (.arrowE l ps b) (visitPatterns ps ++ visitExpr b)
  | .arrowB l ps b => exprEvents .arrow (.arrowB l ps b) (visitPatterns ps ++ visitBlockBody b)
  | .object l ps => exprEvents .object (.object l ps) (visitProperties ps)
  | .function l f => exprEvents .function (.function l f) (visitFunc f)
  | .class l c => exprEvents .class (.class l c) (visitClass c)

/-- `Visitable for ExpressionList`, `ratel-visitor/src/lib.rs:256-269`. -/
def visitExprs : List Expr → List Event
  | [] => []
  | e :: es => visitExpr e ++ visitExprs es

/-- `Visitable for PropertyKey`, `ratel-visitor/src/lib.rs:166-179`. -/
def visitKey : PropKey → List Event
  | .computed _ e => visitExpr e
  | .literal _ _ => []
  | .binary _ _ => []

/-- `Visitable for Property`, `ratel-visitor/src/lib.rs:181-206`. -/
def visitProperty : Property → List Event
  | .shorthand _ n => [.use n]
  | .literal _ key value => visitKey key ++ visitExpr value
  | .method _ key _ value => visitKey key ++ visitFunc value
  | .spread _ e => visitExpr e

/-- `Visitable for NodeList` at properties, `ratel-visitor/src/lib.rs:239-254`. -/
def visitProperties : List Property → List Event
  | [] => []
  | p :: ps => visitProperty p ++ visitProperties ps

/-- `Visitable for Pattern`, `ratel-visitor/src/lib.rs:135-164`. -/
def visitPattern : Pattern → List Event
  | .void _ => []
  | .ident _ n => [.declare n]
  | .object _ ps => visitProperties ps
  | .array _ es => visitPatterns es
  | .rest _ a => [.use a.name]
  | .assign _ l r => visitPattern l ++ visitExpr r

/-- `Visitable for NodeList` at patterns, `ratel-visitor/src/lib.rs:239-254`. -/
def visitPatterns : List Pattern → List Event
  | [] => []
  | p :: ps => visitPattern p ++ visitPatterns ps

/-- `Visitable for Function`, `ratel-visitor/src/function.rs:39-59`. -/
def visitFunc : Func → List Event
  | .mk name _ params body =>
    visitName name ++ [.enter .Function] ++ visitPatterns params ++ visitBlockBody body ++ [.leave]

/-- `Visitable for Class`, `ratel-visitor/src/function.rs:93-108`. -/
def visitClass : Class → List Event
  | .mk name super _ body =>
    visitName name ++ (match super with | some e => visitExpr e | none => []) ++ visitMembers body

/-- `Visitable for ClassMember`, `ratel-visitor/src/function.rs:61-91`. -/
def visitMember : ClassMember → List Event
  | .error _ => [.panic]
  | .method _ _ key _ _ value => visitKey key ++ visitFunc value
  | .literal _ _ key value => visitKey key ++ visitExpr value

/-- `Visitable for NodeList` at class members, `ratel-visitor/src/lib.rs:239-254`. -/
def visitMembers : List ClassMember → List Event
  | [] => []
  | m :: ms => visitMember m ++ visitMembers ms

/-- `block.body.visit_with(visitor)`: `Visitable for StatementList`,
`ratel-visitor/src/lib.rs:271-284`. -/
def visitBlockBody : Block → List Event
  | .mk _ body => .statementList body :: visitStmts body

/-- `Visitable for BlockStatement`, `ratel-visitor/src/statement.rs:124-148`. -/
def visitBlock : Block → List Event
  | .mk _ body => [.enter .Block, .statementList body] ++ visitStmts body ++ [.leave]

/-- `Visitable for StatementNode`, `ratel-visitor/src/statement.rs:7-122`, and the implementations
of the statement types, 124-398. -/
def visitStmt : Stmt → List Event
  | .empty _ => []
  | .debugger _ => []
  | .expr l e => stmtEvents .expression (.expr l e) (visitExpr e)
  | .decl l k ds => stmtEvents .declaration (.decl l k ds) (visitDeclarators ds)
  | .ret l v => stmtEvents .ret (.ret l v) (match v with | some e => visitExpr e | none => [])
  | .brk l lab => stmtEvents .brk (.brk l lab) []
  | .cont l lab => stmtEvents .cont (.cont l lab) []
  | .throw l e => stmtEvents .throw (.throw l e) (visitExpr e)
  | .ifS l t c a => stmtEvents .ifS (.ifS l t c a)
      (visitExpr t ++ visitStmt c ++ (match a with | some a => visitStmt a | none => []))
  | .whileS l t b => stmtEvents .whileS (.whileS l t b) (visitExpr t ++ visitStmt b)
  | .doS l b t => stmtEvents .doS (.doS l b t) (visitStmt b ++ visitExpr t)
  | .forS l i t u b => stmtEvents .forS (.forS l i t u b)
      ((match i with | some i => visitForInit i | none => []) ++
       (match t with | some e => visitExpr e | none => []) ++
       (match u with | some e => visitExpr e | none => []) ++ visitStmt b)
  | .forIn l i r b => stmtEvents .forIn (.forIn l i r b) (visitForInit i ++ visitExpr r ++ visitStmt b)
  | .forOf l i r b => stmtEvents .forOf (.forOf l i r b) (visitForInit i ++ visitExpr r ++ visitStmt b)
  | .tryS l b h f => stmtEvents .tryS (.tryS l b h f)
      (visitBlock b ++ (match h with | some h => visitCatch h | none => []) ++
       (match f with | some f => visitBlock f | none => []))
  | .block l body => stmtEvents .block (.block l body)
      ([.enter .Block, .statementList body] ++ visitStmts body ++ [.leave])
  | .labeled l n b => stmtEvents .labeled (.labeled l n b) (visitStmt b)
  | .function l f => stmtEvents .function (.function l f) (visitFunc f)
  | .class l c => stmtEvents .class (.class l c) (visitClass c)
  | .switch l d bl cs => stmtEvents .switch (.switch l d bl cs)
      (visitExpr d ++ [.enter .Block] ++ visitCases cs ++ [.leave])
  | .import l specs source =>
    [.onStmt .importDeclaration (.import l specs source), .use source] ++
    specs.flatMap visitImportSpec ++ [.pop]

/-- The statements of a list, `ratel-visitor/src/lib.rs:280-282`. -/
def visitStmts : List Stmt → List Event
  | [] => []
  | s :: ss => visitStmt s ++ visitStmts ss

/-- `Visitable for Declarator`, `ratel-visitor/src/statement.rs:150-161`. -/
def visitDeclarator : Declarator → List Event
  | .mk _ id init => visitPattern id ++ (match init with | some e => visitExpr e | none => [])

/-- `Visitable for NodeList` at declarators, `ratel-visitor/src/lib.rs:239-254`. -/
def visitDeclarators : List Declarator → List Event
  | [] => []
  | d :: ds => visitDeclarator d ++ visitDeclarators ds

/-- `Visitable for ForInit`, `ratel-visitor/src/statement.rs:261-274`. -/
def visitForInit : ForInit → List Event
  | .decl _ _ ds => visitDeclarators ds
  | .expr _ e => visitExpr e

/-- `Visitable for SwitchCase`, `ratel-visitor/src/statement.rs:359-370`. -/
def visitCase : SwitchCase → List Event
  | .mk _ test body =>
    (match test with | some e => visitExpr e | none => []) ++ [.statementList body] ++ visitStmts body

/-- `Visitable for NodeList` at cases, `ratel-visitor/src/lib.rs:239-254`. -/
def visitCases : List SwitchCase → List Event
  | [] => []
  | c :: cs => visitCase c ++ visitCases cs

/-- `Visitable for CatchClause`, `ratel-visitor/src/statement.rs:319-330`. -/
def visitCatch : Catch → List Event
  | .mk _ param body => visitPattern param ++ visitBlock body

end

/-- `Visitable for Module`, `ratel-visitor/src/lib.rs:120-133`. -/
def visitModule (m : List Stmt) : List Event := visitStmts m

end Ratel
