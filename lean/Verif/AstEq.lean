import Verif.Ast
/-! `==` of trees: the derived `PartialEq` of the types in `ratel/src/ast/*.rs`.

Fields are compared in order. `Loc<T>` compares its item only (`ratel/src/ast/mod.rs:100-105`), `Node<T>` what it
points to (`ratel/src/ast/node.rs:41-46`), toolshed's `List` element by element. -/
namespace Ratel

/-- `IdentifierNode == IdentifierNode`, `ratel/src/ast/mod.rs:60,100-105`. -/
def eqIdent (a b : Ident) : Bool := a.name = b.name

/-- `Option<IdentifierNode>`. -/
def eqLabel : Option Ident → Option Ident → Bool
  | some a, some b => eqIdent a b
  | none, none => true
  | _, _ => false

/-- Lists of quasis, `NodeList<&str>`. -/
def eqIdents : List Ident → List Ident → Bool
  | a :: as, b :: bs => eqIdent a b && eqIdents as bs
  | [], [] => true
  | _, _ => false

/-- `EmptyName`, `OptionalName` and `MandatoryName`, `ratel/src/ast/function.rs:8-15`. -/
def eqName : Name → Name → Bool
  | .empty, .empty => true
  | .optional a, .optional b => eqLabel a b
  | .mandatory a, .mandatory b => eqIdent a b
  | _, _ => false

/-- `ForImportSpecifier`, `ratel/src/ast/statement.rs:122-143`. -/
def eqSpec : ImportSpec → ImportSpec → Bool
  | .named _ i l, .named _ i' l' => eqIdent i i' && eqIdent l l'
  | .default _ l, .default _ l' => eqIdent l l'
  | .namespace _ l, .namespace _ l' => eqIdent l l'
  | _, _ => false

def eqSpecs : List ImportSpec → List ImportSpec → Bool
  | a :: as, b :: bs => eqSpec a b && eqSpecs as bs
  | [], [] => true
  | _, _ => false

mutual

/-- `Expression`, `ratel/src/ast/expression.rs:29-153`. -/
def eqExpr : Expr → Expr → Bool
  | .void _, .void _ => true
  | .this _, .this _ => true
  | .ident _ n, .ident _ n' => n = n'
  | .lit _ v, .lit _ v' => v = v'
  | .seq _ es, .seq _ es' => eqExprs es es'
  | .array _ es, .array _ es' => eqExprs es es'
  | .member _ o p, .member _ o' p' => eqExpr o o' && eqIdent p p'
  | .cmember _ o p, .cmember _ o' p' => eqExpr o o' && eqExpr p p'
  | .metaProp _ m p, .metaProp _ m' p' => eqIdent m m' && eqIdent p p'
  | .call _ c es, .call _ c' es' => eqExpr c c' && eqExprs es es'
  | .binary _ op a b, .binary _ op' a' b' => op = op' && (eqExpr a a' && eqExpr b b')
  | .prefix _ op e, .prefix _ op' e' => op = op' && eqExpr e e'
  | .postfix _ op e, .postfix _ op' e' => op = op' && eqExpr e e'
  | .cond _ t c a, .cond _ t' c' a' => eqExpr t t' && (eqExpr c c' && eqExpr a a')
  | .template _ es qs, .template _ es' qs' => eqExprs es es' && eqIdents qs qs'
  | .tagged _ t _ es qs, .tagged _ t' _ es' qs' => eqExpr t t' && (eqExprs es es' && eqIdents qs qs')
  | .spread _ e, .spread _ e' => eqExpr e e'
  | .arrowE _ ps b, .arrowE _ ps' b' => eqPats ps ps' && eqExpr b b'
  | .arrowB _ ps b, .arrowB _ ps' b' => eqPats ps ps' && eqBlock b b'
  | .object _ ps, .object _ ps' => eqProps ps ps'
  | .function _ f, .function _ f' => eqFunc f f'
  | .class _ c, .class _ c' => eqClass c c'
  | _, _ => false

def eqExprs : List Expr → List Expr → Bool
  | a :: as, b :: bs => eqExpr a b && eqExprs as bs
  | [], [] => true
  | _, _ => false

/-- `PropertyKey`, `ratel/src/ast/expression.rs:4-9`. -/
def eqKey : PropKey → PropKey → Bool
  | .computed _ e, .computed _ e' => eqExpr e e'
  | .literal _ v, .literal _ v' => v = v'
  | .binary _ v, .binary _ v' => v = v'
  | _, _ => false

/-- `Property`, `ratel/src/ast/expression.rs:11-25`. -/
def eqProp : Property → Property → Bool
  | .shorthand _ n, .shorthand _ n' => n = n'
  | .literal _ k v, .literal _ k' v' => eqKey k k' && eqExpr v v'
  | .method _ k _ f, .method _ k' _ f' => eqKey k k' && eqFunc f f'
  | .spread _ e, .spread _ e' => eqExpr e e'
  | _, _ => false

def eqProps : List Property → List Property → Bool
  | a :: as, b :: bs => eqProp a b && eqProps as bs
  | [], [] => true
  | _, _ => false

/-- `Pattern`, `ratel/src/ast/mod.rs:30-48`. -/
def eqPat : Pattern → Pattern → Bool
  | .void _, .void _ => true
  | .ident _ n, .ident _ n' => n = n'
  | .object _ ps, .object _ ps' => eqProps ps ps'
  | .array _ ps, .array _ ps' => eqPats ps ps'
  | .rest _ a, .rest _ a' => eqIdent a a'
  | .assign _ p e, .assign _ p' e' => eqPat p p' && eqExpr e e'
  | _, _ => false

def eqPats : List Pattern → List Pattern → Bool
  | a :: as, b :: bs => eqPat a b && eqPats as bs
  | [], [] => true
  | _, _ => false

/-- `Function`, `ratel/src/ast/function.rs:65-71`. -/
def eqFunc : Func → Func → Bool
  | .mk n g ps b, .mk n' g' ps' b' => eqName n n' && (g = g' && (eqPats ps ps' && eqBlock b b'))

/-- `Class`, `ratel/src/ast/function.rs:97-102`. -/
def eqClass : Class → Class → Bool
  | .mk n s _ ms, .mk n' s' _ ms' => eqName n n' && (eqExprO s s' && eqMembers ms ms')

/-- `Option<ExpressionNode>`. -/
def eqExprO : Option Expr → Option Expr → Bool
  | some a, some b => eqExpr a b
  | none, none => true
  | _, _ => false

/-- `ClassMember`, `ratel/src/ast/function.rs:81-95`. -/
def eqMember : ClassMember → ClassMember → Bool
  | .error _, .error _ => true
  | .method _ s k kd _ f, .method _ s' k' kd' _ f' => s = s' && (eqKey k k' && (kd = kd' && eqFunc f f'))
  | .literal _ s k v, .literal _ s' k' v' => s = s' && (eqKey k k' && eqExpr v v')
  | _, _ => false

def eqMembers : List ClassMember → List ClassMember → Bool
  | a :: as, b :: bs => eqMember a b && eqMembers as bs
  | [], [] => true
  | _, _ => false

/-- `Block`, `ratel/src/ast/mod.rs:25-28`. -/
def eqBlock : Block → Block → Bool
  | .mk _ b, .mk _ b' => eqStmts b b'

/-- `Statement`, `ratel/src/ast/statement.rs:4-173`. -/
def eqStmt : Stmt → Stmt → Bool
  | .empty _, .empty _ => true
  | .debugger _, .debugger _ => true
  | .expr _ e, .expr _ e' => eqExpr e e'
  | .decl _ k ds, .decl _ k' ds' => k = k' && eqDeclarators ds ds'
  | .ret _ v, .ret _ v' => eqExprO v v'
  | .brk _ l, .brk _ l' => eqLabel l l'
  | .cont _ l, .cont _ l' => eqLabel l l'
  | .throw _ e, .throw _ e' => eqExpr e e'
  | .ifS _ t c a, .ifS _ t' c' a' => eqExpr t t' && (eqStmt c c' && eqStmtO a a')
  | .whileS _ t b, .whileS _ t' b' => eqExpr t t' && eqStmt b b'
  | .doS _ b t, .doS _ b' t' => eqStmt b b' && eqExpr t t'
  | .forS _ i t u b, .forS _ i' t' u' b' => eqInitO i i' && (eqExprO t t' && (eqExprO u u' && eqStmt b b'))
  | .forIn _ l r b, .forIn _ l' r' b' => eqInit l l' && (eqExpr r r' && eqStmt b b')
  | .forOf _ l r b, .forOf _ l' r' b' => eqInit l l' && (eqExpr r r' && eqStmt b b')
  | .tryS _ b h f, .tryS _ b' h' f' => eqBlock b b' && (eqCatchO h h' && eqBlockO f f')
  | .block _ b, .block _ b' => eqStmts b b'
  | .labeled _ l b, .labeled _ l' b' => l = l' && eqStmt b b'
  | .function _ f, .function _ f' => eqFunc f f'
  | .class _ c, .class _ c' => eqClass c c'
  | .switch _ d _ cs, .switch _ d' _ cs' => eqExpr d d' && eqCases cs cs'
  | .import _ ss src, .import _ ss' src' => eqSpecs ss ss' && src = src'
  | _, _ => false

/-- `StatementList`, the body of a module (`ratel/src/module.rs:28-31`). -/
def eqStmts : List Stmt → List Stmt → Bool
  | a :: as, b :: bs => eqStmt a b && eqStmts as bs
  | [], [] => true
  | _, _ => false

/-- `Option<StatementNode>`. -/
def eqStmtO : Option Stmt → Option Stmt → Bool
  | some a, some b => eqStmt a b
  | none, none => true
  | _, _ => false

/-- `Option<BlockNode<Statement>>`. -/
def eqBlockO : Option Block → Option Block → Bool
  | some a, some b => eqBlock a b
  | none, none => true
  | _, _ => false

/-- `Declarator`, `ratel/src/ast/statement.rs:4-8`. -/
def eqDeclarator : Declarator → Declarator → Bool
  | .mk _ p i, .mk _ p' i' => eqPat p p' && eqExprO i i'

def eqDeclarators : List Declarator → List Declarator → Bool
  | a :: as, b :: bs => eqDeclarator a b && eqDeclarators as bs
  | [], [] => true
  | _, _ => false

/-- `ForInit`, `ratel/src/ast/statement.rs:57-61`. -/
def eqInit : ForInit → ForInit → Bool
  | .decl _ k ds, .decl _ k' ds' => k = k' && eqDeclarators ds ds'
  | .expr _ e, .expr _ e' => eqExpr e e'
  | _, _ => false

/-- `Option<Node<ForInit>>`. -/
def eqInitO : Option ForInit → Option ForInit → Bool
  | some a, some b => eqInit a b
  | none, none => true
  | _, _ => false

/-- `SwitchCase`, `ratel/src/ast/statement.rs:110-114`. -/
def eqCase : SwitchCase → SwitchCase → Bool
  | .mk _ t b, .mk _ t' b' => eqExprO t t' && eqStmts b b'

def eqCases : List SwitchCase → List SwitchCase → Bool
  | a :: as, b :: bs => eqCase a b && eqCases as bs
  | [], [] => true
  | _, _ => false

/-- `CatchClause`, `ratel/src/ast/statement.rs:85-89`. -/
def eqCatch : Catch → Catch → Bool
  | .mk _ p b, .mk _ p' b' => eqPat p p' && eqBlock b b'

/-- `Option<Node<CatchClause>>`. -/
def eqCatchO : Option Catch → Option Catch → Bool
  | some a, some b => eqCatch a b
  | none, none => true
  | _, _ => false

end

end Ratel
