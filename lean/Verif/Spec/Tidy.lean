import Verif.Spec.Bare
/-! Trees without positions and without empty statements in lists of statements: the code generator writes
nothing for an empty statement. The rest is as in `Bare`. -/
namespace Ratel.Spec
open Ratel

/-- `;` -/
def isEmptyStmt : Stmt → Bool
  | .empty _ => true
  | _ => false

mutual

def tidyExpr : Expr → Expr
  | .void _ => .void z
  | .this _ => .this z
  | .ident _ n => .ident z n
  | .lit _ v => .lit z v
  | .seq _ es => .seq z (tidyExprs es)
  | .array _ es => .array z (tidyExprs es)
  | .member _ o p => .member z (tidyExpr o) (bareIdent p)
  | .cmember _ o p => .cmember z (tidyExpr o) (tidyExpr p)
  | .metaProp _ m p => .metaProp z (bareIdent m) (bareIdent p)
  | .call _ c args => .call z (tidyExpr c) (tidyExprs args)
  | .binary _ op l r => .binary z op (tidyExpr l) (tidyExpr r)
  | .prefix _ op e => .prefix z op (tidyExpr e)
  | .postfix _ op e => .postfix z op (tidyExpr e)
  | .cond _ t c a => .cond z (tidyExpr t) (tidyExpr c) (tidyExpr a)
  | .template _ es qs => .template z (tidyExprs es) (qs.map bareIdent)
  | .tagged _ t _ es qs => .tagged z (tidyExpr t) z (tidyExprs es) (qs.map bareIdent)
  | .spread _ e => .spread z (tidyExpr e)
  | .arrowE _ ps b => .arrowE z (tidyPats ps) (tidyExpr b)
  | .arrowB _ ps b => .arrowB z (tidyPats ps) (tidyBlock b)
  | .object _ ps => .object z (tidyProps ps)
  | .function _ f => .function z (tidyFunc f)
  | .class _ c => .class z (tidyClass c)

def tidyExprs : List Expr → List Expr
  | [] => []
  | e :: es => tidyExpr e :: tidyExprs es

def tidyKey : PropKey → PropKey
  | .computed _ e => .computed z (tidyExpr e)
  | .literal _ v => .literal z v
  | .binary _ v => .binary z v

def tidyProp : Property → Property
  | .shorthand _ n => .shorthand z n
  | .literal _ k v => .literal z (tidyKey k) (tidyExpr v)
  | .method _ k _ f => .method z (tidyKey k) z (tidyFunc f)
  | .spread _ e => .spread z (tidyExpr e)

def tidyProps : List Property → List Property
  | [] => []
  | p :: ps => tidyProp p :: tidyProps ps

def tidyPat : Pattern → Pattern
  | .void _ => .void z
  | .ident _ n => .ident z n
  | .object _ ps => .object z (tidyProps ps)
  | .array _ es => .array z (tidyPats es)
  | .rest _ a => .rest z (bareIdent a)
  | .assign _ l r => .assign z (tidyPat l) (tidyExpr r)

def tidyPats : List Pattern → List Pattern
  | [] => []
  | p :: ps => tidyPat p :: tidyPats ps

def tidyFunc : Func → Func
  | .mk n g ps b => .mk (bareName n) g (tidyPats ps) (tidyBlock b)

def tidyClass : Class → Class
  | .mk n s _ ms => .mk (bareName n) (match s with | some e => some (tidyExpr e) | none => none) z (tidyMembers ms)

def tidyMember : ClassMember → ClassMember
  | .error _ => .error z
  | .method _ s k kd _ f => .method z s (tidyKey k) kd z (tidyFunc f)
  | .literal _ s k v => .literal z s (tidyKey k) (tidyExpr v)

def tidyMembers : List ClassMember → List ClassMember
  | [] => []
  | m :: ms => tidyMember m :: tidyMembers ms

def tidyBlock : Block → Block
  | .mk _ b => .mk z (tidyStmts b)

def tidyStmt : Stmt → Stmt
  | .empty _ => .empty z
  | .debugger _ => .debugger z
  | .expr _ e => .expr z (tidyExpr e)
  | .decl _ k ds => .decl z k (tidyDeclarators ds)
  | .ret _ v => .ret z (match v with | some e => some (tidyExpr e) | none => none)
  | .brk _ l => .brk z (l.map bareIdent)
  | .cont _ l => .cont z (l.map bareIdent)
  | .throw _ e => .throw z (tidyExpr e)
  | .ifS _ t c a => .ifS z (tidyExpr t) (tidyStmt c) (match a with | some s => some (tidyStmt s) | none => none)
  | .whileS _ t b => .whileS z (tidyExpr t) (tidyStmt b)
  | .doS _ b t => .doS z (tidyStmt b) (tidyExpr t)
  | .forS _ i t u b => .forS z (match i with | some i => some (tidyInit i) | none => none)
      (match t with | some e => some (tidyExpr e) | none => none)
      (match u with | some e => some (tidyExpr e) | none => none) (tidyStmt b)
  | .forIn _ l r b => .forIn z (tidyInit l) (tidyExpr r) (tidyStmt b)
  | .forOf _ l r b => .forOf z (tidyInit l) (tidyExpr r) (tidyStmt b)
  | .tryS _ b h f => .tryS z (tidyBlock b) (match h with | some c => some (tidyCatch c) | none => none)
      (match f with | some b => some (tidyBlock b) | none => none)
  | .block _ b => .block z (tidyStmts b)
  | .labeled _ l b => .labeled z l (tidyStmt b)
  | .function _ f => .function z (tidyFunc f)
  | .class _ c => .class z (tidyClass c)
  | .switch _ d _ cs => .switch z (tidyExpr d) z (tidyCases cs)
  | .import _ ss src => .import z (ss.map bareSpec) src

def tidyStmts : List Stmt → List Stmt
  | [] => []
  | s :: ss => if isEmptyStmt s then tidyStmts ss else tidyStmt s :: tidyStmts ss

def tidyDeclarator : Declarator → Declarator
  | .mk _ p i => .mk z (tidyPat p) (match i with | some e => some (tidyExpr e) | none => none)

def tidyDeclarators : List Declarator → List Declarator
  | [] => []
  | d :: ds => tidyDeclarator d :: tidyDeclarators ds

def tidyInit : ForInit → ForInit
  | .decl _ k ds => .decl z k (tidyDeclarators ds)
  | .expr _ e => .expr z (tidyExpr e)

def tidyCase : SwitchCase → SwitchCase
  | .mk _ t b => .mk z (match t with | some e => some (tidyExpr e) | none => none) (tidyStmts b)

def tidyCases : List SwitchCase → List SwitchCase
  | [] => []
  | c :: cs => tidyCase c :: tidyCases cs

def tidyCatch : Catch → Catch
  | .mk _ p b => .mk z (tidyPat p) (tidyBlock b)

end

end Ratel.Spec
