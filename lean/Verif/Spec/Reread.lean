import Verif.Spec.Tidy
/-! What the code of a tree is read as: the tree without positions and without empty statements in lists of statements, as in
`Tidy`, and with ordinary functions in place of generators, because the code generator does not write their `*`. -/
namespace Ratel.Spec
open Ratel

mutual

def rereadExpr : Expr → Expr
  | .void _ => .void z
  | .this _ => .this z
  | .ident _ n => .ident z n
  | .lit _ v => .lit z v
  | .seq _ es => .seq z (rereadExprs es)
  | .array _ es => .array z (rereadExprs es)
  | .member _ o p => .member z (rereadExpr o) (bareIdent p)
  | .cmember _ o p => .cmember z (rereadExpr o) (rereadExpr p)
  | .metaProp _ m p => .metaProp z (bareIdent m) (bareIdent p)
  | .call _ c args => .call z (rereadExpr c) (rereadExprs args)
  | .binary _ op l r => .binary z op (rereadExpr l) (rereadExpr r)
  | .prefix _ op e => .prefix z op (rereadExpr e)
  | .postfix _ op e => .postfix z op (rereadExpr e)
  | .cond _ t c a => .cond z (rereadExpr t) (rereadExpr c) (rereadExpr a)
  | .template _ es qs => .template z (rereadExprs es) (qs.map bareIdent)
  | .tagged _ t _ es qs => .tagged z (rereadExpr t) z (rereadExprs es) (qs.map bareIdent)
  | .spread _ e => .spread z (rereadExpr e)
  | .arrowE _ ps b => .arrowE z (rereadPats ps) (rereadExpr b)
  | .arrowB _ ps b => .arrowB z (rereadPats ps) (rereadBlock b)
  | .object _ ps => .object z (rereadProps ps)
  | .function _ f => .function z (rereadFunc f)
  | .class _ c => .class z (rereadClass c)

def rereadExprs : List Expr → List Expr
  | [] => []
  | e :: es => rereadExpr e :: rereadExprs es

def rereadKey : PropKey → PropKey
  | .computed _ e => .computed z (rereadExpr e)
  | .literal _ v => .literal z v
  | .binary _ v => .binary z v

def rereadProp : Property → Property
  | .shorthand _ n => .shorthand z n
  | .literal _ k v => .literal z (rereadKey k) (rereadExpr v)
  | .method _ k _ f => .method z (rereadKey k) z (rereadFunc f)
  | .spread _ e => .spread z (rereadExpr e)

def rereadProps : List Property → List Property
  | [] => []
  | p :: ps => rereadProp p :: rereadProps ps

def rereadPat : Pattern → Pattern
  | .void _ => .void z
  | .ident _ n => .ident z n
  | .object _ ps => .object z (rereadProps ps)
  | .array _ es => .array z (rereadPats es)
  | .rest _ a => .rest z (bareIdent a)
  | .assign _ l r => .assign z (rereadPat l) (rereadExpr r)

def rereadPats : List Pattern → List Pattern
  | [] => []
  | p :: ps => rereadPat p :: rereadPats ps

def rereadFunc : Func → Func
  | .mk n _ ps b => .mk (bareName n) false (rereadPats ps) (rereadBlock b)

def rereadClass : Class → Class
  | .mk n s _ ms => .mk (bareName n) (match s with | some e => some (rereadExpr e) | none => none) z (rereadMembers ms)

def rereadMember : ClassMember → ClassMember
  | .error _ => .error z
  | .method _ s k kd _ f => .method z s (rereadKey k) kd z (rereadFunc f)
  | .literal _ s k v => .literal z s (rereadKey k) (rereadExpr v)

def rereadMembers : List ClassMember → List ClassMember
  | [] => []
  | m :: ms => rereadMember m :: rereadMembers ms

def rereadBlock : Block → Block
  | .mk _ b => .mk z (rereadStmts b)

def rereadStmt : Stmt → Stmt
  | .empty _ => .empty z
  | .debugger _ => .debugger z
  | .expr _ e => .expr z (rereadExpr e)
  | .decl _ k ds => .decl z k (rereadDeclarators ds)
  | .ret _ v => .ret z (match v with | some e => some (rereadExpr e) | none => none)
  | .brk _ l => .brk z (l.map bareIdent)
  | .cont _ l => .cont z (l.map bareIdent)
  | .throw _ e => .throw z (rereadExpr e)
  | .ifS _ t c a => .ifS z (rereadExpr t) (rereadStmt c) (match a with | some s => some (rereadStmt s) | none => none)
  | .whileS _ t b => .whileS z (rereadExpr t) (rereadStmt b)
  | .doS _ b t => .doS z (rereadStmt b) (rereadExpr t)
  | .forS _ i t u b => .forS z (match i with | some i => some (rereadInit i) | none => none)
      (match t with | some e => some (rereadExpr e) | none => none)
      (match u with | some e => some (rereadExpr e) | none => none) (rereadStmt b)
  | .forIn _ l r b => .forIn z (rereadInit l) (rereadExpr r) (rereadStmt b)
  | .forOf _ l r b => .forOf z (rereadInit l) (rereadExpr r) (rereadStmt b)
  | .tryS _ b h f => .tryS z (rereadBlock b) (match h with | some c => some (rereadCatch c) | none => none)
      (match f with | some b => some (rereadBlock b) | none => none)
  | .block _ b => .block z (rereadStmts b)
  | .labeled _ l b => .labeled z l (rereadStmt b)
  | .function _ f => .function z (rereadFunc f)
  | .class _ c => .class z (rereadClass c)
  | .switch _ d _ cs => .switch z (rereadExpr d) z (rereadCases cs)
  | .import _ ss src => .import z (ss.map bareSpec) src

def rereadStmts : List Stmt → List Stmt
  | [] => []
  | s :: ss => if isEmptyStmt s then rereadStmts ss else rereadStmt s :: rereadStmts ss

def rereadDeclarator : Declarator → Declarator
  | .mk _ p i => .mk z (rereadPat p) (match i with | some e => some (rereadExpr e) | none => none)

def rereadDeclarators : List Declarator → List Declarator
  | [] => []
  | d :: ds => rereadDeclarator d :: rereadDeclarators ds

def rereadInit : ForInit → ForInit
  | .decl _ k ds => .decl z k (rereadDeclarators ds)
  | .expr _ e => .expr z (rereadExpr e)

def rereadCase : SwitchCase → SwitchCase
  | .mk _ t b => .mk z (match t with | some e => some (rereadExpr e) | none => none) (rereadStmts b)

def rereadCases : List SwitchCase → List SwitchCase
  | [] => []
  | c :: cs => rereadCase c :: rereadCases cs

def rereadCatch : Catch → Catch
  | .mk _ p b => .mk z (rereadPat p) (rereadBlock b)

end

end Ratel.Spec
