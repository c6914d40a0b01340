import Verif.Ast
/-! Trees without positions: `bare` replaces every span of a tree by `0..0`. Two trees are equal up to
spans (the equality of `ratel/src/ast`, where `Loc` compares only its item) exactly when their bare
trees are equal. -/
namespace Ratel.Spec
open Ratel

/-- The span of all bare nodes. -/
def z : Loc := ⟨0, 0⟩

/-- An identifier without its position. -/
def bareIdent (i : Ident) : Ident := ⟨z, i.name⟩

def bareName : Name → Name
  | .empty => .empty
  | .optional n => .optional (n.map bareIdent)
  | .mandatory n => .mandatory (bareIdent n)

def bareSpec : ImportSpec → ImportSpec
  | .named _ i l => .named z (bareIdent i) (bareIdent l)
  | .default _ l => .default z (bareIdent l)
  | .namespace _ l => .namespace z (bareIdent l)

mutual

def bareExpr : Expr → Expr
  | .void _ => .void z
  | .this _ => .this z
  | .ident _ n => .ident z n
  | .lit _ v => .lit z v
  | .seq _ es => .seq z (bareExprs es)
  | .array _ es => .array z (bareExprs es)
  | .member _ o p => .member z (bareExpr o) (bareIdent p)
  | .cmember _ o p => .cmember z (bareExpr o) (bareExpr p)
  | .metaProp _ m p => .metaProp z (bareIdent m) (bareIdent p)
  | .call _ c args => .call z (bareExpr c) (bareExprs args)
  | .binary _ op l r => .binary z op (bareExpr l) (bareExpr r)
  | .prefix _ op e => .prefix z op (bareExpr e)
  | .postfix _ op e => .postfix z op (bareExpr e)
  | .cond _ t c a => .cond z (bareExpr t) (bareExpr c) (bareExpr a)
  | .template _ es qs => .template z (bareExprs es) (qs.map bareIdent)
  | .tagged _ t _ es qs => .tagged z (bareExpr t) z (bareExprs es) (qs.map bareIdent)
  | .spread _ e => .spread z (bareExpr e)
  | .arrowE _ ps b => .arrowE z (barePats ps) (bareExpr b)
  | .arrowB _ ps b => .arrowB z (barePats ps) (bareBlock b)
  | .object _ ps => .object z (bareProps ps)
  | .function _ f => .function z (bareFunc f)
  | .class _ c => .class z (bareClass c)

def bareExprs : List Expr → List Expr
  | [] => []
  | e :: es => bareExpr e :: bareExprs es

def bareKey : PropKey → PropKey
  | .computed _ e => .computed z (bareExpr e)
  | .literal _ v => .literal z v
  | .binary _ v => .binary z v

def bareProp : Property → Property
  | .shorthand _ n => .shorthand z n
  | .literal _ k v => .literal z (bareKey k) (bareExpr v)
  | .method _ k _ f => .method z (bareKey k) z (bareFunc f)
  | .spread _ e => .spread z (bareExpr e)

def bareProps : List Property → List Property
  | [] => []
  | p :: ps => bareProp p :: bareProps ps

def barePat : Pattern → Pattern
  | .void _ => .void z
  | .ident _ n => .ident z n
  | .object _ ps => .object z (bareProps ps)
  | .array _ es => .array z (barePats es)
  | .rest _ a => .rest z (bareIdent a)
  | .assign _ l r => .assign z (barePat l) (bareExpr r)

def barePats : List Pattern → List Pattern
  | [] => []
  | p :: ps => barePat p :: barePats ps

def bareFunc : Func → Func
  | .mk n g ps b => .mk (bareName n) g (barePats ps) (bareBlock b)

def bareClass : Class → Class
  | .mk n s _ ms => .mk (bareName n) (match s with | some e => some (bareExpr e) | none => none) z (bareMembers ms)

def bareMember : ClassMember → ClassMember
  | .error _ => .error z
  | .method _ s k kd _ f => .method z s (bareKey k) kd z (bareFunc f)
  | .literal _ s k v => .literal z s (bareKey k) (bareExpr v)

def bareMembers : List ClassMember → List ClassMember
  | [] => []
  | m :: ms => bareMember m :: bareMembers ms

def bareBlock : Block → Block
  | .mk _ b => .mk z (bareStmts b)

def bareStmt : Stmt → Stmt
  | .empty _ => .empty z
  | .debugger _ => .debugger z
  | .expr _ e => .expr z (bareExpr e)
  | .decl _ k ds => .decl z k (bareDeclarators ds)
  | .ret _ v => .ret z (match v with | some e => some (bareExpr e) | none => none)
  | .brk _ l => .brk z (l.map bareIdent)
  | .cont _ l => .cont z (l.map bareIdent)
  | .throw _ e => .throw z (bareExpr e)
  | .ifS _ t c a => .ifS z (bareExpr t) (bareStmt c) (match a with | some s => some (bareStmt s) | none => none)
  | .whileS _ t b => .whileS z (bareExpr t) (bareStmt b)
  | .doS _ b t => .doS z (bareStmt b) (bareExpr t)
  | .forS _ i t u b => .forS z (match i with | some i => some (bareInit i) | none => none)
      (match t with | some e => some (bareExpr e) | none => none)
      (match u with | some e => some (bareExpr e) | none => none) (bareStmt b)
  | .forIn _ l r b => .forIn z (bareInit l) (bareExpr r) (bareStmt b)
  | .forOf _ l r b => .forOf z (bareInit l) (bareExpr r) (bareStmt b)
  | .tryS _ b h f => .tryS z (bareBlock b) (match h with | some c => some (bareCatch c) | none => none)
      (match f with | some b => some (bareBlock b) | none => none)
  | .block _ b => .block z (bareStmts b)
  | .labeled _ l b => .labeled z l (bareStmt b)
  | .function _ f => .function z (bareFunc f)
  | .class _ c => .class z (bareClass c)
  | .switch _ d _ cs => .switch z (bareExpr d) z (bareCases cs)
  | .import _ ss src => .import z (ss.map bareSpec) src

def bareStmts : List Stmt → List Stmt
  | [] => []
  | s :: ss => bareStmt s :: bareStmts ss

def bareDeclarator : Declarator → Declarator
  | .mk _ p i => .mk z (barePat p) (match i with | some e => some (bareExpr e) | none => none)

def bareDeclarators : List Declarator → List Declarator
  | [] => []
  | d :: ds => bareDeclarator d :: bareDeclarators ds

def bareInit : ForInit → ForInit
  | .decl _ k ds => .decl z k (bareDeclarators ds)
  | .expr _ e => .expr z (bareExpr e)

def bareCase : SwitchCase → SwitchCase
  | .mk _ t b => .mk z (match t with | some e => some (bareExpr e) | none => none) (bareStmts b)

def bareCases : List SwitchCase → List SwitchCase
  | [] => []
  | c :: cs => bareCase c :: bareCases cs

def bareCatch : Catch → Catch
  | .mk _ p b => .mk z (barePat p) (bareBlock b)

end

end Ratel.Spec
