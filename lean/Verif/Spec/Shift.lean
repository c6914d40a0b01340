import Verif.Ast
/-! Moving a tree: `shift` adds a number to every position of a tree. -/
namespace Ratel.Spec
open Ratel

/-- A span, moved. -/
def shiftLoc (k : Nat) (l : Loc) : Loc := ⟨l.start + k, l.stop + k⟩

/-- An identifier, moved. -/
def shiftIdent (k : Nat) (i : Ident) : Ident := ⟨shiftLoc k i.loc, i.name⟩

def shiftName (k : Nat) : Name → Name
  | .empty => .empty
  | .optional n => .optional (n.map (shiftIdent k))
  | .mandatory n => .mandatory (shiftIdent k n)

def shiftSpec (k : Nat) : ImportSpec → ImportSpec
  | .named w i l => .named (shiftLoc k w) (shiftIdent k i) (shiftIdent k l)
  | .default w l => .default (shiftLoc k w) (shiftIdent k l)
  | .namespace w l => .namespace (shiftLoc k w) (shiftIdent k l)

mutual

def shiftExpr (k : Nat) : Expr → Expr
  | .void w => .void (shiftLoc k w)
  | .this w => .this (shiftLoc k w)
  | .ident w n => .ident (shiftLoc k w) n
  | .lit w v => .lit (shiftLoc k w) v
  | .seq w es => .seq (shiftLoc k w) (shiftExprs k es)
  | .array w es => .array (shiftLoc k w) (shiftExprs k es)
  | .member w o p => .member (shiftLoc k w) (shiftExpr k o) (shiftIdent k p)
  | .cmember w o p => .cmember (shiftLoc k w) (shiftExpr k o) (shiftExpr k p)
  | .metaProp w m p => .metaProp (shiftLoc k w) (shiftIdent k m) (shiftIdent k p)
  | .call w c args => .call (shiftLoc k w) (shiftExpr k c) (shiftExprs k args)
  | .binary w op l r => .binary (shiftLoc k w) op (shiftExpr k l) (shiftExpr k r)
  | .prefix w op e => .prefix (shiftLoc k w) op (shiftExpr k e)
  | .postfix w op e => .postfix (shiftLoc k w) op (shiftExpr k e)
  | .cond w t c a => .cond (shiftLoc k w) (shiftExpr k t) (shiftExpr k c) (shiftExpr k a)
  | .template w es qs => .template (shiftLoc k w) (shiftExprs k es) (qs.map (shiftIdent k))
  | .tagged w t w2 es qs => .tagged (shiftLoc k w) (shiftExpr k t) (shiftLoc k w2) (shiftExprs k es) (qs.map (shiftIdent k))
  | .spread w e => .spread (shiftLoc k w) (shiftExpr k e)
  | .arrowE w ps b => .arrowE (shiftLoc k w) (shiftPats k ps) (shiftExpr k b)
  | .arrowB w ps b => .arrowB (shiftLoc k w) (shiftPats k ps) (shiftBlock k b)
  | .object w ps => .object (shiftLoc k w) (shiftProps k ps)
  | .function w f => .function (shiftLoc k w) (shiftFunc k f)
  | .class w c => .class (shiftLoc k w) (shiftClass k c)

def shiftExprs (k : Nat) : List Expr → List Expr
  | [] => []
  | e :: es => shiftExpr k e :: shiftExprs k es

def shiftKey (k : Nat) : PropKey → PropKey
  | .computed w e => .computed (shiftLoc k w) (shiftExpr k e)
  | .literal w v => .literal (shiftLoc k w) v
  | .binary w v => .binary (shiftLoc k w) v

def shiftProp (k : Nat) : Property → Property
  | .shorthand w n => .shorthand (shiftLoc k w) n
  | .literal w key v => .literal (shiftLoc k w) (shiftKey k key) (shiftExpr k v)
  | .method w key w2 f => .method (shiftLoc k w) (shiftKey k key) (shiftLoc k w2) (shiftFunc k f)
  | .spread w e => .spread (shiftLoc k w) (shiftExpr k e)

def shiftProps (k : Nat) : List Property → List Property
  | [] => []
  | p :: ps => shiftProp k p :: shiftProps k ps

def shiftPat (k : Nat) : Pattern → Pattern
  | .void w => .void (shiftLoc k w)
  | .ident w n => .ident (shiftLoc k w) n
  | .object w ps => .object (shiftLoc k w) (shiftProps k ps)
  | .array w es => .array (shiftLoc k w) (shiftPats k es)
  | .rest w a => .rest (shiftLoc k w) (shiftIdent k a)
  | .assign w l r => .assign (shiftLoc k w) (shiftPat k l) (shiftExpr k r)

def shiftPats (k : Nat) : List Pattern → List Pattern
  | [] => []
  | p :: ps => shiftPat k p :: shiftPats k ps

def shiftFunc (k : Nat) : Func → Func
  | .mk n g ps b => .mk (shiftName k n) g (shiftPats k ps) (shiftBlock k b)

def shiftClass (k : Nat) : Class → Class
  | .mk n s w ms => .mk (shiftName k n) (match s with | some e => some (shiftExpr k e) | none => none) (shiftLoc k w) (shiftMembers k ms)

def shiftMember (k : Nat) : ClassMember → ClassMember
  | .error w => .error (shiftLoc k w)
  | .method w s key kd w2 f => .method (shiftLoc k w) s (shiftKey k key) kd (shiftLoc k w2) (shiftFunc k f)
  | .literal w s key v => .literal (shiftLoc k w) s (shiftKey k key) (shiftExpr k v)

def shiftMembers (k : Nat) : List ClassMember → List ClassMember
  | [] => []
  | m :: ms => shiftMember k m :: shiftMembers k ms

def shiftBlock (k : Nat) : Block → Block
  | .mk w b => .mk (shiftLoc k w) (shiftStmts k b)

def shiftStmt (k : Nat) : Stmt → Stmt
  | .empty w => .empty (shiftLoc k w)
  | .debugger w => .debugger (shiftLoc k w)
  | .expr w e => .expr (shiftLoc k w) (shiftExpr k e)
  | .decl w key ds => .decl (shiftLoc k w) key (shiftDeclarators k ds)
  | .ret w v => .ret (shiftLoc k w) (match v with | some e => some (shiftExpr k e) | none => none)
  | .brk w l => .brk (shiftLoc k w) (l.map (shiftIdent k))
  | .cont w l => .cont (shiftLoc k w) (l.map (shiftIdent k))
  | .throw w e => .throw (shiftLoc k w) (shiftExpr k e)
  | .ifS w t c a => .ifS (shiftLoc k w) (shiftExpr k t) (shiftStmt k c) (match a with | some s => some (shiftStmt k s) | none => none)
  | .whileS w t b => .whileS (shiftLoc k w) (shiftExpr k t) (shiftStmt k b)
  | .doS w b t => .doS (shiftLoc k w) (shiftStmt k b) (shiftExpr k t)
  | .forS w i t u b => .forS (shiftLoc k w) (match i with | some i => some (shiftInit k i) | none => none)
      (match t with | some e => some (shiftExpr k e) | none => none)
      (match u with | some e => some (shiftExpr k e) | none => none) (shiftStmt k b)
  | .forIn w l r b => .forIn (shiftLoc k w) (shiftInit k l) (shiftExpr k r) (shiftStmt k b)
  | .forOf w l r b => .forOf (shiftLoc k w) (shiftInit k l) (shiftExpr k r) (shiftStmt k b)
  | .tryS w b h f => .tryS (shiftLoc k w) (shiftBlock k b) (match h with | some c => some (shiftCatch k c) | none => none)
      (match f with | some b => some (shiftBlock k b) | none => none)
  | .block w b => .block (shiftLoc k w) (shiftStmts k b)
  | .labeled w l b => .labeled (shiftLoc k w) l (shiftStmt k b)
  | .function w f => .function (shiftLoc k w) (shiftFunc k f)
  | .class w c => .class (shiftLoc k w) (shiftClass k c)
  | .switch w d w2 cs => .switch (shiftLoc k w) (shiftExpr k d) (shiftLoc k w2) (shiftCases k cs)
  | .import w ss src => .import (shiftLoc k w) (ss.map (shiftSpec k)) src

def shiftStmts (k : Nat) : List Stmt → List Stmt
  | [] => []
  | s :: ss => shiftStmt k s :: shiftStmts k ss

def shiftDeclarator (k : Nat) : Declarator → Declarator
  | .mk w p i => .mk (shiftLoc k w) (shiftPat k p) (match i with | some e => some (shiftExpr k e) | none => none)

def shiftDeclarators (k : Nat) : List Declarator → List Declarator
  | [] => []
  | d :: ds => shiftDeclarator k d :: shiftDeclarators k ds

def shiftInit (k : Nat) : ForInit → ForInit
  | .decl w key ds => .decl (shiftLoc k w) key (shiftDeclarators k ds)
  | .expr w e => .expr (shiftLoc k w) (shiftExpr k e)

def shiftCase (k : Nat) : SwitchCase → SwitchCase
  | .mk w t b => .mk (shiftLoc k w) (match t with | some e => some (shiftExpr k e) | none => none) (shiftStmts k b)

def shiftCases (k : Nat) : List SwitchCase → List SwitchCase
  | [] => []
  | c :: cs => shiftCase k c :: shiftCases k cs

def shiftCatch (k : Nat) : Catch → Catch
  | .mk w p b => .mk (shiftLoc k w) (shiftPat k p) (shiftBlock k b)

end

end Ratel.Spec
