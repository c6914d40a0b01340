import Verif.Lemmas.SimRun
import Verif.Spec.Bare
/-! Moving a tree changes nothing but its positions. -/
namespace Ratel
open Spec

set_option linter.unusedSimpArgs false

theorem bareShiftName (k : Nat) (n : Name) : bareName (shiftName k n) = bareName n := by
  cases n with
  | optional n => cases n <;> rfl
  | _ => rfl

theorem bareShiftIdents (k : Nat) (l : List Ident) : (l.map (shiftIdent k)).map bareIdent = l.map bareIdent := by
  induction l with
  | nil => rfl
  | cons x xs ih => rw [List.map_cons, List.map_cons, ih]; rfl
theorem bareShiftSpecs (k : Nat) (l : List ImportSpec) : (l.map (shiftSpec k)).map bareSpec = l.map bareSpec := by
  induction l with
  | nil => rfl
  | cons x xs ih => rw [List.map_cons, List.map_cons, ih]; cases x <;> rfl
theorem bareShiftLabel (k : Nat) (l : Option Ident) : (l.map (shiftIdent k)).map bareIdent = l.map bareIdent := by
  cases l <;> rfl
theorem bareShiftIdent (k : Nat) (l : Ident) : bareIdent (shiftIdent k l) = bareIdent l := rfl

mutual
theorem bare_shiftExpr (k : Nat) : ∀ x : Expr, bareExpr (shiftExpr k x) = bareExpr x
  | .void w => by simp only [shiftExpr, bareExpr]
  | .this w => by simp only [shiftExpr, bareExpr]
  | .ident w n => by simp only [shiftExpr, bareExpr]
  | .lit w v => by simp only [shiftExpr, bareExpr]
  | .seq w es => by simp only [shiftExpr, bareExpr, bare_shiftExprs k es]
  | .array w es => by simp only [shiftExpr, bareExpr, bare_shiftExprs k es]
  | .member w o p => by simp only [shiftExpr, bareExpr, bare_shiftExpr k o, bareShiftIdent]
  | .cmember w o p => by simp only [shiftExpr, bareExpr, bare_shiftExpr k o, bare_shiftExpr k p]
  | .metaProp w m p => by simp only [shiftExpr, bareExpr, bareShiftIdent]
  | .call w c args => by simp only [shiftExpr, bareExpr, bare_shiftExpr k c, bare_shiftExprs k args]
  | .binary w op l r => by simp only [shiftExpr, bareExpr, bare_shiftExpr k l, bare_shiftExpr k r]
  | .prefix w op e => by simp only [shiftExpr, bareExpr, bare_shiftExpr k e]
  | .postfix w op e => by simp only [shiftExpr, bareExpr, bare_shiftExpr k e]
  | .cond w t c a => by simp only [shiftExpr, bareExpr, bare_shiftExpr k t, bare_shiftExpr k c, bare_shiftExpr k a]
  | .template w es qs => by simp only [shiftExpr, bareExpr, bare_shiftExprs k es, bareShiftIdents]
  | .tagged w t w2 es qs => by simp only [shiftExpr, bareExpr, bare_shiftExpr k t, bare_shiftExprs k es, bareShiftIdents]
  | .spread w e => by simp only [shiftExpr, bareExpr, bare_shiftExpr k e]
  | .arrowE w ps b => by simp only [shiftExpr, bareExpr, bare_shiftPats k ps, bare_shiftExpr k b]
  | .arrowB w ps b => by simp only [shiftExpr, bareExpr, bare_shiftPats k ps, bare_shiftBlock k b]
  | .object w ps => by simp only [shiftExpr, bareExpr, bare_shiftProps k ps]
  | .function w f => by simp only [shiftExpr, bareExpr, bare_shiftFunc k f]
  | .class w c => by simp only [shiftExpr, bareExpr, bare_shiftClass k c]
theorem bare_shiftExprs (k : Nat) : ∀ x : List Expr, bareExprs (shiftExprs k x) = bareExprs x
  | [] => rfl
  | x :: xs => by rw [shiftExprs, bareExprs, bareExprs, bare_shiftExpr k x, bare_shiftExprs k xs]
theorem bare_shiftKey (k : Nat) : ∀ x : PropKey, bareKey (shiftKey k x) = bareKey x
  | .computed w e => by simp only [shiftKey, bareKey, bare_shiftExpr k e]
  | .literal w v => by simp only [shiftKey, bareKey]
  | .binary w v => by simp only [shiftKey, bareKey]
theorem bare_shiftProp (k : Nat) : ∀ x : Property, bareProp (shiftProp k x) = bareProp x
  | .shorthand w n => by simp only [shiftProp, bareProp]
  | .literal w key v => by simp only [shiftProp, bareProp, bare_shiftKey k key, bare_shiftExpr k v]
  | .method w key w2 f => by simp only [shiftProp, bareProp, bare_shiftKey k key, bare_shiftFunc k f]
  | .spread w e => by simp only [shiftProp, bareProp, bare_shiftExpr k e]
theorem bare_shiftProps (k : Nat) : ∀ x : List Property, bareProps (shiftProps k x) = bareProps x
  | [] => rfl
  | x :: xs => by rw [shiftProps, bareProps, bareProps, bare_shiftProp k x, bare_shiftProps k xs]
theorem bare_shiftPat (k : Nat) : ∀ x : Pattern, barePat (shiftPat k x) = barePat x
  | .void w => by simp only [shiftPat, barePat]
  | .ident w n => by simp only [shiftPat, barePat]
  | .object w ps => by simp only [shiftPat, barePat, bare_shiftProps k ps]
  | .array w es => by simp only [shiftPat, barePat, bare_shiftPats k es]
  | .rest w a => by simp only [shiftPat, barePat, bareShiftIdent]
  | .assign w l r => by simp only [shiftPat, barePat, bare_shiftPat k l, bare_shiftExpr k r]
theorem bare_shiftPats (k : Nat) : ∀ x : List Pattern, barePats (shiftPats k x) = barePats x
  | [] => rfl
  | x :: xs => by rw [shiftPats, barePats, barePats, bare_shiftPat k x, bare_shiftPats k xs]
theorem bare_shiftFunc (k : Nat) : ∀ x : Func, bareFunc (shiftFunc k x) = bareFunc x
  | .mk n g ps b => by simp only [shiftFunc, bareFunc, bare_shiftPats k ps, bare_shiftBlock k b, bareShiftName]
theorem bare_shiftClass (k : Nat) : ∀ x : Class, bareClass (shiftClass k x) = bareClass x
  | .mk n none w ms => by simp only [shiftClass, bareClass, bare_shiftMembers k ms, bareShiftName]
  | .mk n (some s) w ms => by simp only [shiftClass, bareClass, bare_shiftMembers k ms, bareShiftName, bare_shiftExpr k s]
theorem bare_shiftMember (k : Nat) : ∀ x : ClassMember, bareMember (shiftMember k x) = bareMember x
  | .error w => by simp only [shiftMember, bareMember]
  | .method w s key kd w2 f => by simp only [shiftMember, bareMember, bare_shiftKey k key, bare_shiftFunc k f]
  | .literal w s key v => by simp only [shiftMember, bareMember, bare_shiftKey k key, bare_shiftExpr k v]
theorem bare_shiftMembers (k : Nat) : ∀ x : List ClassMember, bareMembers (shiftMembers k x) = bareMembers x
  | [] => rfl
  | x :: xs => by rw [shiftMembers, bareMembers, bareMembers, bare_shiftMember k x, bare_shiftMembers k xs]
theorem bare_shiftBlock (k : Nat) : ∀ x : Block, bareBlock (shiftBlock k x) = bareBlock x
  | .mk w b => by simp only [shiftBlock, bareBlock, bare_shiftStmts k b]
theorem bare_shiftStmt (k : Nat) : ∀ x : Stmt, bareStmt (shiftStmt k x) = bareStmt x
  | .empty w => by simp only [shiftStmt, bareStmt]
  | .debugger w => by simp only [shiftStmt, bareStmt]
  | .expr w e => by simp only [shiftStmt, bareStmt, bare_shiftExpr k e]
  | .decl w key ds => by simp only [shiftStmt, bareStmt, bare_shiftDeclarators k ds]
  | .ret w none => by simp only [shiftStmt, bareStmt]
  | .ret w (some v) => by simp only [shiftStmt, bareStmt, bare_shiftExpr k v]
  | .brk w l => by simp only [shiftStmt, bareStmt, bareShiftLabel]
  | .cont w l => by simp only [shiftStmt, bareStmt, bareShiftLabel]
  | .throw w e => by simp only [shiftStmt, bareStmt, bare_shiftExpr k e]
  | .ifS w t c none => by simp only [shiftStmt, bareStmt, bare_shiftExpr k t, bare_shiftStmt k c]
  | .ifS w t c (some a) => by simp only [shiftStmt, bareStmt, bare_shiftExpr k t, bare_shiftStmt k c, bare_shiftStmt k a]
  | .whileS w t b => by simp only [shiftStmt, bareStmt, bare_shiftExpr k t, bare_shiftStmt k b]
  | .doS w b t => by simp only [shiftStmt, bareStmt, bare_shiftStmt k b, bare_shiftExpr k t]
  | .forS w none none none b => by simp only [shiftStmt, bareStmt, bare_shiftStmt k b]
  | .forS w none none (some u) b => by simp only [shiftStmt, bareStmt, bare_shiftStmt k b, bare_shiftExpr k u]
  | .forS w none (some t) none b => by simp only [shiftStmt, bareStmt, bare_shiftStmt k b, bare_shiftExpr k t]
  | .forS w none (some t) (some u) b => by simp only [shiftStmt, bareStmt, bare_shiftStmt k b, bare_shiftExpr k t, bare_shiftExpr k u]
  | .forS w (some i) none none b => by simp only [shiftStmt, bareStmt, bare_shiftInit k i, bare_shiftStmt k b]
  | .forS w (some i) none (some u) b => by simp only [shiftStmt, bareStmt, bare_shiftInit k i, bare_shiftStmt k b, bare_shiftExpr k u]
  | .forS w (some i) (some t) none b => by simp only [shiftStmt, bareStmt, bare_shiftInit k i, bare_shiftStmt k b, bare_shiftExpr k t]
  | .forS w (some i) (some t) (some u) b => by simp only [shiftStmt, bareStmt, bare_shiftInit k i, bare_shiftStmt k b, bare_shiftExpr k t, bare_shiftExpr k u]
  | .forIn w l r b => by simp only [shiftStmt, bareStmt, bare_shiftInit k l, bare_shiftExpr k r, bare_shiftStmt k b]
  | .forOf w l r b => by simp only [shiftStmt, bareStmt, bare_shiftInit k l, bare_shiftExpr k r, bare_shiftStmt k b]
  | .tryS w b none none => by simp only [shiftStmt, bareStmt, bare_shiftBlock k b, bare_shiftBlock k b]
  | .tryS w b none (some f) => by simp only [shiftStmt, bareStmt, bare_shiftBlock k b, bare_shiftBlock k b, bare_shiftBlock k f]
  | .tryS w b (some h) none => by simp only [shiftStmt, bareStmt, bare_shiftBlock k b, bare_shiftBlock k b, bare_shiftCatch k h]
  | .tryS w b (some h) (some f) => by simp only [shiftStmt, bareStmt, bare_shiftBlock k b, bare_shiftBlock k b, bare_shiftCatch k h, bare_shiftBlock k f]
  | .block w b => by simp only [shiftStmt, bareStmt, bare_shiftStmts k b]
  | .labeled w l b => by simp only [shiftStmt, bareStmt, bare_shiftStmt k b]
  | .function w f => by simp only [shiftStmt, bareStmt, bare_shiftFunc k f]
  | .class w c => by simp only [shiftStmt, bareStmt, bare_shiftClass k c]
  | .switch w d w2 cs => by simp only [shiftStmt, bareStmt, bare_shiftExpr k d, bare_shiftCases k cs]
  | .import w ss src => by simp only [shiftStmt, bareStmt, bareShiftSpecs]
theorem bare_shiftStmts (k : Nat) : ∀ x : List Stmt, bareStmts (shiftStmts k x) = bareStmts x
  | [] => rfl
  | x :: xs => by rw [shiftStmts, bareStmts, bareStmts, bare_shiftStmt k x, bare_shiftStmts k xs]
theorem bare_shiftDeclarator (k : Nat) : ∀ x : Declarator, bareDeclarator (shiftDeclarator k x) = bareDeclarator x
  | .mk w p none => by simp only [shiftDeclarator, bareDeclarator, bare_shiftPat k p]
  | .mk w p (some i) => by simp only [shiftDeclarator, bareDeclarator, bare_shiftPat k p, bare_shiftExpr k i]
theorem bare_shiftDeclarators (k : Nat) : ∀ x : List Declarator, bareDeclarators (shiftDeclarators k x) = bareDeclarators x
  | [] => rfl
  | x :: xs => by rw [shiftDeclarators, bareDeclarators, bareDeclarators, bare_shiftDeclarator k x, bare_shiftDeclarators k xs]
theorem bare_shiftInit (k : Nat) : ∀ x : ForInit, bareInit (shiftInit k x) = bareInit x
  | .decl w key ds => by simp only [shiftInit, bareInit, bare_shiftDeclarators k ds]
  | .expr w e => by simp only [shiftInit, bareInit, bare_shiftExpr k e]
theorem bare_shiftCase (k : Nat) : ∀ x : SwitchCase, bareCase (shiftCase k x) = bareCase x
  | .mk w none b => by simp only [shiftCase, bareCase, bare_shiftStmts k b]
  | .mk w (some t) b => by simp only [shiftCase, bareCase, bare_shiftStmts k b, bare_shiftExpr k t]
theorem bare_shiftCases (k : Nat) : ∀ x : List SwitchCase, bareCases (shiftCases k x) = bareCases x
  | [] => rfl
  | x :: xs => by rw [shiftCases, bareCases, bareCases, bare_shiftCase k x, bare_shiftCases k xs]
theorem bare_shiftCatch (k : Nat) : ∀ x : Catch, bareCatch (shiftCatch k x) = bareCatch x
  | .mk w p b => by simp only [shiftCatch, bareCatch, bare_shiftPat k p, bare_shiftBlock k b]
end
end Ratel
