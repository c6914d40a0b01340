import Verif.AstEq
import Verif.Spec.Bare
/-! `==` is equality up to positions. -/
namespace Ratel
open Spec

theorem eqIdent_iff (a b : Ident) : eqIdent a b = true ↔ bareIdent a = bareIdent b := by
  simp [eqIdent, bareIdent]

theorem eqIdents_iff : ∀ a b : List Ident, eqIdents a b = true ↔ a.map bareIdent = b.map bareIdent
  | [], b => by cases b <;> simp [eqIdents]
  | a :: as, b => by cases b <;> simp [eqIdents, eqIdent_iff, eqIdents_iff as]

theorem eqLabel_iff (a b : Option Ident) : eqLabel a b = true ↔ a.map bareIdent = b.map bareIdent := by
  cases a <;> cases b <;> simp [eqLabel, eqIdent_iff]

theorem eqName_iff (a b : Name) : eqName a b = true ↔ bareName a = bareName b := by
  cases a <;> cases b <;> simp [eqName, bareName, eqIdent_iff, eqLabel_iff]

theorem eqSpec_iff (a b : ImportSpec) : eqSpec a b = true ↔ bareSpec a = bareSpec b := by
  cases a <;> cases b <;> simp [eqSpec, bareSpec, eqIdent_iff]

theorem eqSpecs_iff : ∀ a b : List ImportSpec, eqSpecs a b = true ↔ a.map bareSpec = b.map bareSpec
  | [], b => by cases b <;> simp [eqSpecs]
  | a :: as, b => by cases b <;> simp [eqSpecs, eqSpec_iff, eqSpecs_iff as]

theorem bare_ret_map (l : Loc) (v : Option Expr) : bareStmt (.ret l v) = .ret z (v.map bareExpr) := by cases v <;> rfl
theorem bare_if_map (l : Loc) (t : Expr) (c : Stmt) (a : Option Stmt) :
    bareStmt (.ifS l t c a) = .ifS z (bareExpr t) (bareStmt c) (a.map bareStmt) := by cases a <;> rfl
theorem bare_for_map (l : Loc) (i : Option ForInit) (t u : Option Expr) (b : Stmt) :
    bareStmt (.forS l i t u b) = .forS z (i.map bareInit) (t.map bareExpr) (u.map bareExpr) (bareStmt b) := by
  cases i <;> cases t <;> cases u <;> rfl
theorem bare_try_map (l : Loc) (b : Block) (h : Option Catch) (f : Option Block) :
    bareStmt (.tryS l b h f) = .tryS z (bareBlock b) (h.map bareCatch) (f.map bareBlock) := by cases h <;> cases f <;> rfl
theorem bare_class_map (n : Name) (s : Option Expr) (l : Loc) (ms : List ClassMember) :
    bareClass (.mk n s l ms) = .mk (bareName n) (s.map bareExpr) z (bareMembers ms) := by cases s <;> rfl
theorem bare_declarator_map (l : Loc) (p : Pattern) (i : Option Expr) :
    bareDeclarator (.mk l p i) = .mk z (barePat p) (i.map bareExpr) := by cases i <;> rfl
theorem bare_case_map (l : Loc) (t : Option Expr) (b : List Stmt) :
    bareCase (.mk l t b) = .mk z (t.map bareExpr) (bareStmts b) := by cases t <;> rfl

set_option maxHeartbeats 2000000
mutual


theorem eqExpr_iff : ∀ a b : Expr, eqExpr a b = true ↔ bareExpr a = bareExpr b
  | .void _, y => by
    cases y <;> simp [eqExpr, bareExpr]
  | .this _, y => by
    cases y <;> simp [eqExpr, bareExpr]
  | .ident _ n, y => by
    cases y <;> simp [eqExpr, bareExpr]
  | .lit _ v, y => by
    cases y <;> simp [eqExpr, bareExpr]
  | .seq _ es, y => by
    cases y <;> simp [eqExpr, bareExpr, eqExprs_iff es]
  | .array _ es, y => by
    cases y <;> simp [eqExpr, bareExpr, eqExprs_iff es]
  | .member _ o p, y => by
    cases y <;> simp [eqExpr, bareExpr, eqExpr_iff o, eqIdent_iff]
  | .cmember _ o p, y => by
    cases y <;> simp [eqExpr, bareExpr, eqExpr_iff o, eqExpr_iff p]
  | .metaProp _ m p, y => by
    cases y <;> simp [eqExpr, bareExpr, eqIdent_iff, eqIdent_iff]
  | .call _ c es, y => by
    cases y <;> simp [eqExpr, bareExpr, eqExpr_iff c, eqExprs_iff es]
  | .binary _ op a b, y => by
    cases y <;> simp [eqExpr, bareExpr, eqExpr_iff a, eqExpr_iff b]
  | .prefix _ op e, y => by
    cases y <;> simp [eqExpr, bareExpr, eqExpr_iff e]
  | .postfix _ op e, y => by
    cases y <;> simp [eqExpr, bareExpr, eqExpr_iff e]
  | .cond _ t c a, y => by
    cases y <;> simp [eqExpr, bareExpr, eqExpr_iff t, eqExpr_iff c, eqExpr_iff a]
  | .template _ es qs, y => by
    cases y <;> simp [eqExpr, bareExpr, eqExprs_iff es, eqIdents_iff]
  | .tagged _ t _ es qs, y => by
    cases y <;> simp [eqExpr, bareExpr, eqExpr_iff t, eqExprs_iff es, eqIdents_iff]
  | .spread _ e, y => by
    cases y <;> simp [eqExpr, bareExpr, eqExpr_iff e]
  | .arrowE _ ps b, y => by
    cases y <;> simp [eqExpr, bareExpr, eqPats_iff ps, eqExpr_iff b]
  | .arrowB _ ps b, y => by
    cases y <;> simp [eqExpr, bareExpr, eqPats_iff ps, eqBlock_iff b]
  | .object _ ps, y => by
    cases y <;> simp [eqExpr, bareExpr, eqProps_iff ps]
  | .function _ f, y => by
    cases y <;> simp [eqExpr, bareExpr, eqFunc_iff f]
  | .class _ c, y => by
    cases y <;> simp [eqExpr, bareExpr, eqClass_iff c]

theorem eqExprs_iff : ∀ a b : List Expr, eqExprs a b = true ↔ bareExprs a = bareExprs b
  | a :: as, y => by
    cases y <;> simp [eqExprs, bareExprs, eqExpr_iff a, eqExprs_iff as]
  | [], y => by
    cases y <;> simp [eqExprs, bareExprs]

theorem eqKey_iff : ∀ a b : PropKey, eqKey a b = true ↔ bareKey a = bareKey b
  | .computed _ e, y => by
    cases y <;> simp [eqKey, bareKey, eqExpr_iff e]
  | .literal _ v, y => by
    cases y <;> simp [eqKey, bareKey]
  | .binary _ v, y => by
    cases y <;> simp [eqKey, bareKey]

theorem eqProp_iff : ∀ a b : Property, eqProp a b = true ↔ bareProp a = bareProp b
  | .shorthand _ n, y => by
    cases y <;> simp [eqProp, bareProp]
  | .literal _ k v, y => by
    cases y <;> simp [eqProp, bareProp, eqKey_iff k, eqExpr_iff v]
  | .method _ k _ f, y => by
    cases y <;> simp [eqProp, bareProp, eqKey_iff k, eqFunc_iff f]
  | .spread _ e, y => by
    cases y <;> simp [eqProp, bareProp, eqExpr_iff e]

theorem eqProps_iff : ∀ a b : List Property, eqProps a b = true ↔ bareProps a = bareProps b
  | a :: as, y => by
    cases y <;> simp [eqProps, bareProps, eqProp_iff a, eqProps_iff as]
  | [], y => by
    cases y <;> simp [eqProps, bareProps]

theorem eqPat_iff : ∀ a b : Pattern, eqPat a b = true ↔ barePat a = barePat b
  | .void _, y => by
    cases y <;> simp [eqPat, barePat]
  | .ident _ n, y => by
    cases y <;> simp [eqPat, barePat]
  | .object _ ps, y => by
    cases y <;> simp [eqPat, barePat, eqProps_iff ps]
  | .array _ ps, y => by
    cases y <;> simp [eqPat, barePat, eqPats_iff ps]
  | .rest _ a, y => by
    cases y <;> simp [eqPat, barePat, eqIdent_iff]
  | .assign _ p e, y => by
    cases y <;> simp [eqPat, barePat, eqPat_iff p, eqExpr_iff e]

theorem eqPats_iff : ∀ a b : List Pattern, eqPats a b = true ↔ barePats a = barePats b
  | a :: as, y => by
    cases y <;> simp [eqPats, barePats, eqPat_iff a, eqPats_iff as]
  | [], y => by
    cases y <;> simp [eqPats, barePats]

theorem eqFunc_iff : ∀ a b : Func, eqFunc a b = true ↔ bareFunc a = bareFunc b
  | .mk n g ps b, y => by
    cases y <;> simp [eqFunc, bareFunc, eqName_iff, eqPats_iff ps, eqBlock_iff b]

theorem eqClass_iff : ∀ a b : Class, eqClass a b = true ↔ bareClass a = bareClass b
  | .mk n s _ ms, y => by
    cases y <;> simp [eqClass, ↓bare_class_map, eqName_iff, eqExprO_iff s, eqMembers_iff ms]

theorem eqExprO_iff : ∀ a b : Option Expr, eqExprO a b = true ↔ a.map bareExpr = b.map bareExpr
  | some a, y => by
    cases y <;> simp [eqExprO, eqExpr_iff a]
  | none, y => by
    cases y <;> simp [eqExprO]

theorem eqMember_iff : ∀ a b : ClassMember, eqMember a b = true ↔ bareMember a = bareMember b
  | .error _, y => by
    cases y <;> simp [eqMember, bareMember]
  | .method _ s k kd _ f, y => by
    cases y <;> simp [eqMember, bareMember, eqKey_iff k, eqFunc_iff f]
  | .literal _ s k v, y => by
    cases y <;> simp [eqMember, bareMember, eqKey_iff k, eqExpr_iff v]

theorem eqMembers_iff : ∀ a b : List ClassMember, eqMembers a b = true ↔ bareMembers a = bareMembers b
  | a :: as, y => by
    cases y <;> simp [eqMembers, bareMembers, eqMember_iff a, eqMembers_iff as]
  | [], y => by
    cases y <;> simp [eqMembers, bareMembers]

theorem eqBlock_iff : ∀ a b : Block, eqBlock a b = true ↔ bareBlock a = bareBlock b
  | .mk _ b, y => by
    cases y <;> simp [eqBlock, bareBlock, eqStmts_iff b]

theorem eqStmt_iff : ∀ a b : Stmt, eqStmt a b = true ↔ bareStmt a = bareStmt b
  | .empty _, y => by
    cases y <;> simp [eqStmt, ↓bare_ret_map, ↓bare_if_map, ↓bare_for_map, ↓bare_try_map, bareStmt]
  | .debugger _, y => by
    cases y <;> simp [eqStmt, ↓bare_ret_map, ↓bare_if_map, ↓bare_for_map, ↓bare_try_map, bareStmt]
  | .expr _ e, y => by
    cases y <;> simp [eqStmt, ↓bare_ret_map, ↓bare_if_map, ↓bare_for_map, ↓bare_try_map, bareStmt, eqExpr_iff e]
  | .decl _ k ds, y => by
    cases y <;> simp [eqStmt, ↓bare_ret_map, ↓bare_if_map, ↓bare_for_map, ↓bare_try_map, bareStmt, eqDeclarators_iff ds]
  | .ret _ v, y => by
    cases y <;> simp [eqStmt, ↓bare_ret_map, ↓bare_if_map, ↓bare_for_map, ↓bare_try_map, bareStmt, eqExprO_iff v]
  | .brk _ l, y => by
    cases y <;> simp [eqStmt, ↓bare_ret_map, ↓bare_if_map, ↓bare_for_map, ↓bare_try_map, bareStmt, eqLabel_iff]
  | .cont _ l, y => by
    cases y <;> simp [eqStmt, ↓bare_ret_map, ↓bare_if_map, ↓bare_for_map, ↓bare_try_map, bareStmt, eqLabel_iff]
  | .throw _ e, y => by
    cases y <;> simp [eqStmt, ↓bare_ret_map, ↓bare_if_map, ↓bare_for_map, ↓bare_try_map, bareStmt, eqExpr_iff e]
  | .ifS _ t c a, y => by
    cases y <;> simp [eqStmt, ↓bare_ret_map, ↓bare_if_map, ↓bare_for_map, ↓bare_try_map, bareStmt, eqExpr_iff t, eqStmt_iff c, eqStmtO_iff a]
  | .whileS _ t b, y => by
    cases y <;> simp [eqStmt, ↓bare_ret_map, ↓bare_if_map, ↓bare_for_map, ↓bare_try_map, bareStmt, eqExpr_iff t, eqStmt_iff b]
  | .doS _ b t, y => by
    cases y <;> simp [eqStmt, ↓bare_ret_map, ↓bare_if_map, ↓bare_for_map, ↓bare_try_map, bareStmt, eqStmt_iff b, eqExpr_iff t]
  | .forS _ i t u b, y => by
    cases y <;> simp [eqStmt, ↓bare_ret_map, ↓bare_if_map, ↓bare_for_map, ↓bare_try_map, bareStmt, eqInitO_iff i, eqExprO_iff t, eqExprO_iff u, eqStmt_iff b]
  | .forIn _ l r b, y => by
    cases y <;> simp [eqStmt, ↓bare_ret_map, ↓bare_if_map, ↓bare_for_map, ↓bare_try_map, bareStmt, eqInit_iff l, eqExpr_iff r, eqStmt_iff b]
  | .forOf _ l r b, y => by
    cases y <;> simp [eqStmt, ↓bare_ret_map, ↓bare_if_map, ↓bare_for_map, ↓bare_try_map, bareStmt, eqInit_iff l, eqExpr_iff r, eqStmt_iff b]
  | .tryS _ b h f, y => by
    cases y <;> simp [eqStmt, ↓bare_ret_map, ↓bare_if_map, ↓bare_for_map, ↓bare_try_map, bareStmt, eqBlock_iff b, eqCatchO_iff h, eqBlockO_iff f]
  | .block _ b, y => by
    cases y <;> simp [eqStmt, ↓bare_ret_map, ↓bare_if_map, ↓bare_for_map, ↓bare_try_map, bareStmt, eqStmts_iff b]
  | .labeled _ l b, y => by
    cases y <;> simp [eqStmt, ↓bare_ret_map, ↓bare_if_map, ↓bare_for_map, ↓bare_try_map, bareStmt, eqStmt_iff b]
  | .function _ f, y => by
    cases y <;> simp [eqStmt, ↓bare_ret_map, ↓bare_if_map, ↓bare_for_map, ↓bare_try_map, bareStmt, eqFunc_iff f]
  | .class _ c, y => by
    cases y <;> simp [eqStmt, ↓bare_ret_map, ↓bare_if_map, ↓bare_for_map, ↓bare_try_map, bareStmt, eqClass_iff c]
  | .switch _ d _ cs, y => by
    cases y <;> simp [eqStmt, ↓bare_ret_map, ↓bare_if_map, ↓bare_for_map, ↓bare_try_map, bareStmt, eqExpr_iff d, eqCases_iff cs]
  | .import _ ss src, y => by
    cases y <;> simp [eqStmt, ↓bare_ret_map, ↓bare_if_map, ↓bare_for_map, ↓bare_try_map, bareStmt, eqSpecs_iff]

theorem eqStmts_iff : ∀ a b : List Stmt, eqStmts a b = true ↔ bareStmts a = bareStmts b
  | a :: as, y => by
    cases y <;> simp [eqStmts, bareStmts, eqStmt_iff a, eqStmts_iff as]
  | [], y => by
    cases y <;> simp [eqStmts, bareStmts]

theorem eqStmtO_iff : ∀ a b : Option Stmt, eqStmtO a b = true ↔ a.map bareStmt = b.map bareStmt
  | some a, y => by
    cases y <;> simp [eqStmtO, eqStmt_iff a]
  | none, y => by
    cases y <;> simp [eqStmtO]

theorem eqBlockO_iff : ∀ a b : Option Block, eqBlockO a b = true ↔ a.map bareBlock = b.map bareBlock
  | some a, y => by
    cases y <;> simp [eqBlockO, eqBlock_iff a]
  | none, y => by
    cases y <;> simp [eqBlockO]

theorem eqDeclarator_iff : ∀ a b : Declarator, eqDeclarator a b = true ↔ bareDeclarator a = bareDeclarator b
  | .mk _ p i, y => by
    cases y <;> simp [eqDeclarator, ↓bare_declarator_map, eqPat_iff p, eqExprO_iff i]

theorem eqDeclarators_iff : ∀ a b : List Declarator, eqDeclarators a b = true ↔ bareDeclarators a = bareDeclarators b
  | a :: as, y => by
    cases y <;> simp [eqDeclarators, bareDeclarators, eqDeclarator_iff a, eqDeclarators_iff as]
  | [], y => by
    cases y <;> simp [eqDeclarators, bareDeclarators]

theorem eqInit_iff : ∀ a b : ForInit, eqInit a b = true ↔ bareInit a = bareInit b
  | .decl _ k ds, y => by
    cases y <;> simp [eqInit, bareInit, eqDeclarators_iff ds]
  | .expr _ e, y => by
    cases y <;> simp [eqInit, bareInit, eqExpr_iff e]

theorem eqInitO_iff : ∀ a b : Option ForInit, eqInitO a b = true ↔ a.map bareInit = b.map bareInit
  | some a, y => by
    cases y <;> simp [eqInitO, eqInit_iff a]
  | none, y => by
    cases y <;> simp [eqInitO]

theorem eqCase_iff : ∀ a b : SwitchCase, eqCase a b = true ↔ bareCase a = bareCase b
  | .mk _ t b, y => by
    cases y <;> simp [eqCase, ↓bare_case_map, eqExprO_iff t, eqStmts_iff b]

theorem eqCases_iff : ∀ a b : List SwitchCase, eqCases a b = true ↔ bareCases a = bareCases b
  | a :: as, y => by
    cases y <;> simp [eqCases, bareCases, eqCase_iff a, eqCases_iff as]
  | [], y => by
    cases y <;> simp [eqCases, bareCases]

theorem eqCatch_iff : ∀ a b : Catch, eqCatch a b = true ↔ bareCatch a = bareCatch b
  | .mk _ p b, y => by
    cases y <;> simp [eqCatch, bareCatch, eqPat_iff p, eqBlock_iff b]

theorem eqCatchO_iff : ∀ a b : Option Catch, eqCatchO a b = true ↔ a.map bareCatch = b.map bareCatch
  | some a, y => by
    cases y <;> simp [eqCatchO, eqCatch_iff a]
  | none, y => by
    cases y <;> simp [eqCatchO]

end

end Ratel
