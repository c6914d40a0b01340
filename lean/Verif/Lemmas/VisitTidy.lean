import Verif.Lemmas.VisitMap
/-! What a visitor is told depends on positions and empty statements only by the nodes that are passed. -/
namespace Ratel
open Spec

set_option linter.unusedSimpArgs false

theorem visitName_tidy (n : Name) : visitName (bareName n) = (visitName n).map tidyEvent := by cases n <;> simp [visitName, bareName, bareIdent, tidyEvent]
theorem visitSpecs_tidy (l : List ImportSpec) : (l.map bareSpec).flatMap visitImportSpec = (l.flatMap visitImportSpec).map tidyEvent := by
  induction l with
  | nil => rfl
  | cons s l ih => cases s <;> simp_all [visitImportSpec, bareSpec, bareIdent, tidyEvent]

mutual

theorem visitExpr_tidy : ∀ x : Expr, visitExpr (tidyExpr x) = (visitExpr x).map tidyEvent
  | .void _ => by simp [visitExpr, tidyExpr, tidyBlock, bareIdent, tidyEvent, exprEvents, stmtEvents, visitBlockBody]
  | .this _ => by simp [visitExpr, tidyExpr, tidyBlock, bareIdent, tidyEvent, exprEvents, stmtEvents, visitBlockBody]
  | .ident _ _ => by simp [visitExpr, tidyExpr, tidyBlock, bareIdent, tidyEvent, exprEvents, stmtEvents, visitBlockBody]
  | .lit _ _ => by simp [visitExpr, tidyExpr, tidyBlock, bareIdent, tidyEvent, exprEvents, stmtEvents, visitBlockBody]
  | .seq _ es => by simp [visitExpr, tidyExpr, tidyBlock, bareIdent, tidyEvent, exprEvents, stmtEvents, visitBlockBody, visitExprs_tidy es]
  | .array _ es => by simp [visitExpr, tidyExpr, tidyBlock, bareIdent, tidyEvent, exprEvents, stmtEvents, visitBlockBody, visitExprs_tidy es]
  | .member _ o _ => by simp [visitExpr, tidyExpr, tidyBlock, bareIdent, tidyEvent, exprEvents, stmtEvents, visitBlockBody, visitExpr_tidy o]
  | .cmember _ o p => by simp [visitExpr, tidyExpr, tidyBlock, bareIdent, tidyEvent, exprEvents, stmtEvents, visitBlockBody, visitExpr_tidy o, visitExpr_tidy p]
  | .metaProp _ _ _ => by simp [visitExpr, tidyExpr, tidyBlock, bareIdent, tidyEvent, exprEvents, stmtEvents, visitBlockBody]
  | .call _ c es => by simp [visitExpr, tidyExpr, tidyBlock, bareIdent, tidyEvent, exprEvents, stmtEvents, visitBlockBody, visitExpr_tidy c, visitExprs_tidy es]
  | .binary _ _ a b => by simp [visitExpr, tidyExpr, tidyBlock, bareIdent, tidyEvent, exprEvents, stmtEvents, visitBlockBody, visitExpr_tidy a, visitExpr_tidy b]
  | .prefix _ _ e => by simp [visitExpr, tidyExpr, tidyBlock, bareIdent, tidyEvent, exprEvents, stmtEvents, visitBlockBody, visitExpr_tidy e]
  | .postfix _ _ e => by simp [visitExpr, tidyExpr, tidyBlock, bareIdent, tidyEvent, exprEvents, stmtEvents, visitBlockBody, visitExpr_tidy e]
  | .cond _ a b c => by simp [visitExpr, tidyExpr, tidyBlock, bareIdent, tidyEvent, exprEvents, stmtEvents, visitBlockBody, visitExpr_tidy a, visitExpr_tidy b, visitExpr_tidy c]
  | .template _ es _ => by simp [visitExpr, tidyExpr, tidyBlock, bareIdent, tidyEvent, exprEvents, stmtEvents, visitBlockBody, visitExprs_tidy es]
  | .tagged _ t _ es _ => by simp [visitExpr, tidyExpr, tidyBlock, bareIdent, tidyEvent, exprEvents, stmtEvents, visitBlockBody, visitExpr_tidy t, visitExprs_tidy es]
  | .spread _ e => by simp [visitExpr, tidyExpr, tidyBlock, bareIdent, tidyEvent, exprEvents, stmtEvents, visitBlockBody, visitExpr_tidy e]
  | .arrowE _ ps b => by simp [visitExpr, tidyExpr, tidyBlock, bareIdent, tidyEvent, exprEvents, stmtEvents, visitBlockBody, visitPatterns_tidy ps, visitExpr_tidy b]
  | .arrowB _ ps (.mk _ b) => by simp [visitExpr, tidyExpr, tidyBlock, bareIdent, tidyEvent, exprEvents, stmtEvents, visitBlockBody, visitPatterns_tidy ps, visitStmts_tidy b]
  | .object _ ps => by simp [visitExpr, tidyExpr, tidyBlock, bareIdent, tidyEvent, exprEvents, stmtEvents, visitBlockBody, visitProperties_tidy ps]
  | .function _ f => by simp [visitExpr, tidyExpr, tidyBlock, bareIdent, tidyEvent, exprEvents, stmtEvents, visitBlockBody, visitFunc_tidy f]
  | .class _ c => by simp [visitExpr, tidyExpr, tidyBlock, bareIdent, tidyEvent, exprEvents, stmtEvents, visitBlockBody, visitClass_tidy c]

theorem visitExprs_tidy : ∀ x : List Expr, visitExprs (tidyExprs x) = (visitExprs x).map tidyEvent
  | [] => by simp [visitExprs, tidyExprs, tidyBlock, bareIdent, tidyEvent, exprEvents, stmtEvents]
  | e :: es => by simp [visitExprs, tidyExprs, tidyBlock, bareIdent, tidyEvent, exprEvents, stmtEvents, visitExpr_tidy e, visitExprs_tidy es]

theorem visitKey_tidy : ∀ x : PropKey, visitKey (tidyKey x) = (visitKey x).map tidyEvent
  | .computed _ e => by simp [visitKey, tidyKey, tidyBlock, bareIdent, tidyEvent, exprEvents, stmtEvents, visitExpr_tidy e]
  | .literal _ _ => by simp [visitKey, tidyKey, tidyBlock, bareIdent, tidyEvent, exprEvents, stmtEvents]
  | .binary _ _ => by simp [visitKey, tidyKey, tidyBlock, bareIdent, tidyEvent, exprEvents, stmtEvents]

theorem visitProperty_tidy : ∀ x : Property, visitProperty (tidyProp x) = (visitProperty x).map tidyEvent
  | .shorthand _ _ => by simp [visitProperty, tidyProp, tidyBlock, bareIdent, tidyEvent, exprEvents, stmtEvents]
  | .literal _ k v => by simp [visitProperty, tidyProp, tidyBlock, bareIdent, tidyEvent, exprEvents, stmtEvents, visitKey_tidy k, visitExpr_tidy v]
  | .method _ k _ f => by simp [visitProperty, tidyProp, tidyBlock, bareIdent, tidyEvent, exprEvents, stmtEvents, visitKey_tidy k, visitFunc_tidy f]
  | .spread _ e => by simp [visitProperty, tidyProp, tidyBlock, bareIdent, tidyEvent, exprEvents, stmtEvents, visitExpr_tidy e]

theorem visitProperties_tidy : ∀ x : List Property, visitProperties (tidyProps x) = (visitProperties x).map tidyEvent
  | [] => by simp [visitProperties, tidyProps, tidyBlock, bareIdent, tidyEvent, exprEvents, stmtEvents]
  | e :: es => by simp [visitProperties, tidyProps, tidyBlock, bareIdent, tidyEvent, exprEvents, stmtEvents, visitProperty_tidy e, visitProperties_tidy es]

theorem visitPattern_tidy : ∀ x : Pattern, visitPattern (tidyPat x) = (visitPattern x).map tidyEvent
  | .void _ => by simp [visitPattern, tidyPat, tidyBlock, bareIdent, tidyEvent, exprEvents, stmtEvents]
  | .ident _ _ => by simp [visitPattern, tidyPat, tidyBlock, bareIdent, tidyEvent, exprEvents, stmtEvents]
  | .object _ ps => by simp [visitPattern, tidyPat, tidyBlock, bareIdent, tidyEvent, exprEvents, stmtEvents, visitProperties_tidy ps]
  | .array _ ps => by simp [visitPattern, tidyPat, tidyBlock, bareIdent, tidyEvent, exprEvents, stmtEvents, visitPatterns_tidy ps]
  | .rest _ _ => by simp [visitPattern, tidyPat, tidyBlock, bareIdent, tidyEvent, exprEvents, stmtEvents]
  | .assign _ p e => by simp [visitPattern, tidyPat, tidyBlock, bareIdent, tidyEvent, exprEvents, stmtEvents, visitPattern_tidy p, visitExpr_tidy e]

theorem visitPatterns_tidy : ∀ x : List Pattern, visitPatterns (tidyPats x) = (visitPatterns x).map tidyEvent
  | [] => by simp [visitPatterns, tidyPats, tidyBlock, bareIdent, tidyEvent, exprEvents, stmtEvents]
  | e :: es => by simp [visitPatterns, tidyPats, tidyBlock, bareIdent, tidyEvent, exprEvents, stmtEvents, visitPattern_tidy e, visitPatterns_tidy es]

theorem visitFunc_tidy : ∀ x : Func, visitFunc (tidyFunc x) = (visitFunc x).map tidyEvent
  | .mk nm _ ps (.mk _ b) => by simp [visitFunc, tidyFunc, tidyBlock, bareIdent, tidyEvent, exprEvents, stmtEvents, visitBlockBody, visitName_tidy nm, visitPatterns_tidy ps, visitStmts_tidy b]

theorem visitClass_tidy : ∀ x : Class, visitClass (tidyClass x) = (visitClass x).map tidyEvent
  | .mk nm none _ ms => by simp [visitClass, tidyClass, tidyBlock, bareIdent, tidyEvent, exprEvents, stmtEvents, visitName_tidy nm, visitMembers_tidy ms]
  | .mk nm (some e) _ ms => by simp [visitClass, tidyClass, tidyBlock, bareIdent, tidyEvent, exprEvents, stmtEvents, visitName_tidy nm, visitExpr_tidy e, visitMembers_tidy ms]

theorem visitMember_tidy : ∀ x : ClassMember, visitMember (tidyMember x) = (visitMember x).map tidyEvent
  | .error _ => by simp [visitMember, tidyMember, tidyBlock, bareIdent, tidyEvent, exprEvents, stmtEvents]
  | .method _ _ k _ _ f => by simp [visitMember, tidyMember, tidyBlock, bareIdent, tidyEvent, exprEvents, stmtEvents, visitKey_tidy k, visitFunc_tidy f]
  | .literal _ _ k v => by simp [visitMember, tidyMember, tidyBlock, bareIdent, tidyEvent, exprEvents, stmtEvents, visitKey_tidy k, visitExpr_tidy v]

theorem visitMembers_tidy : ∀ x : List ClassMember, visitMembers (tidyMembers x) = (visitMembers x).map tidyEvent
  | [] => by simp [visitMembers, tidyMembers, tidyBlock, bareIdent, tidyEvent, exprEvents, stmtEvents]
  | e :: es => by simp [visitMembers, tidyMembers, tidyBlock, bareIdent, tidyEvent, exprEvents, stmtEvents, visitMember_tidy e, visitMembers_tidy es]

theorem visitBlock_tidy : ∀ x : Block, visitBlock (tidyBlock x) = (visitBlock x).map tidyEvent
  | .mk _ b => by simp [visitBlock, tidyBlock, tidyBlock, bareIdent, tidyEvent, exprEvents, stmtEvents, visitStmts_tidy b]

theorem visitStmt_tidy : ∀ x : Stmt, visitStmt (tidyStmt x) = (visitStmt x).map tidyEvent
  | .empty _ => by simp [visitStmt, tidyStmt, tidyBlock, bareIdent, tidyEvent, exprEvents, stmtEvents]
  | .debugger _ => by simp [visitStmt, tidyStmt, tidyBlock, bareIdent, tidyEvent, exprEvents, stmtEvents]
  | .expr _ e => by simp [visitStmt, tidyStmt, tidyBlock, bareIdent, tidyEvent, exprEvents, stmtEvents, visitExpr_tidy e]
  | .decl _ _ ds => by simp [visitStmt, tidyStmt, tidyBlock, bareIdent, tidyEvent, exprEvents, stmtEvents, visitDeclarators_tidy ds]
  | .ret _ none => by simp [visitStmt, tidyStmt, tidyBlock, bareIdent, tidyEvent, exprEvents, stmtEvents]
  | .ret _ (some e) => by simp [visitStmt, tidyStmt, tidyBlock, bareIdent, tidyEvent, exprEvents, stmtEvents, visitExpr_tidy e]
  | .brk _ _ => by simp [visitStmt, tidyStmt, tidyBlock, bareIdent, tidyEvent, exprEvents, stmtEvents]
  | .cont _ _ => by simp [visitStmt, tidyStmt, tidyBlock, bareIdent, tidyEvent, exprEvents, stmtEvents]
  | .throw _ e => by simp [visitStmt, tidyStmt, tidyBlock, bareIdent, tidyEvent, exprEvents, stmtEvents, visitExpr_tidy e]
  | .ifS _ e s none => by simp [visitStmt, tidyStmt, tidyBlock, bareIdent, tidyEvent, exprEvents, stmtEvents, visitExpr_tidy e, visitStmt_tidy s]
  | .ifS _ e s (some t) => by simp [visitStmt, tidyStmt, tidyBlock, bareIdent, tidyEvent, exprEvents, stmtEvents, visitExpr_tidy e, visitStmt_tidy s, visitStmt_tidy t]
  | .whileS _ e s => by simp [visitStmt, tidyStmt, tidyBlock, bareIdent, tidyEvent, exprEvents, stmtEvents, visitExpr_tidy e, visitStmt_tidy s]
  | .doS _ s e => by simp [visitStmt, tidyStmt, tidyBlock, bareIdent, tidyEvent, exprEvents, stmtEvents, visitStmt_tidy s, visitExpr_tidy e]
  | .forS _ none none none s => by simp [visitStmt, tidyStmt, tidyBlock, bareIdent, tidyEvent, exprEvents, stmtEvents, visitStmt_tidy s]
  | .forS _ none none (some u) s => by simp [visitStmt, tidyStmt, tidyBlock, bareIdent, tidyEvent, exprEvents, stmtEvents, visitExpr_tidy u, visitStmt_tidy s]
  | .forS _ none (some t) none s => by simp [visitStmt, tidyStmt, tidyBlock, bareIdent, tidyEvent, exprEvents, stmtEvents, visitExpr_tidy t, visitStmt_tidy s]
  | .forS _ none (some t) (some u) s => by simp [visitStmt, tidyStmt, tidyBlock, bareIdent, tidyEvent, exprEvents, stmtEvents, visitExpr_tidy t, visitExpr_tidy u, visitStmt_tidy s]
  | .forS _ (some i) none none s => by simp [visitStmt, tidyStmt, tidyBlock, bareIdent, tidyEvent, exprEvents, stmtEvents, visitForInit_tidy i, visitStmt_tidy s]
  | .forS _ (some i) none (some u) s => by simp [visitStmt, tidyStmt, tidyBlock, bareIdent, tidyEvent, exprEvents, stmtEvents, visitForInit_tidy i, visitExpr_tidy u, visitStmt_tidy s]
  | .forS _ (some i) (some t) none s => by simp [visitStmt, tidyStmt, tidyBlock, bareIdent, tidyEvent, exprEvents, stmtEvents, visitForInit_tidy i, visitExpr_tidy t, visitStmt_tidy s]
  | .forS _ (some i) (some t) (some u) s => by simp [visitStmt, tidyStmt, tidyBlock, bareIdent, tidyEvent, exprEvents, stmtEvents, visitForInit_tidy i, visitExpr_tidy t, visitExpr_tidy u, visitStmt_tidy s]
  | .forIn _ i e s => by simp [visitStmt, tidyStmt, tidyBlock, bareIdent, tidyEvent, exprEvents, stmtEvents, visitForInit_tidy i, visitExpr_tidy e, visitStmt_tidy s]
  | .forOf _ i e s => by simp [visitStmt, tidyStmt, tidyBlock, bareIdent, tidyEvent, exprEvents, stmtEvents, visitForInit_tidy i, visitExpr_tidy e, visitStmt_tidy s]
  | .tryS _ b none none => by simp [visitStmt, tidyStmt, tidyBlock, bareIdent, tidyEvent, exprEvents, stmtEvents, visitBlock_tidy b]
  | .tryS _ b none (some f) => by simp [visitStmt, tidyStmt, tidyBlock, bareIdent, tidyEvent, exprEvents, stmtEvents, visitBlock_tidy b, visitBlock_tidy f]
  | .tryS _ b (some h) none => by simp [visitStmt, tidyStmt, tidyBlock, bareIdent, tidyEvent, exprEvents, stmtEvents, visitBlock_tidy b, visitCatch_tidy h]
  | .tryS _ b (some h) (some f) => by simp [visitStmt, tidyStmt, tidyBlock, bareIdent, tidyEvent, exprEvents, stmtEvents, visitBlock_tidy b, visitCatch_tidy h, visitBlock_tidy f]
  | .block _ b => by simp [visitStmt, tidyStmt, tidyBlock, bareIdent, tidyEvent, exprEvents, stmtEvents, visitStmts_tidy b]
  | .labeled _ _ s => by simp [visitStmt, tidyStmt, tidyBlock, bareIdent, tidyEvent, exprEvents, stmtEvents, visitStmt_tidy s]
  | .function _ f => by simp [visitStmt, tidyStmt, tidyBlock, bareIdent, tidyEvent, exprEvents, stmtEvents, visitFunc_tidy f]
  | .class _ c => by simp [visitStmt, tidyStmt, tidyBlock, bareIdent, tidyEvent, exprEvents, stmtEvents, visitClass_tidy c]
  | .switch _ e _ cs => by simp [visitStmt, tidyStmt, tidyBlock, bareIdent, tidyEvent, exprEvents, stmtEvents, visitExpr_tidy e, visitCases_tidy cs]
  | .import _ ss _ => by simp [visitStmt, tidyStmt, tidyBlock, bareIdent, tidyEvent, exprEvents, stmtEvents, visitSpecs_tidy ss]

theorem visitStmts_tidy : ∀ x : List Stmt, visitStmts (tidyStmts x) = (visitStmts x).map tidyEvent
  | [] => by simp [visitStmts, tidyStmts, tidyBlock, bareIdent, tidyEvent, exprEvents, stmtEvents]
  | e :: es => by
    have h1 := visitStmt_tidy e
    have h2 := visitStmts_tidy es
    cases he : isEmptyStmt e with
    | true =>
      have h3 : visitStmt e = [] := by cases e <;> simp_all [isEmptyStmt, visitStmt]
      simp [visitStmts, tidyStmts, he, h2, h3]
    | false => simp [visitStmts, tidyStmts, he, h1, h2]

theorem visitDeclarator_tidy : ∀ x : Declarator, visitDeclarator (tidyDeclarator x) = (visitDeclarator x).map tidyEvent
  | .mk _ p none => by simp [visitDeclarator, tidyDeclarator, tidyBlock, bareIdent, tidyEvent, exprEvents, stmtEvents, visitPattern_tidy p]
  | .mk _ p (some e) => by simp [visitDeclarator, tidyDeclarator, tidyBlock, bareIdent, tidyEvent, exprEvents, stmtEvents, visitPattern_tidy p, visitExpr_tidy e]

theorem visitDeclarators_tidy : ∀ x : List Declarator, visitDeclarators (tidyDeclarators x) = (visitDeclarators x).map tidyEvent
  | [] => by simp [visitDeclarators, tidyDeclarators, tidyBlock, bareIdent, tidyEvent, exprEvents, stmtEvents]
  | e :: es => by simp [visitDeclarators, tidyDeclarators, tidyBlock, bareIdent, tidyEvent, exprEvents, stmtEvents, visitDeclarator_tidy e, visitDeclarators_tidy es]

theorem visitForInit_tidy : ∀ x : ForInit, visitForInit (tidyInit x) = (visitForInit x).map tidyEvent
  | .decl _ _ ds => by simp [visitForInit, tidyInit, tidyBlock, bareIdent, tidyEvent, exprEvents, stmtEvents, visitDeclarators_tidy ds]
  | .expr _ e => by simp [visitForInit, tidyInit, tidyBlock, bareIdent, tidyEvent, exprEvents, stmtEvents, visitExpr_tidy e]

theorem visitCase_tidy : ∀ x : SwitchCase, visitCase (tidyCase x) = (visitCase x).map tidyEvent
  | .mk _ none b => by simp [visitCase, tidyCase, tidyBlock, bareIdent, tidyEvent, exprEvents, stmtEvents, visitStmts_tidy b]
  | .mk _ (some e) b => by simp [visitCase, tidyCase, tidyBlock, bareIdent, tidyEvent, exprEvents, stmtEvents, visitExpr_tidy e, visitStmts_tidy b]

theorem visitCases_tidy : ∀ x : List SwitchCase, visitCases (tidyCases x) = (visitCases x).map tidyEvent
  | [] => by simp [visitCases, tidyCases, tidyBlock, bareIdent, tidyEvent, exprEvents, stmtEvents]
  | e :: es => by simp [visitCases, tidyCases, tidyBlock, bareIdent, tidyEvent, exprEvents, stmtEvents, visitCase_tidy e, visitCases_tidy es]

theorem visitCatch_tidy : ∀ x : Catch, visitCatch (tidyCatch x) = (visitCatch x).map tidyEvent
  | .mk _ p b => by simp [visitCatch, tidyCatch, tidyBlock, bareIdent, tidyEvent, exprEvents, stmtEvents, visitPattern_tidy p, visitBlock_tidy b]

end

end Ratel
