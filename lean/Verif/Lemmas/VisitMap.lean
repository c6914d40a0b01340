import Verif.Lemmas.Visit
import Verif.Spec.Scope
import Verif.Spec.Bare
import Verif.Spec.Rename
import Verif.Spec.VisitMap
/-! The events of a traversal depend on positions only by the nodes that are passed, and on names only by the names. -/
namespace Ratel
open Spec

set_option linter.unusedSimpArgs false

/-- The sources of the imports do not look like a name that gets another one. -/
def SourcesKept (ρ : Bytes → Bytes) (es : List Event) : Prop :=
  ∀ l ss src, .onStmt .importDeclaration (.import l ss src) ∈ es → ρ src = src

@[simp] theorem sourcesKept_nil {ρ : Bytes → Bytes} : SourcesKept ρ [] := by intro l ss src h; simp at h
@[simp] theorem sourcesKept_append {ρ : Bytes → Bytes} {a b : List Event} : SourcesKept ρ (a ++ b) ↔ SourcesKept ρ a ∧ SourcesKept ρ b := by
  constructor
  · intro h
    exact ⟨fun l ss src hm => h l ss src (List.mem_append_left _ hm), fun l ss src hm => h l ss src (List.mem_append_right _ hm)⟩
  · rintro ⟨h, h'⟩ l ss src hm
    rcases List.mem_append.1 hm with hm | hm
    · exact h l ss src hm
    · exact h' l ss src hm
/-- The condition for one event. -/
def sourceKept (ρ : Bytes → Bytes) : Event → Prop
  | .onStmt .importDeclaration (.import _ _ src) => ρ src = src
  | _ => True
@[simp] theorem sourcesKept_cons {ρ : Bytes → Bytes} {a : Event} {b : List Event} : SourcesKept ρ (a :: b) ↔ sourceKept ρ a ∧ SourcesKept ρ b := by
  constructor
  · intro h
    refine ⟨?_, fun l ss src hm => h l ss src (List.mem_cons_of_mem _ hm)⟩
    unfold sourceKept
    split
    · exact h _ _ _ (List.mem_cons_self ..)
    · trivial
  · rintro ⟨h, h'⟩ l ss src hm
    rcases List.mem_cons.1 hm with rfl | hm
    · exact h
    · exact h' l ss src hm

attribute [local simp] sourceKept

theorem visitName_bare (n : Name) : visitName (bareName n) = (visitName n).map bareEvent := by cases n <;> simp [visitName, bareName, bareIdent, bareEvent]
theorem visitName_rename (ρ : Bytes → Bytes) (n : Name) : visitName (renameName ρ n) = (visitName n).map (renameEvent ρ) := by
  cases n <;> simp [visitName, renameName, renameIdent, renameEvent]
theorem visitSpecs_bare (l : List ImportSpec) : (l.map bareSpec).flatMap visitImportSpec = (l.flatMap visitImportSpec).map bareEvent := by
  induction l with
  | nil => rfl
  | cons s l ih => cases s <;> simp_all [visitImportSpec, bareSpec, bareIdent, bareEvent]
theorem visitSpecs_rename (ρ : Bytes → Bytes) (l : List ImportSpec) :
    (l.map (renameSpec ρ)).flatMap visitImportSpec = (l.flatMap visitImportSpec).map (renameEvent ρ) := by
  induction l with
  | nil => rfl
  | cons s l ih => cases s <;> simp_all [visitImportSpec, renameSpec, renameIdent, renameEvent]

mutual

theorem visitExpr_bare : ∀ x : Expr, visitExpr (bareExpr x) = (visitExpr x).map bareEvent
  | .void _ => by simp [visitExpr, bareExpr, bareBlock, bareIdent, bareEvent, exprEvents, stmtEvents, visitBlockBody]
  | .this _ => by simp [visitExpr, bareExpr, bareBlock, bareIdent, bareEvent, exprEvents, stmtEvents, visitBlockBody]
  | .ident _ _ => by simp [visitExpr, bareExpr, bareBlock, bareIdent, bareEvent, exprEvents, stmtEvents, visitBlockBody]
  | .lit _ _ => by simp [visitExpr, bareExpr, bareBlock, bareIdent, bareEvent, exprEvents, stmtEvents, visitBlockBody]
  | .seq _ es => by simp [visitExpr, bareExpr, bareBlock, bareIdent, bareEvent, exprEvents, stmtEvents, visitBlockBody, visitExprs_bare es]
  | .array _ es => by simp [visitExpr, bareExpr, bareBlock, bareIdent, bareEvent, exprEvents, stmtEvents, visitBlockBody, visitExprs_bare es]
  | .member _ o _ => by simp [visitExpr, bareExpr, bareBlock, bareIdent, bareEvent, exprEvents, stmtEvents, visitBlockBody, visitExpr_bare o]
  | .cmember _ o p => by simp [visitExpr, bareExpr, bareBlock, bareIdent, bareEvent, exprEvents, stmtEvents, visitBlockBody, visitExpr_bare o, visitExpr_bare p]
  | .metaProp _ _ _ => by simp [visitExpr, bareExpr, bareBlock, bareIdent, bareEvent, exprEvents, stmtEvents, visitBlockBody]
  | .call _ c es => by simp [visitExpr, bareExpr, bareBlock, bareIdent, bareEvent, exprEvents, stmtEvents, visitBlockBody, visitExpr_bare c, visitExprs_bare es]
  | .binary _ _ a b => by simp [visitExpr, bareExpr, bareBlock, bareIdent, bareEvent, exprEvents, stmtEvents, visitBlockBody, visitExpr_bare a, visitExpr_bare b]
  | .prefix _ _ e => by simp [visitExpr, bareExpr, bareBlock, bareIdent, bareEvent, exprEvents, stmtEvents, visitBlockBody, visitExpr_bare e]
  | .postfix _ _ e => by simp [visitExpr, bareExpr, bareBlock, bareIdent, bareEvent, exprEvents, stmtEvents, visitBlockBody, visitExpr_bare e]
  | .cond _ a b c => by simp [visitExpr, bareExpr, bareBlock, bareIdent, bareEvent, exprEvents, stmtEvents, visitBlockBody, visitExpr_bare a, visitExpr_bare b, visitExpr_bare c]
  | .template _ es _ => by simp [visitExpr, bareExpr, bareBlock, bareIdent, bareEvent, exprEvents, stmtEvents, visitBlockBody, visitExprs_bare es]
  | .tagged _ t _ es _ => by simp [visitExpr, bareExpr, bareBlock, bareIdent, bareEvent, exprEvents, stmtEvents, visitBlockBody, visitExpr_bare t, visitExprs_bare es]
  | .spread _ e => by simp [visitExpr, bareExpr, bareBlock, bareIdent, bareEvent, exprEvents, stmtEvents, visitBlockBody, visitExpr_bare e]
  | .arrowE _ ps b => by simp [visitExpr, bareExpr, bareBlock, bareIdent, bareEvent, exprEvents, stmtEvents, visitBlockBody, visitPatterns_bare ps, visitExpr_bare b]
  | .arrowB _ ps (.mk _ b) => by simp [visitExpr, bareExpr, bareBlock, bareIdent, bareEvent, exprEvents, stmtEvents, visitBlockBody, visitPatterns_bare ps, visitStmts_bare b]
  | .object _ ps => by simp [visitExpr, bareExpr, bareBlock, bareIdent, bareEvent, exprEvents, stmtEvents, visitBlockBody, visitProperties_bare ps]
  | .function _ f => by simp [visitExpr, bareExpr, bareBlock, bareIdent, bareEvent, exprEvents, stmtEvents, visitBlockBody, visitFunc_bare f]
  | .class _ c => by simp [visitExpr, bareExpr, bareBlock, bareIdent, bareEvent, exprEvents, stmtEvents, visitBlockBody, visitClass_bare c]

theorem visitExprs_bare : ∀ x : List Expr, visitExprs (bareExprs x) = (visitExprs x).map bareEvent
  | [] => by simp [visitExprs, bareExprs, bareBlock, bareIdent, bareEvent, exprEvents, stmtEvents]
  | e :: es => by simp [visitExprs, bareExprs, bareBlock, bareIdent, bareEvent, exprEvents, stmtEvents, visitExpr_bare e, visitExprs_bare es]

theorem visitKey_bare : ∀ x : PropKey, visitKey (bareKey x) = (visitKey x).map bareEvent
  | .computed _ e => by simp [visitKey, bareKey, bareBlock, bareIdent, bareEvent, exprEvents, stmtEvents, visitExpr_bare e]
  | .literal _ _ => by simp [visitKey, bareKey, bareBlock, bareIdent, bareEvent, exprEvents, stmtEvents]
  | .binary _ _ => by simp [visitKey, bareKey, bareBlock, bareIdent, bareEvent, exprEvents, stmtEvents]

theorem visitProperty_bare : ∀ x : Property, visitProperty (bareProp x) = (visitProperty x).map bareEvent
  | .shorthand _ _ => by simp [visitProperty, bareProp, bareBlock, bareIdent, bareEvent, exprEvents, stmtEvents]
  | .literal _ k v => by simp [visitProperty, bareProp, bareBlock, bareIdent, bareEvent, exprEvents, stmtEvents, visitKey_bare k, visitExpr_bare v]
  | .method _ k _ f => by simp [visitProperty, bareProp, bareBlock, bareIdent, bareEvent, exprEvents, stmtEvents, visitKey_bare k, visitFunc_bare f]
  | .spread _ e => by simp [visitProperty, bareProp, bareBlock, bareIdent, bareEvent, exprEvents, stmtEvents, visitExpr_bare e]

theorem visitProperties_bare : ∀ x : List Property, visitProperties (bareProps x) = (visitProperties x).map bareEvent
  | [] => by simp [visitProperties, bareProps, bareBlock, bareIdent, bareEvent, exprEvents, stmtEvents]
  | e :: es => by simp [visitProperties, bareProps, bareBlock, bareIdent, bareEvent, exprEvents, stmtEvents, visitProperty_bare e, visitProperties_bare es]

theorem visitPattern_bare : ∀ x : Pattern, visitPattern (barePat x) = (visitPattern x).map bareEvent
  | .void _ => by simp [visitPattern, barePat, bareBlock, bareIdent, bareEvent, exprEvents, stmtEvents]
  | .ident _ _ => by simp [visitPattern, barePat, bareBlock, bareIdent, bareEvent, exprEvents, stmtEvents]
  | .object _ ps => by simp [visitPattern, barePat, bareBlock, bareIdent, bareEvent, exprEvents, stmtEvents, visitProperties_bare ps]
  | .array _ ps => by simp [visitPattern, barePat, bareBlock, bareIdent, bareEvent, exprEvents, stmtEvents, visitPatterns_bare ps]
  | .rest _ _ => by simp [visitPattern, barePat, bareBlock, bareIdent, bareEvent, exprEvents, stmtEvents]
  | .assign _ p e => by simp [visitPattern, barePat, bareBlock, bareIdent, bareEvent, exprEvents, stmtEvents, visitPattern_bare p, visitExpr_bare e]

theorem visitPatterns_bare : ∀ x : List Pattern, visitPatterns (barePats x) = (visitPatterns x).map bareEvent
  | [] => by simp [visitPatterns, barePats, bareBlock, bareIdent, bareEvent, exprEvents, stmtEvents]
  | e :: es => by simp [visitPatterns, barePats, bareBlock, bareIdent, bareEvent, exprEvents, stmtEvents, visitPattern_bare e, visitPatterns_bare es]

theorem visitFunc_bare : ∀ x : Func, visitFunc (bareFunc x) = (visitFunc x).map bareEvent
  | .mk nm _ ps (.mk _ b) => by simp [visitFunc, bareFunc, bareBlock, bareIdent, bareEvent, exprEvents, stmtEvents, visitBlockBody, visitName_bare nm, visitPatterns_bare ps, visitStmts_bare b]

theorem visitClass_bare : ∀ x : Class, visitClass (bareClass x) = (visitClass x).map bareEvent
  | .mk nm none _ ms => by simp [visitClass, bareClass, bareBlock, bareIdent, bareEvent, exprEvents, stmtEvents, visitName_bare nm, visitMembers_bare ms]
  | .mk nm (some e) _ ms => by simp [visitClass, bareClass, bareBlock, bareIdent, bareEvent, exprEvents, stmtEvents, visitName_bare nm, visitExpr_bare e, visitMembers_bare ms]

theorem visitMember_bare : ∀ x : ClassMember, visitMember (bareMember x) = (visitMember x).map bareEvent
  | .error _ => by simp [visitMember, bareMember, bareBlock, bareIdent, bareEvent, exprEvents, stmtEvents]
  | .method _ _ k _ _ f => by simp [visitMember, bareMember, bareBlock, bareIdent, bareEvent, exprEvents, stmtEvents, visitKey_bare k, visitFunc_bare f]
  | .literal _ _ k v => by simp [visitMember, bareMember, bareBlock, bareIdent, bareEvent, exprEvents, stmtEvents, visitKey_bare k, visitExpr_bare v]

theorem visitMembers_bare : ∀ x : List ClassMember, visitMembers (bareMembers x) = (visitMembers x).map bareEvent
  | [] => by simp [visitMembers, bareMembers, bareBlock, bareIdent, bareEvent, exprEvents, stmtEvents]
  | e :: es => by simp [visitMembers, bareMembers, bareBlock, bareIdent, bareEvent, exprEvents, stmtEvents, visitMember_bare e, visitMembers_bare es]

theorem visitBlock_bare : ∀ x : Block, visitBlock (bareBlock x) = (visitBlock x).map bareEvent
  | .mk _ b => by simp [visitBlock, bareBlock, bareBlock, bareIdent, bareEvent, exprEvents, stmtEvents, visitStmts_bare b]

theorem visitStmt_bare : ∀ x : Stmt, visitStmt (bareStmt x) = (visitStmt x).map bareEvent
  | .empty _ => by simp [visitStmt, bareStmt, bareBlock, bareIdent, bareEvent, exprEvents, stmtEvents]
  | .debugger _ => by simp [visitStmt, bareStmt, bareBlock, bareIdent, bareEvent, exprEvents, stmtEvents]
  | .expr _ e => by simp [visitStmt, bareStmt, bareBlock, bareIdent, bareEvent, exprEvents, stmtEvents, visitExpr_bare e]
  | .decl _ _ ds => by simp [visitStmt, bareStmt, bareBlock, bareIdent, bareEvent, exprEvents, stmtEvents, visitDeclarators_bare ds]
  | .ret _ none => by simp [visitStmt, bareStmt, bareBlock, bareIdent, bareEvent, exprEvents, stmtEvents]
  | .ret _ (some e) => by simp [visitStmt, bareStmt, bareBlock, bareIdent, bareEvent, exprEvents, stmtEvents, visitExpr_bare e]
  | .brk _ _ => by simp [visitStmt, bareStmt, bareBlock, bareIdent, bareEvent, exprEvents, stmtEvents]
  | .cont _ _ => by simp [visitStmt, bareStmt, bareBlock, bareIdent, bareEvent, exprEvents, stmtEvents]
  | .throw _ e => by simp [visitStmt, bareStmt, bareBlock, bareIdent, bareEvent, exprEvents, stmtEvents, visitExpr_bare e]
  | .ifS _ e s none => by simp [visitStmt, bareStmt, bareBlock, bareIdent, bareEvent, exprEvents, stmtEvents, visitExpr_bare e, visitStmt_bare s]
  | .ifS _ e s (some t) => by simp [visitStmt, bareStmt, bareBlock, bareIdent, bareEvent, exprEvents, stmtEvents, visitExpr_bare e, visitStmt_bare s, visitStmt_bare t]
  | .whileS _ e s => by simp [visitStmt, bareStmt, bareBlock, bareIdent, bareEvent, exprEvents, stmtEvents, visitExpr_bare e, visitStmt_bare s]
  | .doS _ s e => by simp [visitStmt, bareStmt, bareBlock, bareIdent, bareEvent, exprEvents, stmtEvents, visitStmt_bare s, visitExpr_bare e]
  | .forS _ none none none s => by simp [visitStmt, bareStmt, bareBlock, bareIdent, bareEvent, exprEvents, stmtEvents, visitStmt_bare s]
  | .forS _ none none (some u) s => by simp [visitStmt, bareStmt, bareBlock, bareIdent, bareEvent, exprEvents, stmtEvents, visitExpr_bare u, visitStmt_bare s]
  | .forS _ none (some t) none s => by simp [visitStmt, bareStmt, bareBlock, bareIdent, bareEvent, exprEvents, stmtEvents, visitExpr_bare t, visitStmt_bare s]
  | .forS _ none (some t) (some u) s => by simp [visitStmt, bareStmt, bareBlock, bareIdent, bareEvent, exprEvents, stmtEvents, visitExpr_bare t, visitExpr_bare u, visitStmt_bare s]
  | .forS _ (some i) none none s => by simp [visitStmt, bareStmt, bareBlock, bareIdent, bareEvent, exprEvents, stmtEvents, visitForInit_bare i, visitStmt_bare s]
  | .forS _ (some i) none (some u) s => by simp [visitStmt, bareStmt, bareBlock, bareIdent, bareEvent, exprEvents, stmtEvents, visitForInit_bare i, visitExpr_bare u, visitStmt_bare s]
  | .forS _ (some i) (some t) none s => by simp [visitStmt, bareStmt, bareBlock, bareIdent, bareEvent, exprEvents, stmtEvents, visitForInit_bare i, visitExpr_bare t, visitStmt_bare s]
  | .forS _ (some i) (some t) (some u) s => by simp [visitStmt, bareStmt, bareBlock, bareIdent, bareEvent, exprEvents, stmtEvents, visitForInit_bare i, visitExpr_bare t, visitExpr_bare u, visitStmt_bare s]
  | .forIn _ i e s => by simp [visitStmt, bareStmt, bareBlock, bareIdent, bareEvent, exprEvents, stmtEvents, visitForInit_bare i, visitExpr_bare e, visitStmt_bare s]
  | .forOf _ i e s => by simp [visitStmt, bareStmt, bareBlock, bareIdent, bareEvent, exprEvents, stmtEvents, visitForInit_bare i, visitExpr_bare e, visitStmt_bare s]
  | .tryS _ b none none => by simp [visitStmt, bareStmt, bareBlock, bareIdent, bareEvent, exprEvents, stmtEvents, visitBlock_bare b]
  | .tryS _ b none (some f) => by simp [visitStmt, bareStmt, bareBlock, bareIdent, bareEvent, exprEvents, stmtEvents, visitBlock_bare b, visitBlock_bare f]
  | .tryS _ b (some h) none => by simp [visitStmt, bareStmt, bareBlock, bareIdent, bareEvent, exprEvents, stmtEvents, visitBlock_bare b, visitCatch_bare h]
  | .tryS _ b (some h) (some f) => by simp [visitStmt, bareStmt, bareBlock, bareIdent, bareEvent, exprEvents, stmtEvents, visitBlock_bare b, visitCatch_bare h, visitBlock_bare f]
  | .block _ b => by simp [visitStmt, bareStmt, bareBlock, bareIdent, bareEvent, exprEvents, stmtEvents, visitStmts_bare b]
  | .labeled _ _ s => by simp [visitStmt, bareStmt, bareBlock, bareIdent, bareEvent, exprEvents, stmtEvents, visitStmt_bare s]
  | .function _ f => by simp [visitStmt, bareStmt, bareBlock, bareIdent, bareEvent, exprEvents, stmtEvents, visitFunc_bare f]
  | .class _ c => by simp [visitStmt, bareStmt, bareBlock, bareIdent, bareEvent, exprEvents, stmtEvents, visitClass_bare c]
  | .switch _ e _ cs => by simp [visitStmt, bareStmt, bareBlock, bareIdent, bareEvent, exprEvents, stmtEvents, visitExpr_bare e, visitCases_bare cs]
  | .import _ ss _ => by simp [visitStmt, bareStmt, bareBlock, bareIdent, bareEvent, exprEvents, stmtEvents, visitSpecs_bare ss]

theorem visitStmts_bare : ∀ x : List Stmt, visitStmts (bareStmts x) = (visitStmts x).map bareEvent
  | [] => by simp [visitStmts, bareStmts, bareBlock, bareIdent, bareEvent, exprEvents, stmtEvents]
  | e :: es => by simp [visitStmts, bareStmts, bareBlock, bareIdent, bareEvent, exprEvents, stmtEvents, visitStmt_bare e, visitStmts_bare es]

theorem visitDeclarator_bare : ∀ x : Declarator, visitDeclarator (bareDeclarator x) = (visitDeclarator x).map bareEvent
  | .mk _ p none => by simp [visitDeclarator, bareDeclarator, bareBlock, bareIdent, bareEvent, exprEvents, stmtEvents, visitPattern_bare p]
  | .mk _ p (some e) => by simp [visitDeclarator, bareDeclarator, bareBlock, bareIdent, bareEvent, exprEvents, stmtEvents, visitPattern_bare p, visitExpr_bare e]

theorem visitDeclarators_bare : ∀ x : List Declarator, visitDeclarators (bareDeclarators x) = (visitDeclarators x).map bareEvent
  | [] => by simp [visitDeclarators, bareDeclarators, bareBlock, bareIdent, bareEvent, exprEvents, stmtEvents]
  | e :: es => by simp [visitDeclarators, bareDeclarators, bareBlock, bareIdent, bareEvent, exprEvents, stmtEvents, visitDeclarator_bare e, visitDeclarators_bare es]

theorem visitForInit_bare : ∀ x : ForInit, visitForInit (bareInit x) = (visitForInit x).map bareEvent
  | .decl _ _ ds => by simp [visitForInit, bareInit, bareBlock, bareIdent, bareEvent, exprEvents, stmtEvents, visitDeclarators_bare ds]
  | .expr _ e => by simp [visitForInit, bareInit, bareBlock, bareIdent, bareEvent, exprEvents, stmtEvents, visitExpr_bare e]

theorem visitCase_bare : ∀ x : SwitchCase, visitCase (bareCase x) = (visitCase x).map bareEvent
  | .mk _ none b => by simp [visitCase, bareCase, bareBlock, bareIdent, bareEvent, exprEvents, stmtEvents, visitStmts_bare b]
  | .mk _ (some e) b => by simp [visitCase, bareCase, bareBlock, bareIdent, bareEvent, exprEvents, stmtEvents, visitExpr_bare e, visitStmts_bare b]

theorem visitCases_bare : ∀ x : List SwitchCase, visitCases (bareCases x) = (visitCases x).map bareEvent
  | [] => by simp [visitCases, bareCases, bareBlock, bareIdent, bareEvent, exprEvents, stmtEvents]
  | e :: es => by simp [visitCases, bareCases, bareBlock, bareIdent, bareEvent, exprEvents, stmtEvents, visitCase_bare e, visitCases_bare es]

theorem visitCatch_bare : ∀ x : Catch, visitCatch (bareCatch x) = (visitCatch x).map bareEvent
  | .mk _ p b => by simp [visitCatch, bareCatch, bareBlock, bareIdent, bareEvent, exprEvents, stmtEvents, visitPattern_bare p, visitBlock_bare b]

end

variable {ρ : Bytes → Bytes}

mutual

theorem visitExpr_rename : ∀ x : Expr, SourcesKept ρ (visitExpr x) → visitExpr (renameExpr ρ x) = (visitExpr x).map (renameEvent ρ)
  | .void _, hs => by
    simp [visitExpr, exprEvents, stmtEvents, visitBlockBody] at hs
    simp [visitExpr, renameExpr, renameBlock, renameIdent, renameEvent, exprEvents, stmtEvents, hs, visitBlockBody]
  | .this _, hs => by
    simp [visitExpr, exprEvents, stmtEvents, visitBlockBody] at hs
    simp [visitExpr, renameExpr, renameBlock, renameIdent, renameEvent, exprEvents, stmtEvents, hs, visitBlockBody]
  | .ident _ _, hs => by
    simp [visitExpr, exprEvents, stmtEvents, visitBlockBody] at hs
    simp [visitExpr, renameExpr, renameBlock, renameIdent, renameEvent, exprEvents, stmtEvents, hs, visitBlockBody]
  | .lit _ _, hs => by
    simp [visitExpr, exprEvents, stmtEvents, visitBlockBody] at hs
    simp [visitExpr, renameExpr, renameBlock, renameIdent, renameEvent, exprEvents, stmtEvents, hs, visitBlockBody]
  | .seq _ es, hs => by
    simp [visitExpr, exprEvents, stmtEvents, visitBlockBody] at hs
    simp [visitExpr, renameExpr, renameBlock, renameIdent, renameEvent, exprEvents, stmtEvents, hs, visitBlockBody, visitExprs_rename es (by simp_all)]
  | .array _ es, hs => by
    simp [visitExpr, exprEvents, stmtEvents, visitBlockBody] at hs
    simp [visitExpr, renameExpr, renameBlock, renameIdent, renameEvent, exprEvents, stmtEvents, hs, visitBlockBody, visitExprs_rename es (by simp_all)]
  | .member _ o _, hs => by
    simp [visitExpr, exprEvents, stmtEvents, visitBlockBody] at hs
    simp [visitExpr, renameExpr, renameBlock, renameIdent, renameEvent, exprEvents, stmtEvents, hs, visitBlockBody, visitExpr_rename o (by simp_all)]
  | .cmember _ o p, hs => by
    simp [visitExpr, exprEvents, stmtEvents, visitBlockBody] at hs
    simp [visitExpr, renameExpr, renameBlock, renameIdent, renameEvent, exprEvents, stmtEvents, hs, visitBlockBody, visitExpr_rename o (by simp_all), visitExpr_rename p (by simp_all)]
  | .metaProp _ _ _, hs => by
    simp [visitExpr, exprEvents, stmtEvents, visitBlockBody] at hs
    simp [visitExpr, renameExpr, renameBlock, renameIdent, renameEvent, exprEvents, stmtEvents, hs, visitBlockBody]
  | .call _ c es, hs => by
    simp [visitExpr, exprEvents, stmtEvents, visitBlockBody] at hs
    simp [visitExpr, renameExpr, renameBlock, renameIdent, renameEvent, exprEvents, stmtEvents, hs, visitBlockBody, visitExpr_rename c (by simp_all), visitExprs_rename es (by simp_all)]
  | .binary _ _ a b, hs => by
    simp [visitExpr, exprEvents, stmtEvents, visitBlockBody] at hs
    simp [visitExpr, renameExpr, renameBlock, renameIdent, renameEvent, exprEvents, stmtEvents, hs, visitBlockBody, visitExpr_rename a (by simp_all), visitExpr_rename b (by simp_all)]
  | .prefix _ _ e, hs => by
    simp [visitExpr, exprEvents, stmtEvents, visitBlockBody] at hs
    simp [visitExpr, renameExpr, renameBlock, renameIdent, renameEvent, exprEvents, stmtEvents, hs, visitBlockBody, visitExpr_rename e (by simp_all)]
  | .postfix _ _ e, hs => by
    simp [visitExpr, exprEvents, stmtEvents, visitBlockBody] at hs
    simp [visitExpr, renameExpr, renameBlock, renameIdent, renameEvent, exprEvents, stmtEvents, hs, visitBlockBody, visitExpr_rename e (by simp_all)]
  | .cond _ a b c, hs => by
    simp [visitExpr, exprEvents, stmtEvents, visitBlockBody] at hs
    simp [visitExpr, renameExpr, renameBlock, renameIdent, renameEvent, exprEvents, stmtEvents, hs, visitBlockBody, visitExpr_rename a (by simp_all), visitExpr_rename b (by simp_all), visitExpr_rename c (by simp_all)]
  | .template _ es _, hs => by
    simp [visitExpr, exprEvents, stmtEvents, visitBlockBody] at hs
    simp [visitExpr, renameExpr, renameBlock, renameIdent, renameEvent, exprEvents, stmtEvents, hs, visitBlockBody, visitExprs_rename es (by simp_all)]
  | .tagged _ t _ es _, hs => by
    simp [visitExpr, exprEvents, stmtEvents, visitBlockBody] at hs
    simp [visitExpr, renameExpr, renameBlock, renameIdent, renameEvent, exprEvents, stmtEvents, hs, visitBlockBody, visitExpr_rename t (by simp_all), visitExprs_rename es (by simp_all)]
  | .spread _ e, hs => by
    simp [visitExpr, exprEvents, stmtEvents, visitBlockBody] at hs
    simp [visitExpr, renameExpr, renameBlock, renameIdent, renameEvent, exprEvents, stmtEvents, hs, visitBlockBody, visitExpr_rename e (by simp_all)]
  | .arrowE _ ps b, hs => by
    simp [visitExpr, exprEvents, stmtEvents, visitBlockBody] at hs
    simp [visitExpr, renameExpr, renameBlock, renameIdent, renameEvent, exprEvents, stmtEvents, hs, visitBlockBody, visitPatterns_rename ps (by simp_all), visitExpr_rename b (by simp_all)]
  | .arrowB _ ps (.mk _ b), hs => by
    simp [visitExpr, exprEvents, stmtEvents, visitBlockBody] at hs
    simp [visitExpr, renameExpr, renameBlock, renameIdent, renameEvent, exprEvents, stmtEvents, hs, visitBlockBody, visitPatterns_rename ps (by simp_all), visitStmts_rename b (by simp_all)]
  | .object _ ps, hs => by
    simp [visitExpr, exprEvents, stmtEvents, visitBlockBody] at hs
    simp [visitExpr, renameExpr, renameBlock, renameIdent, renameEvent, exprEvents, stmtEvents, hs, visitBlockBody, visitProperties_rename ps (by simp_all)]
  | .function _ f, hs => by
    simp [visitExpr, exprEvents, stmtEvents, visitBlockBody] at hs
    simp [visitExpr, renameExpr, renameBlock, renameIdent, renameEvent, exprEvents, stmtEvents, hs, visitBlockBody, visitFunc_rename f (by simp_all)]
  | .class _ c, hs => by
    simp [visitExpr, exprEvents, stmtEvents, visitBlockBody] at hs
    simp [visitExpr, renameExpr, renameBlock, renameIdent, renameEvent, exprEvents, stmtEvents, hs, visitBlockBody, visitClass_rename c (by simp_all)]

theorem visitExprs_rename : ∀ x : List Expr, SourcesKept ρ (visitExprs x) → visitExprs (renameExprs ρ x) = (visitExprs x).map (renameEvent ρ)
  | [], hs => by
    simp [visitExprs, exprEvents, stmtEvents] at hs
    simp [visitExprs, renameExprs, renameBlock, renameIdent, renameEvent, exprEvents, stmtEvents, hs]
  | e :: es, hs => by
    simp [visitExprs, exprEvents, stmtEvents] at hs
    simp [visitExprs, renameExprs, renameBlock, renameIdent, renameEvent, exprEvents, stmtEvents, hs, visitExpr_rename e (by simp_all), visitExprs_rename es (by simp_all)]

theorem visitKey_rename : ∀ x : PropKey, SourcesKept ρ (visitKey x) → visitKey (renameKey ρ x) = (visitKey x).map (renameEvent ρ)
  | .computed _ e, hs => by
    simp [visitKey, exprEvents, stmtEvents] at hs
    simp [visitKey, renameKey, renameBlock, renameIdent, renameEvent, exprEvents, stmtEvents, hs, visitExpr_rename e (by simp_all)]
  | .literal _ _, hs => by
    simp [visitKey, exprEvents, stmtEvents] at hs
    simp [visitKey, renameKey, renameBlock, renameIdent, renameEvent, exprEvents, stmtEvents, hs]
  | .binary _ _, hs => by
    simp [visitKey, exprEvents, stmtEvents] at hs
    simp [visitKey, renameKey, renameBlock, renameIdent, renameEvent, exprEvents, stmtEvents, hs]

theorem visitProperty_rename : ∀ x : Property, SourcesKept ρ (visitProperty x) → visitProperty (renameProp ρ x) = (visitProperty x).map (renameEvent ρ)
  | .shorthand _ _, hs => by
    simp [visitProperty, exprEvents, stmtEvents] at hs
    simp [visitProperty, renameProp, renameBlock, renameIdent, renameEvent, exprEvents, stmtEvents, hs]
  | .literal _ k v, hs => by
    simp [visitProperty, exprEvents, stmtEvents] at hs
    simp [visitProperty, renameProp, renameBlock, renameIdent, renameEvent, exprEvents, stmtEvents, hs, visitKey_rename k (by simp_all), visitExpr_rename v (by simp_all)]
  | .method _ k _ f, hs => by
    simp [visitProperty, exprEvents, stmtEvents] at hs
    simp [visitProperty, renameProp, renameBlock, renameIdent, renameEvent, exprEvents, stmtEvents, hs, visitKey_rename k (by simp_all), visitFunc_rename f (by simp_all)]
  | .spread _ e, hs => by
    simp [visitProperty, exprEvents, stmtEvents] at hs
    simp [visitProperty, renameProp, renameBlock, renameIdent, renameEvent, exprEvents, stmtEvents, hs, visitExpr_rename e (by simp_all)]

theorem visitProperties_rename : ∀ x : List Property, SourcesKept ρ (visitProperties x) → visitProperties (renameProps ρ x) = (visitProperties x).map (renameEvent ρ)
  | [], hs => by
    simp [visitProperties, exprEvents, stmtEvents] at hs
    simp [visitProperties, renameProps, renameBlock, renameIdent, renameEvent, exprEvents, stmtEvents, hs]
  | e :: es, hs => by
    simp [visitProperties, exprEvents, stmtEvents] at hs
    simp [visitProperties, renameProps, renameBlock, renameIdent, renameEvent, exprEvents, stmtEvents, hs, visitProperty_rename e (by simp_all), visitProperties_rename es (by simp_all)]

theorem visitPattern_rename : ∀ x : Pattern, SourcesKept ρ (visitPattern x) → visitPattern (renamePat ρ x) = (visitPattern x).map (renameEvent ρ)
  | .void _, hs => by
    simp [visitPattern, exprEvents, stmtEvents] at hs
    simp [visitPattern, renamePat, renameBlock, renameIdent, renameEvent, exprEvents, stmtEvents, hs]
  | .ident _ _, hs => by
    simp [visitPattern, exprEvents, stmtEvents] at hs
    simp [visitPattern, renamePat, renameBlock, renameIdent, renameEvent, exprEvents, stmtEvents, hs]
  | .object _ ps, hs => by
    simp [visitPattern, exprEvents, stmtEvents] at hs
    simp [visitPattern, renamePat, renameBlock, renameIdent, renameEvent, exprEvents, stmtEvents, hs, visitProperties_rename ps (by simp_all)]
  | .array _ ps, hs => by
    simp [visitPattern, exprEvents, stmtEvents] at hs
    simp [visitPattern, renamePat, renameBlock, renameIdent, renameEvent, exprEvents, stmtEvents, hs, visitPatterns_rename ps (by simp_all)]
  | .rest _ _, hs => by
    simp [visitPattern, exprEvents, stmtEvents] at hs
    simp [visitPattern, renamePat, renameBlock, renameIdent, renameEvent, exprEvents, stmtEvents, hs]
  | .assign _ p e, hs => by
    simp [visitPattern, exprEvents, stmtEvents] at hs
    simp [visitPattern, renamePat, renameBlock, renameIdent, renameEvent, exprEvents, stmtEvents, hs, visitPattern_rename p (by simp_all), visitExpr_rename e (by simp_all)]

theorem visitPatterns_rename : ∀ x : List Pattern, SourcesKept ρ (visitPatterns x) → visitPatterns (renamePats ρ x) = (visitPatterns x).map (renameEvent ρ)
  | [], hs => by
    simp [visitPatterns, exprEvents, stmtEvents] at hs
    simp [visitPatterns, renamePats, renameBlock, renameIdent, renameEvent, exprEvents, stmtEvents, hs]
  | e :: es, hs => by
    simp [visitPatterns, exprEvents, stmtEvents] at hs
    simp [visitPatterns, renamePats, renameBlock, renameIdent, renameEvent, exprEvents, stmtEvents, hs, visitPattern_rename e (by simp_all), visitPatterns_rename es (by simp_all)]

theorem visitFunc_rename : ∀ x : Func, SourcesKept ρ (visitFunc x) → visitFunc (renameFunc ρ x) = (visitFunc x).map (renameEvent ρ)
  | .mk nm _ ps (.mk _ b), hs => by
    simp [visitFunc, exprEvents, stmtEvents, visitBlockBody] at hs
    simp [visitFunc, renameFunc, renameBlock, renameIdent, renameEvent, exprEvents, stmtEvents, hs, visitBlockBody, visitName_rename ρ nm, visitPatterns_rename ps (by simp_all), visitStmts_rename b (by simp_all)]

theorem visitClass_rename : ∀ x : Class, SourcesKept ρ (visitClass x) → visitClass (renameClass ρ x) = (visitClass x).map (renameEvent ρ)
  | .mk nm none _ ms, hs => by
    simp [visitClass, exprEvents, stmtEvents] at hs
    simp [visitClass, renameClass, renameBlock, renameIdent, renameEvent, exprEvents, stmtEvents, hs, visitName_rename ρ nm, visitMembers_rename ms (by simp_all)]
  | .mk nm (some e) _ ms, hs => by
    simp [visitClass, exprEvents, stmtEvents] at hs
    simp [visitClass, renameClass, renameBlock, renameIdent, renameEvent, exprEvents, stmtEvents, hs, visitName_rename ρ nm, visitExpr_rename e (by simp_all), visitMembers_rename ms (by simp_all)]

theorem visitMember_rename : ∀ x : ClassMember, SourcesKept ρ (visitMember x) → visitMember (renameMember ρ x) = (visitMember x).map (renameEvent ρ)
  | .error _, hs => by
    simp [visitMember, exprEvents, stmtEvents] at hs
    simp [visitMember, renameMember, renameBlock, renameIdent, renameEvent, exprEvents, stmtEvents, hs]
  | .method _ _ k _ _ f, hs => by
    simp [visitMember, exprEvents, stmtEvents] at hs
    simp [visitMember, renameMember, renameBlock, renameIdent, renameEvent, exprEvents, stmtEvents, hs, visitKey_rename k (by simp_all), visitFunc_rename f (by simp_all)]
  | .literal _ _ k v, hs => by
    simp [visitMember, exprEvents, stmtEvents] at hs
    simp [visitMember, renameMember, renameBlock, renameIdent, renameEvent, exprEvents, stmtEvents, hs, visitKey_rename k (by simp_all), visitExpr_rename v (by simp_all)]

theorem visitMembers_rename : ∀ x : List ClassMember, SourcesKept ρ (visitMembers x) → visitMembers (renameMembers ρ x) = (visitMembers x).map (renameEvent ρ)
  | [], hs => by
    simp [visitMembers, exprEvents, stmtEvents] at hs
    simp [visitMembers, renameMembers, renameBlock, renameIdent, renameEvent, exprEvents, stmtEvents, hs]
  | e :: es, hs => by
    simp [visitMembers, exprEvents, stmtEvents] at hs
    simp [visitMembers, renameMembers, renameBlock, renameIdent, renameEvent, exprEvents, stmtEvents, hs, visitMember_rename e (by simp_all), visitMembers_rename es (by simp_all)]

theorem visitBlock_rename : ∀ x : Block, SourcesKept ρ (visitBlock x) → visitBlock (renameBlock ρ x) = (visitBlock x).map (renameEvent ρ)
  | .mk _ b, hs => by
    simp [visitBlock, exprEvents, stmtEvents] at hs
    simp [visitBlock, renameBlock, renameBlock, renameIdent, renameEvent, exprEvents, stmtEvents, hs, visitStmts_rename b (by simp_all)]

theorem visitStmt_rename : ∀ x : Stmt, SourcesKept ρ (visitStmt x) → visitStmt (renameStmt ρ x) = (visitStmt x).map (renameEvent ρ)
  | .empty _, hs => by
    simp [visitStmt, exprEvents, stmtEvents] at hs
    simp [visitStmt, renameStmt, renameBlock, renameIdent, renameEvent, exprEvents, stmtEvents, hs]
  | .debugger _, hs => by
    simp [visitStmt, exprEvents, stmtEvents] at hs
    simp [visitStmt, renameStmt, renameBlock, renameIdent, renameEvent, exprEvents, stmtEvents, hs]
  | .expr _ e, hs => by
    simp [visitStmt, exprEvents, stmtEvents] at hs
    simp [visitStmt, renameStmt, renameBlock, renameIdent, renameEvent, exprEvents, stmtEvents, hs, visitExpr_rename e (by simp_all)]
  | .decl _ _ ds, hs => by
    simp [visitStmt, exprEvents, stmtEvents] at hs
    simp [visitStmt, renameStmt, renameBlock, renameIdent, renameEvent, exprEvents, stmtEvents, hs, visitDeclarators_rename ds (by simp_all)]
  | .ret _ none, hs => by
    simp [visitStmt, exprEvents, stmtEvents] at hs
    simp [visitStmt, renameStmt, renameBlock, renameIdent, renameEvent, exprEvents, stmtEvents, hs]
  | .ret _ (some e), hs => by
    simp [visitStmt, exprEvents, stmtEvents] at hs
    simp [visitStmt, renameStmt, renameBlock, renameIdent, renameEvent, exprEvents, stmtEvents, hs, visitExpr_rename e (by simp_all)]
  | .brk _ _, hs => by
    simp [visitStmt, exprEvents, stmtEvents] at hs
    simp [visitStmt, renameStmt, renameBlock, renameIdent, renameEvent, exprEvents, stmtEvents, hs]
  | .cont _ _, hs => by
    simp [visitStmt, exprEvents, stmtEvents] at hs
    simp [visitStmt, renameStmt, renameBlock, renameIdent, renameEvent, exprEvents, stmtEvents, hs]
  | .throw _ e, hs => by
    simp [visitStmt, exprEvents, stmtEvents] at hs
    simp [visitStmt, renameStmt, renameBlock, renameIdent, renameEvent, exprEvents, stmtEvents, hs, visitExpr_rename e (by simp_all)]
  | .ifS _ e s none, hs => by
    simp [visitStmt, exprEvents, stmtEvents] at hs
    simp [visitStmt, renameStmt, renameBlock, renameIdent, renameEvent, exprEvents, stmtEvents, hs, visitExpr_rename e (by simp_all), visitStmt_rename s (by simp_all)]
  | .ifS _ e s (some t), hs => by
    simp [visitStmt, exprEvents, stmtEvents] at hs
    simp [visitStmt, renameStmt, renameBlock, renameIdent, renameEvent, exprEvents, stmtEvents, hs, visitExpr_rename e (by simp_all), visitStmt_rename s (by simp_all), visitStmt_rename t (by simp_all)]
  | .whileS _ e s, hs => by
    simp [visitStmt, exprEvents, stmtEvents] at hs
    simp [visitStmt, renameStmt, renameBlock, renameIdent, renameEvent, exprEvents, stmtEvents, hs, visitExpr_rename e (by simp_all), visitStmt_rename s (by simp_all)]
  | .doS _ s e, hs => by
    simp [visitStmt, exprEvents, stmtEvents] at hs
    simp [visitStmt, renameStmt, renameBlock, renameIdent, renameEvent, exprEvents, stmtEvents, hs, visitStmt_rename s (by simp_all), visitExpr_rename e (by simp_all)]
  | .forS _ none none none s, hs => by
    simp [visitStmt, exprEvents, stmtEvents] at hs
    simp [visitStmt, renameStmt, renameBlock, renameIdent, renameEvent, exprEvents, stmtEvents, hs, visitStmt_rename s (by simp_all)]
  | .forS _ none none (some u) s, hs => by
    simp [visitStmt, exprEvents, stmtEvents] at hs
    simp [visitStmt, renameStmt, renameBlock, renameIdent, renameEvent, exprEvents, stmtEvents, hs, visitExpr_rename u (by simp_all), visitStmt_rename s (by simp_all)]
  | .forS _ none (some t) none s, hs => by
    simp [visitStmt, exprEvents, stmtEvents] at hs
    simp [visitStmt, renameStmt, renameBlock, renameIdent, renameEvent, exprEvents, stmtEvents, hs, visitExpr_rename t (by simp_all), visitStmt_rename s (by simp_all)]
  | .forS _ none (some t) (some u) s, hs => by
    simp [visitStmt, exprEvents, stmtEvents] at hs
    simp [visitStmt, renameStmt, renameBlock, renameIdent, renameEvent, exprEvents, stmtEvents, hs, visitExpr_rename t (by simp_all), visitExpr_rename u (by simp_all), visitStmt_rename s (by simp_all)]
  | .forS _ (some i) none none s, hs => by
    simp [visitStmt, exprEvents, stmtEvents] at hs
    simp [visitStmt, renameStmt, renameBlock, renameIdent, renameEvent, exprEvents, stmtEvents, hs, visitForInit_rename i (by simp_all), visitStmt_rename s (by simp_all)]
  | .forS _ (some i) none (some u) s, hs => by
    simp [visitStmt, exprEvents, stmtEvents] at hs
    simp [visitStmt, renameStmt, renameBlock, renameIdent, renameEvent, exprEvents, stmtEvents, hs, visitForInit_rename i (by simp_all), visitExpr_rename u (by simp_all), visitStmt_rename s (by simp_all)]
  | .forS _ (some i) (some t) none s, hs => by
    simp [visitStmt, exprEvents, stmtEvents] at hs
    simp [visitStmt, renameStmt, renameBlock, renameIdent, renameEvent, exprEvents, stmtEvents, hs, visitForInit_rename i (by simp_all), visitExpr_rename t (by simp_all), visitStmt_rename s (by simp_all)]
  | .forS _ (some i) (some t) (some u) s, hs => by
    simp [visitStmt, exprEvents, stmtEvents] at hs
    simp [visitStmt, renameStmt, renameBlock, renameIdent, renameEvent, exprEvents, stmtEvents, hs, visitForInit_rename i (by simp_all), visitExpr_rename t (by simp_all), visitExpr_rename u (by simp_all), visitStmt_rename s (by simp_all)]
  | .forIn _ i e s, hs => by
    simp [visitStmt, exprEvents, stmtEvents] at hs
    simp [visitStmt, renameStmt, renameBlock, renameIdent, renameEvent, exprEvents, stmtEvents, hs, visitForInit_rename i (by simp_all), visitExpr_rename e (by simp_all), visitStmt_rename s (by simp_all)]
  | .forOf _ i e s, hs => by
    simp [visitStmt, exprEvents, stmtEvents] at hs
    simp [visitStmt, renameStmt, renameBlock, renameIdent, renameEvent, exprEvents, stmtEvents, hs, visitForInit_rename i (by simp_all), visitExpr_rename e (by simp_all), visitStmt_rename s (by simp_all)]
  | .tryS _ b none none, hs => by
    simp [visitStmt, exprEvents, stmtEvents] at hs
    simp [visitStmt, renameStmt, renameBlock, renameIdent, renameEvent, exprEvents, stmtEvents, hs, visitBlock_rename b (by simp_all)]
  | .tryS _ b none (some f), hs => by
    simp [visitStmt, exprEvents, stmtEvents] at hs
    simp [visitStmt, renameStmt, renameBlock, renameIdent, renameEvent, exprEvents, stmtEvents, hs, visitBlock_rename b (by simp_all), visitBlock_rename f (by simp_all)]
  | .tryS _ b (some h) none, hs => by
    simp [visitStmt, exprEvents, stmtEvents] at hs
    simp [visitStmt, renameStmt, renameBlock, renameIdent, renameEvent, exprEvents, stmtEvents, hs, visitBlock_rename b (by simp_all), visitCatch_rename h (by simp_all)]
  | .tryS _ b (some h) (some f), hs => by
    simp [visitStmt, exprEvents, stmtEvents] at hs
    simp [visitStmt, renameStmt, renameBlock, renameIdent, renameEvent, exprEvents, stmtEvents, hs, visitBlock_rename b (by simp_all), visitCatch_rename h (by simp_all), visitBlock_rename f (by simp_all)]
  | .block _ b, hs => by
    simp [visitStmt, exprEvents, stmtEvents] at hs
    simp [visitStmt, renameStmt, renameBlock, renameIdent, renameEvent, exprEvents, stmtEvents, hs, visitStmts_rename b (by simp_all)]
  | .labeled _ _ s, hs => by
    simp [visitStmt, exprEvents, stmtEvents] at hs
    simp [visitStmt, renameStmt, renameBlock, renameIdent, renameEvent, exprEvents, stmtEvents, hs, visitStmt_rename s (by simp_all)]
  | .function _ f, hs => by
    simp [visitStmt, exprEvents, stmtEvents] at hs
    simp [visitStmt, renameStmt, renameBlock, renameIdent, renameEvent, exprEvents, stmtEvents, hs, visitFunc_rename f (by simp_all)]
  | .class _ c, hs => by
    simp [visitStmt, exprEvents, stmtEvents] at hs
    simp [visitStmt, renameStmt, renameBlock, renameIdent, renameEvent, exprEvents, stmtEvents, hs, visitClass_rename c (by simp_all)]
  | .switch _ e _ cs, hs => by
    simp [visitStmt, exprEvents, stmtEvents] at hs
    simp [visitStmt, renameStmt, renameBlock, renameIdent, renameEvent, exprEvents, stmtEvents, hs, visitExpr_rename e (by simp_all), visitCases_rename cs (by simp_all)]
  | .import _ ss _, hs => by
    simp [visitStmt, exprEvents, stmtEvents] at hs
    simp [visitStmt, renameStmt, renameBlock, renameIdent, renameEvent, exprEvents, stmtEvents, hs, visitSpecs_rename ρ ss]

theorem visitStmts_rename : ∀ x : List Stmt, SourcesKept ρ (visitStmts x) → visitStmts (renameStmts ρ x) = (visitStmts x).map (renameEvent ρ)
  | [], hs => by
    simp [visitStmts, exprEvents, stmtEvents] at hs
    simp [visitStmts, renameStmts, renameBlock, renameIdent, renameEvent, exprEvents, stmtEvents, hs]
  | e :: es, hs => by
    simp [visitStmts, exprEvents, stmtEvents] at hs
    simp [visitStmts, renameStmts, renameBlock, renameIdent, renameEvent, exprEvents, stmtEvents, hs, visitStmt_rename e (by simp_all), visitStmts_rename es (by simp_all)]

theorem visitDeclarator_rename : ∀ x : Declarator, SourcesKept ρ (visitDeclarator x) → visitDeclarator (renameDeclarator ρ x) = (visitDeclarator x).map (renameEvent ρ)
  | .mk _ p none, hs => by
    simp [visitDeclarator, exprEvents, stmtEvents] at hs
    simp [visitDeclarator, renameDeclarator, renameBlock, renameIdent, renameEvent, exprEvents, stmtEvents, hs, visitPattern_rename p (by simp_all)]
  | .mk _ p (some e), hs => by
    simp [visitDeclarator, exprEvents, stmtEvents] at hs
    simp [visitDeclarator, renameDeclarator, renameBlock, renameIdent, renameEvent, exprEvents, stmtEvents, hs, visitPattern_rename p (by simp_all), visitExpr_rename e (by simp_all)]

theorem visitDeclarators_rename : ∀ x : List Declarator, SourcesKept ρ (visitDeclarators x) → visitDeclarators (renameDeclarators ρ x) = (visitDeclarators x).map (renameEvent ρ)
  | [], hs => by
    simp [visitDeclarators, exprEvents, stmtEvents] at hs
    simp [visitDeclarators, renameDeclarators, renameBlock, renameIdent, renameEvent, exprEvents, stmtEvents, hs]
  | e :: es, hs => by
    simp [visitDeclarators, exprEvents, stmtEvents] at hs
    simp [visitDeclarators, renameDeclarators, renameBlock, renameIdent, renameEvent, exprEvents, stmtEvents, hs, visitDeclarator_rename e (by simp_all), visitDeclarators_rename es (by simp_all)]

theorem visitForInit_rename : ∀ x : ForInit, SourcesKept ρ (visitForInit x) → visitForInit (renameInit ρ x) = (visitForInit x).map (renameEvent ρ)
  | .decl _ _ ds, hs => by
    simp [visitForInit, exprEvents, stmtEvents] at hs
    simp [visitForInit, renameInit, renameBlock, renameIdent, renameEvent, exprEvents, stmtEvents, hs, visitDeclarators_rename ds (by simp_all)]
  | .expr _ e, hs => by
    simp [visitForInit, exprEvents, stmtEvents] at hs
    simp [visitForInit, renameInit, renameBlock, renameIdent, renameEvent, exprEvents, stmtEvents, hs, visitExpr_rename e (by simp_all)]

theorem visitCase_rename : ∀ x : SwitchCase, SourcesKept ρ (visitCase x) → visitCase (renameCase ρ x) = (visitCase x).map (renameEvent ρ)
  | .mk _ none b, hs => by
    simp [visitCase, exprEvents, stmtEvents] at hs
    simp [visitCase, renameCase, renameBlock, renameIdent, renameEvent, exprEvents, stmtEvents, hs, visitStmts_rename b (by simp_all)]
  | .mk _ (some e) b, hs => by
    simp [visitCase, exprEvents, stmtEvents] at hs
    simp [visitCase, renameCase, renameBlock, renameIdent, renameEvent, exprEvents, stmtEvents, hs, visitExpr_rename e (by simp_all), visitStmts_rename b (by simp_all)]

theorem visitCases_rename : ∀ x : List SwitchCase, SourcesKept ρ (visitCases x) → visitCases (renameCases ρ x) = (visitCases x).map (renameEvent ρ)
  | [], hs => by
    simp [visitCases, exprEvents, stmtEvents] at hs
    simp [visitCases, renameCases, renameBlock, renameIdent, renameEvent, exprEvents, stmtEvents, hs]
  | e :: es, hs => by
    simp [visitCases, exprEvents, stmtEvents] at hs
    simp [visitCases, renameCases, renameBlock, renameIdent, renameEvent, exprEvents, stmtEvents, hs, visitCase_rename e (by simp_all), visitCases_rename es (by simp_all)]

theorem visitCatch_rename : ∀ x : Catch, SourcesKept ρ (visitCatch x) → visitCatch (renameCatch ρ x) = (visitCatch x).map (renameEvent ρ)
  | .mk _ p b, hs => by
    simp [visitCatch, exprEvents, stmtEvents] at hs
    simp [visitCatch, renameCatch, renameBlock, renameIdent, renameEvent, exprEvents, stmtEvents, hs, visitPattern_rename p (by simp_all), visitBlock_rename b (by simp_all)]

end

end Ratel
