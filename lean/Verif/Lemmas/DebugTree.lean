import Verif.Debug
/-! The dump of a tree determines the tree, as far as the calls of the builders go. -/
namespace Ratel

theorem dbgLoc_iff (l l' : Loc) (d d' : Dbg) : dbgLoc l d = dbgLoc l' d' ↔ l = l' ∧ d = d' := by
  cases l; cases l'
  simp [dbgLoc, and_assoc]

theorem dbgIdent_iff (a b : Ident) : dbgIdent a = dbgIdent b ↔ a = b := by
  cases a; cases b
  simp [dbgIdent, dbgLoc_iff]

theorem dbgIdents_iff : ∀ a b : List Ident, dbgIdents a = dbgIdents b ↔ a = b
  | [], b => by cases b <;> simp [dbgIdents]
  | a :: as, b => by cases b <;> simp [dbgIdents, dbgIdent_iff, dbgIdents_iff as]

theorem dbgLabel_iff (a b : Option Ident) : dbgOption (a.map dbgIdent) = dbgOption (b.map dbgIdent) ↔ a = b := by
  cases a <;> cases b <;> simp [dbgOption, dbgIdent_iff, lone]

theorem dbgName_iff (a b : Name) : dbgName a = dbgName b ↔ a = b := by
  cases a <;> cases b <;> simp [dbgName, dbgIdent_iff, dbgLabel_iff, lone]

theorem dbgSpec_iff (a b : ImportSpec) : dbgSpec a = dbgSpec b ↔ a = b := by
  cases a <;> cases b <;> simp [dbgSpec, dbgIdent_iff, lone, dbgLoc_iff]

theorem dbgSpecs_iff : ∀ a b : List ImportSpec, dbgSpecs a = dbgSpecs b ↔ a = b
  | [], b => by cases b <;> simp [dbgSpecs]
  | a :: as, b => by cases b <;> simp [dbgSpecs, dbgSpec_iff, dbgSpecs_iff as]

theorem dbgLiteral_iff (a b : Literal) : dbgLiteral a = dbgLiteral b ↔ a = b := by
  cases a <;> cases b <;> simp [dbgLiteral, lone]

theorem dbgBool_iff (a b : Bool) : dbgBool a = dbgBool b ↔ a = b := by
  cases a <;> cases b <;> simp [dbgBool]

theorem dbgDeclKind_iff (a b : DeclKind) : dbgDeclKind a = dbgDeclKind b ↔ a = b := by
  cases a <;> cases b <;> simp [dbgDeclKind]

theorem dbgMethodKind_iff (a b : MethodKind) : dbgMethodKind a = dbgMethodKind b ↔ a = b := by
  cases a <;> cases b <;> simp [dbgMethodKind]

theorem dbgOp_iff (a b : Op) : dbgOp a = dbgOp b ↔ a = b := by
  constructor
  · cases a <;> cases b <;> decide +kernel
  · rintro rfl
    rfl

set_option maxHeartbeats 2000000
set_option linter.unusedSimpArgs false
mutual


theorem dbgExpr_iff : ∀ a b : Expr, dbgExpr a = dbgExpr b ↔ a = b
  | .void _, y => by
    cases y <;> simp [dbgLoc_iff, lone, dbgExpr, dbgTemplate, dbgLiteral_iff]
  | .this _, y => by
    cases y <;> simp [dbgLoc_iff, lone, dbgExpr, dbgTemplate, dbgLiteral_iff]
  | .ident _ n, y => by
    cases y <;> simp [dbgLoc_iff, lone, dbgExpr, dbgTemplate, dbgLiteral_iff]
  | .lit _ v, y => by
    cases y <;> simp [dbgLoc_iff, lone, dbgExpr, dbgTemplate, dbgLiteral_iff]
  | .seq _ es, y => by
    cases y <;> simp [dbgLoc_iff, lone, dbgExpr, dbgTemplate, dbgOp_iff, dbgLiteral_iff, dbgExprs_iff es]
  | .array _ es, y => by
    cases y <;> simp [dbgLoc_iff, lone, dbgExpr, dbgTemplate, dbgOp_iff, dbgLiteral_iff, dbgExprs_iff es]
  | .member _ o p, y => by
    cases y <;> simp [dbgLoc_iff, lone, dbgExpr, dbgTemplate, dbgOp_iff, dbgLiteral_iff, dbgExpr_iff o, dbgIdent_iff]
  | .cmember _ o p, y => by
    cases y <;> simp [dbgLoc_iff, lone, dbgExpr, dbgTemplate, dbgOp_iff, dbgLiteral_iff, dbgExpr_iff o, dbgExpr_iff p]
  | .metaProp _ m p, y => by
    cases y <;> simp [dbgLoc_iff, lone, dbgExpr, dbgTemplate, dbgOp_iff, dbgLiteral_iff, dbgIdent_iff, dbgIdent_iff]
  | .call _ c es, y => by
    cases y <;> simp [dbgLoc_iff, lone, dbgExpr, dbgTemplate, dbgOp_iff, dbgLiteral_iff, dbgExpr_iff c, dbgExprs_iff es]
  | .binary _ op a b, y => by
    cases y <;> simp [dbgLoc_iff, lone, dbgExpr, dbgTemplate, dbgOp_iff, dbgLiteral_iff, dbgExpr_iff a, dbgExpr_iff b]
  | .prefix _ op e, y => by
    cases y <;> simp [dbgLoc_iff, lone, dbgExpr, dbgTemplate, dbgOp_iff, dbgLiteral_iff, dbgExpr_iff e]
  | .postfix _ op e, y => by
    cases y <;> simp [dbgLoc_iff, lone, dbgExpr, dbgTemplate, dbgOp_iff, dbgLiteral_iff, dbgExpr_iff e]
  | .cond _ t c a, y => by
    cases y <;> simp [dbgLoc_iff, lone, dbgExpr, dbgTemplate, dbgOp_iff, dbgLiteral_iff, dbgExpr_iff t, dbgExpr_iff c, dbgExpr_iff a]
  | .template _ es qs, y => by
    cases y <;> simp [dbgLoc_iff, lone, dbgExpr, dbgTemplate, dbgOp_iff, dbgLiteral_iff, dbgExprs_iff es, dbgIdents_iff, dbgTemplate]
  | .tagged _ t _ es qs, y => by
    cases y <;> simp [dbgLoc_iff, lone, dbgExpr, dbgTemplate, dbgOp_iff, dbgLiteral_iff, dbgExpr_iff t, dbgExprs_iff es, dbgIdents_iff, dbgTemplate]
  | .spread _ e, y => by
    cases y <;> simp [dbgLoc_iff, lone, dbgExpr, dbgTemplate, dbgOp_iff, dbgLiteral_iff, dbgExpr_iff e]
  | .arrowE _ ps b, y => by
    cases y <;> simp [dbgLoc_iff, lone, dbgExpr, dbgTemplate, dbgOp_iff, dbgLiteral_iff, dbgPats_iff ps, dbgExpr_iff b]
  | .arrowB _ ps b, y => by
    cases y <;> simp [dbgLoc_iff, lone, dbgExpr, dbgTemplate, dbgOp_iff, dbgLiteral_iff, dbgPats_iff ps, dbgBlock_iff b]
  | .object _ ps, y => by
    cases y <;> simp [dbgLoc_iff, lone, dbgExpr, dbgTemplate, dbgOp_iff, dbgLiteral_iff, dbgProps_iff ps]
  | .function _ f, y => by
    cases y <;> simp [dbgLoc_iff, lone, dbgExpr, dbgTemplate, dbgOp_iff, dbgLiteral_iff, dbgFunc_iff f]
  | .class _ c, y => by
    cases y <;> simp [dbgLoc_iff, lone, dbgExpr, dbgTemplate, dbgOp_iff, dbgLiteral_iff, dbgClass_iff c]

theorem dbgExprs_iff : ∀ a b : List Expr, dbgExprs a = dbgExprs b ↔ a = b
  | a :: as, y => by
    cases y <;> simp [dbgLoc_iff, lone, dbgExprs, dbgExpr_iff a, dbgExprs_iff as]
  | [], y => by
    cases y <;> simp [dbgLoc_iff, lone, dbgExprs]

theorem dbgKey_iff : ∀ a b : PropKey, dbgKey a = dbgKey b ↔ a = b
  | .computed _ e, y => by
    cases y <;> simp [dbgLoc_iff, lone, dbgKey, dbgExpr_iff e]
  | .literal _ v, y => by
    cases y <;> simp [dbgLoc_iff, lone, dbgKey]
  | .binary _ v, y => by
    cases y <;> simp [dbgLoc_iff, lone, dbgKey]

theorem dbgProp_iff : ∀ a b : Property, dbgProp a = dbgProp b ↔ a = b
  | .shorthand _ n, y => by
    cases y <;> simp [dbgLoc_iff, lone, dbgProp]
  | .literal _ k v, y => by
    cases y <;> simp [dbgLoc_iff, lone, dbgProp, dbgKey_iff k, dbgExpr_iff v]
  | .method _ k _ f, y => by
    cases y <;> simp [dbgLoc_iff, lone, dbgProp, dbgKey_iff k, dbgFunc_iff f]
  | .spread _ e, y => by
    cases y <;> simp [dbgLoc_iff, lone, dbgProp, dbgExpr_iff e]

theorem dbgProps_iff : ∀ a b : List Property, dbgProps a = dbgProps b ↔ a = b
  | a :: as, y => by
    cases y <;> simp [dbgLoc_iff, lone, dbgProps, dbgProp_iff a, dbgProps_iff as]
  | [], y => by
    cases y <;> simp [dbgLoc_iff, lone, dbgProps]

theorem dbgPat_iff : ∀ a b : Pattern, dbgPat a = dbgPat b ↔ a = b
  | .void _, y => by
    cases y <;> simp [dbgLoc_iff, lone, dbgPat]
  | .ident _ n, y => by
    cases y <;> simp [dbgLoc_iff, lone, dbgPat]
  | .object _ ps, y => by
    cases y <;> simp [dbgLoc_iff, lone, dbgPat, dbgProps_iff ps]
  | .array _ ps, y => by
    cases y <;> simp [dbgLoc_iff, lone, dbgPat, dbgPats_iff ps]
  | .rest _ a, y => by
    cases y <;> simp [dbgLoc_iff, lone, dbgPat, dbgIdent_iff]
  | .assign _ p e, y => by
    cases y <;> simp [dbgLoc_iff, lone, dbgPat, dbgPat_iff p, dbgExpr_iff e]

theorem dbgPats_iff : ∀ a b : List Pattern, dbgPats a = dbgPats b ↔ a = b
  | a :: as, y => by
    cases y <;> simp [dbgLoc_iff, lone, dbgPats, dbgPat_iff a, dbgPats_iff as]
  | [], y => by
    cases y <;> simp [dbgLoc_iff, lone, dbgPats]

theorem dbgFunc_iff : ∀ a b : Func, dbgFunc a = dbgFunc b ↔ a = b
  | .mk n g ps b, y => by
    cases y <;> simp [dbgLoc_iff, lone, dbgFunc, dbgBool_iff, dbgName_iff, dbgPats_iff ps, dbgBlock_iff b]

theorem dbgClass_iff : ∀ a b : Class, dbgClass a = dbgClass b ↔ a = b
  | .mk n s _ ms, y => by
    cases y <;> simp [dbgLoc_iff, lone, dbgClass, dbgBody, dbgName_iff, dbgExprO_iff s, dbgMembers_iff ms]

theorem dbgExprO_iff : ∀ a b : Option Expr, dbgExprO a = dbgExprO b ↔ a = b
  | some a, y => by
    cases y <;> simp [dbgLoc_iff, lone, dbgExprO, dbgExpr_iff a]
  | none, y => by
    cases y <;> simp [dbgLoc_iff, lone, dbgExprO]

theorem dbgMember_iff : ∀ a b : ClassMember, dbgMember a = dbgMember b ↔ a = b
  | .error _, y => by
    cases y <;> simp [dbgLoc_iff, lone, dbgMember]
  | .method _ s k kd _ f, y => by
    cases y <;> simp [dbgLoc_iff, lone, dbgMember, dbgBool_iff, dbgMethodKind_iff, dbgKey_iff k, dbgFunc_iff f]
  | .literal _ s k v, y => by
    cases y <;> simp [dbgLoc_iff, lone, dbgMember, dbgBool_iff, dbgMethodKind_iff, dbgKey_iff k, dbgExpr_iff v]

theorem dbgMembers_iff : ∀ a b : List ClassMember, dbgMembers a = dbgMembers b ↔ a = b
  | a :: as, y => by
    cases y <;> simp [dbgLoc_iff, lone, dbgMembers, dbgMember_iff a, dbgMembers_iff as]
  | [], y => by
    cases y <;> simp [dbgLoc_iff, lone, dbgMembers]

theorem dbgBlock_iff : ∀ a b : Block, dbgBlock a = dbgBlock b ↔ a = b
  | .mk _ b, y => by
    cases y <;> simp [dbgLoc_iff, lone, dbgBlock, dbgBody, dbgStmts_iff b]

theorem dbgStmt_iff : ∀ a b : Stmt, dbgStmt a = dbgStmt b ↔ a = b
  | .empty _, y => by
    cases y <;> simp [dbgLoc_iff, lone, dbgStmt]
  | .debugger _, y => by
    cases y <;> simp [dbgLoc_iff, lone, dbgStmt]
  | .expr _ e, y => by
    cases y <;> simp [dbgLoc_iff, lone, dbgStmt, dbgDeclaration, dbgBody, dbgExpr_iff e]
  | .decl _ k ds, y => by
    cases y <;> simp [dbgLoc_iff, lone, dbgStmt, dbgDeclaration, dbgBody, dbgDeclarators_iff ds, dbgDeclaration, dbgDeclKind_iff]
  | .ret _ v, y => by
    cases y <;> simp [dbgLoc_iff, lone, dbgStmt, dbgDeclaration, dbgBody, dbgExprO_iff v]
  | .brk _ l, y => by
    cases y <;> simp [dbgLoc_iff, lone, dbgStmt, dbgDeclaration, dbgBody, dbgLabel_iff]
  | .cont _ l, y => by
    cases y <;> simp [dbgLoc_iff, lone, dbgStmt, dbgDeclaration, dbgBody, dbgLabel_iff]
  | .throw _ e, y => by
    cases y <;> simp [dbgLoc_iff, lone, dbgStmt, dbgDeclaration, dbgBody, dbgExpr_iff e]
  | .ifS _ t c a, y => by
    cases y <;> simp [dbgLoc_iff, lone, dbgStmt, dbgDeclaration, dbgBody, dbgExpr_iff t, dbgStmt_iff c, dbgStmtO_iff a]
  | .whileS _ t b, y => by
    cases y <;> simp [dbgLoc_iff, lone, dbgStmt, dbgDeclaration, dbgBody, dbgExpr_iff t, dbgStmt_iff b]
  | .doS _ b t, y => by
    cases y <;> simp [dbgLoc_iff, lone, dbgStmt, dbgDeclaration, dbgBody, dbgStmt_iff b, dbgExpr_iff t]
  | .forS _ i t u b, y => by
    cases y <;> simp [dbgLoc_iff, lone, dbgStmt, dbgDeclaration, dbgBody, dbgInitO_iff i, dbgExprO_iff t, dbgExprO_iff u, dbgStmt_iff b]
  | .forIn _ l r b, y => by
    cases y <;> simp [dbgLoc_iff, lone, dbgStmt, dbgDeclaration, dbgBody, dbgInit_iff l, dbgExpr_iff r, dbgStmt_iff b]
  | .forOf _ l r b, y => by
    cases y <;> simp [dbgLoc_iff, lone, dbgStmt, dbgDeclaration, dbgBody, dbgInit_iff l, dbgExpr_iff r, dbgStmt_iff b]
  | .tryS _ b h f, y => by
    cases y <;> simp [dbgLoc_iff, lone, dbgStmt, dbgDeclaration, dbgBody, dbgBlock_iff b, dbgCatchO_iff h, dbgBlockO_iff f]
  | .block _ b, y => by
    cases y <;> simp [dbgLoc_iff, lone, dbgStmt, dbgDeclaration, dbgBody, dbgStmts_iff b]
  | .labeled _ l b, y => by
    cases y <;> simp [dbgLoc_iff, lone, dbgStmt, dbgDeclaration, dbgBody, dbgStmt_iff b]
  | .function _ f, y => by
    cases y <;> simp [dbgLoc_iff, lone, dbgStmt, dbgDeclaration, dbgBody, dbgFunc_iff f]
  | .class _ c, y => by
    cases y <;> simp [dbgLoc_iff, lone, dbgStmt, dbgDeclaration, dbgBody, dbgClass_iff c]
  | .switch _ d _ cs, y => by
    cases y <;> simp [dbgLoc_iff, lone, dbgStmt, dbgDeclaration, dbgBody, dbgExpr_iff d, dbgCases_iff cs]
  | .import _ ss src, y => by
    cases y <;> simp [dbgLoc_iff, lone, dbgStmt, dbgDeclaration, dbgBody, dbgSpecs_iff]

theorem dbgStmts_iff : ∀ a b : List Stmt, dbgStmts a = dbgStmts b ↔ a = b
  | a :: as, y => by
    cases y <;> simp [dbgLoc_iff, lone, dbgStmts, dbgStmt_iff a, dbgStmts_iff as]
  | [], y => by
    cases y <;> simp [dbgLoc_iff, lone, dbgStmts]

theorem dbgStmtO_iff : ∀ a b : Option Stmt, dbgStmtO a = dbgStmtO b ↔ a = b
  | some a, y => by
    cases y <;> simp [dbgLoc_iff, lone, dbgStmtO, dbgStmt_iff a]
  | none, y => by
    cases y <;> simp [dbgLoc_iff, lone, dbgStmtO]

theorem dbgBlockO_iff : ∀ a b : Option Block, dbgBlockO a = dbgBlockO b ↔ a = b
  | some a, y => by
    cases y <;> simp [dbgLoc_iff, lone, dbgBlockO, dbgBlock_iff a]
  | none, y => by
    cases y <;> simp [dbgLoc_iff, lone, dbgBlockO]

theorem dbgDeclarator_iff : ∀ a b : Declarator, dbgDeclarator a = dbgDeclarator b ↔ a = b
  | .mk _ p i, y => by
    cases y <;> simp [dbgLoc_iff, lone, dbgDeclarator, dbgPat_iff p, dbgExprO_iff i]

theorem dbgDeclarators_iff : ∀ a b : List Declarator, dbgDeclarators a = dbgDeclarators b ↔ a = b
  | a :: as, y => by
    cases y <;> simp [dbgLoc_iff, lone, dbgDeclarators, dbgDeclarator_iff a, dbgDeclarators_iff as]
  | [], y => by
    cases y <;> simp [dbgLoc_iff, lone, dbgDeclarators]

theorem dbgInit_iff : ∀ a b : ForInit, dbgInit a = dbgInit b ↔ a = b
  | .decl _ k ds, y => by
    cases y <;> simp [dbgLoc_iff, lone, dbgInit, dbgDeclaration, dbgDeclarators_iff ds, dbgDeclaration, dbgDeclKind_iff]
  | .expr _ e, y => by
    cases y <;> simp [dbgLoc_iff, lone, dbgInit, dbgDeclaration, dbgExpr_iff e]

theorem dbgInitO_iff : ∀ a b : Option ForInit, dbgInitO a = dbgInitO b ↔ a = b
  | some a, y => by
    cases y <;> simp [dbgLoc_iff, lone, dbgInitO, dbgInit_iff a]
  | none, y => by
    cases y <;> simp [dbgLoc_iff, lone, dbgInitO]

theorem dbgCase_iff : ∀ a b : SwitchCase, dbgCase a = dbgCase b ↔ a = b
  | .mk _ t b, y => by
    cases y <;> simp [dbgLoc_iff, lone, dbgCase, dbgExprO_iff t, dbgStmts_iff b]

theorem dbgCases_iff : ∀ a b : List SwitchCase, dbgCases a = dbgCases b ↔ a = b
  | a :: as, y => by
    cases y <;> simp [dbgLoc_iff, lone, dbgCases, dbgCase_iff a, dbgCases_iff as]
  | [], y => by
    cases y <;> simp [dbgLoc_iff, lone, dbgCases]

theorem dbgCatch_iff : ∀ a b : Catch, dbgCatch a = dbgCatch b ↔ a = b
  | .mk _ p b, y => by
    cases y <;> simp [dbgLoc_iff, lone, dbgCatch, dbgPat_iff p, dbgBlock_iff b]

theorem dbgCatchO_iff : ∀ a b : Option Catch, dbgCatchO a = dbgCatchO b ↔ a = b
  | some a, y => by
    cases y <;> simp [dbgLoc_iff, lone, dbgCatchO, dbgCatch_iff a]
  | none, y => by
    cases y <;> simp [dbgLoc_iff, lone, dbgCatchO]

end

end Ratel
