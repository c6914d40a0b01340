import Verif.Lemmas.FormedBare
import Verif.Lemmas.Code
import Verif.Lemmas.PrintClaims
/-! The generated code does not depend on positions. -/
namespace Ratel
open Spec

set_option linter.unusedSectionVars false

/-- The code of any node. -/
def codeOf : Node → List Piece
  | .expr e => codeExpr e
  | .key k => codeKey k
  | .prop p => codeProperty p
  | .pat p => codePattern p
  | .func f => codeFunc f
  | .cls c => codeClass c
  | .member m => codeMember m
  | .block b => codeBlock b
  | .stmt s => codeStmt s
  | .declarator d => codeDeclarator d
  | .forInit i => codeForInit i
  | .case c => codeCase c
  | .catch c => codeCatch c
  | .switchBody cs => writeBraces (codeCases cs)

theorem map_same {α : Type} {f : α → List Piece} {b : α → α} {l : List α} (h : ∀ x ∈ l, f (b x) = f x) : (l.map b).map f = l.map f := by
  rw [List.map_map]
  exact List.map_congr_left h

theorem bare_power (e : Expr) : (bareExpr e).bindingPower = e.bindingPower := by cases e <;> simp [bareExpr, Expr.bindingPower]
theorem bare_allowed (e : Expr) : (bareExpr e).isAllowedAsBareStatement = e.isAllowedAsBareStatement := by
  cases e <;> simp [bareExpr, Expr.isAllowedAsBareStatement]
theorem bare_isBlock (s : Stmt) : (bareStmt s).isBlock = s.isBlock := by
  cases s with
  | ifS l t c a => cases a <;> simp only [bareStmt, Stmt.isBlock]
  | _ => simp only [bareStmt, Stmt.isBlock]
theorem bare_write (e : Expr) (ps : List Piece) (k : Nat) : writeExpression (bareExpr e) ps k = writeExpression e ps k := by
  unfold writeExpression
  rw [bare_power]
theorem bare_spacing (op : Op) (a b : Expr) : binarySpacing op (bareExpr a) (bareExpr b) = binarySpacing op a b := by
  unfold binarySpacing
  cases a <;> cases b <;> simp only [bareExpr]
theorem bare_onlyIdent (ps : List Pattern) : onlyIdent (ps.map barePat) = onlyIdent ps := by
  match ps with
  | [] => rfl
  | [p] => cases p <;> simp [barePat, onlyIdent]
  | p :: q :: ps => cases p <;> simp [barePat, onlyIdent]
theorem bare_codeName (n : Name) : codeName (bareName n) = codeName n := by
  cases n with
  | optional n => cases n <;> rfl
  | _ => rfl
theorem bare_codeKeyword (kw : Bytes) (n : Name) : codeKeyword kw (bareName n) = codeKeyword kw n := by cases n <;> rfl
theorem bare_templateRest (qs : List Ident) (es : List (List Piece)) : writeTemplateRest (qs.map bareIdent) es = writeTemplateRest qs es := by
  induction qs generalizing es with
  | nil => cases es <;> rfl
  | cons q qs ih =>
    cases es with
    | nil => rfl
    | cons e es => simp only [List.map_cons, writeTemplateRest, ih, bareIdent]
theorem bare_template (qs : List Ident) (es : List (List Piece)) : writeTemplate (qs.map bareIdent) es = writeTemplate qs es := by
  match qs with
  | [] => rfl
  | [q] => rfl
  | q :: q' :: qs =>
    have := bare_templateRest (q' :: qs) es
    simp only [List.map_cons, writeTemplate] at this ⊢
    rw [this]
    rfl
theorem bare_importSpec (s : ImportSpec) : codeImportSpec (bareSpec s) = codeImportSpec s := by cases s <;> rfl
theorem bare_codeImport (ss : List ImportSpec) (src : Bytes) : codeImport (ss.map bareSpec) src = codeImport ss src := by
  have h1 : ∀ f : ImportSpec → Bool, (∀ s, f (bareSpec s) = f s) →
      ((ss.map bareSpec).filter f).map codeImportSpec = (ss.filter f).map codeImportSpec ∧ ((ss.map bareSpec).filter f).isEmpty = (ss.filter f).isEmpty := by
    intro f hf
    have : (ss.map bareSpec).filter f = (ss.filter f).map bareSpec := by
      rw [List.filter_map]
      congr 2
      funext s
      exact hf s
    rw [this, List.map_map, List.isEmpty_map]
    exact ⟨List.map_congr_left fun s _ => bare_importSpec s, rfl⟩
  unfold codeImport
  simp only [List.isEmpty_map, h1 (fun s => !s.isNamed) (fun s => by cases s <;> rfl), h1 (fun s => s.isNamed) (fun s => by cases s <;> rfl)]
theorem bare_codeJump (kw : Bytes) (l : Option Ident) : codeJump kw (l.map bareIdent) = codeJump kw l := by cases l <;> rfl

section
variable [Unicode]

theorem codeOf_bare (n : Node) : codeOf (bareNode n) = codeOf n := by
  induction n using Node.ind with
  | h n ih =>
  have he : ∀ e, Node.expr e ∈ n.children → codeExpr (bareExpr e) = codeExpr e := fun e h => ih _ h
  have hs : ∀ e, Node.stmt e ∈ n.children → codeStmt (bareStmt e) = codeStmt e := fun e h => ih _ h
  have hp : ∀ e, Node.pat e ∈ n.children → codePattern (barePat e) = codePattern e := fun e h => ih _ h
  have hk : ∀ e, Node.key e ∈ n.children → codeKey (bareKey e) = codeKey e := fun e h => ih _ h
  have hf : ∀ e, Node.func e ∈ n.children → codeFunc (bareFunc e) = codeFunc e := fun e h => ih _ h
  have hc : ∀ e, Node.cls e ∈ n.children → codeClass (bareClass e) = codeClass e := fun e h => ih _ h
  have hb : ∀ e, Node.block e ∈ n.children → codeBlock (bareBlock e) = codeBlock e := fun e h => ih _ h
  have hd : ∀ e, Node.declarator e ∈ n.children → codeDeclarator (bareDeclarator e) = codeDeclarator e := fun e h => ih _ h
  have hi : ∀ e, Node.forInit e ∈ n.children → codeForInit (bareInit e) = codeForInit e := fun e h => ih _ h
  have hpr : ∀ e, Node.prop e ∈ n.children → codeProperty (bareProp e) = codeProperty e := fun e h => ih _ h
  have hm : ∀ e, Node.member e ∈ n.children → codeMember (bareMember e) = codeMember e := fun e h => ih _ h
  have hca : ∀ e, Node.case e ∈ n.children → codeCase (bareCase e) = codeCase e := fun e h => ih _ h
  have hct : ∀ e, Node.catch e ∈ n.children → codeCatch (bareCatch e) = codeCatch e := fun e h => ih _ h
  have hsw : ∀ cs, Node.switchBody cs ∈ n.children → writeBraces (codeCases (bareCases cs)) = writeBraces (codeCases cs) := fun e h => ih _ h
  have hel : ∀ xs : List Expr, (∀ x ∈ xs, Node.expr x ∈ n.children) → (xs.map bareExpr).map codeExpr = xs.map codeExpr := fun xs h => map_same fun x hx => he x (h x hx)
  have hsl : ∀ xs : List Stmt, (∀ x ∈ xs, Node.stmt x ∈ n.children) → (xs.map bareStmt).map codeStmt = xs.map codeStmt := fun xs h => map_same fun x hx => hs x (h x hx)
  have hpl : ∀ xs : List Pattern, (∀ x ∈ xs, Node.pat x ∈ n.children) → (xs.map barePat).map codePattern = xs.map codePattern := fun xs h => map_same fun x hx => hp x (h x hx)
  have hdl : ∀ xs : List Declarator, (∀ x ∈ xs, Node.declarator x ∈ n.children) → (xs.map bareDeclarator).map codeDeclarator = xs.map codeDeclarator := fun xs h => map_same fun x hx => hd x (h x hx)
  have hprl : ∀ xs : List Property, (∀ x ∈ xs, Node.prop x ∈ n.children) → (xs.map bareProp).map codeProperty = xs.map codeProperty := fun xs h => map_same fun x hx => hpr x (h x hx)
  have hml : ∀ xs : List ClassMember, (∀ x ∈ xs, Node.member x ∈ n.children) → (xs.map bareMember).map codeMember = xs.map codeMember := fun xs h => map_same fun x hx => hm x (h x hx)
  have hcal : ∀ xs : List SwitchCase, (∀ x ∈ xs, Node.case x ∈ n.children) → (xs.map bareCase).map codeCase = xs.map codeCase := fun xs h => map_same fun x hx => hca x (h x hx)
  clear ih
  rcases n with e | k | p | p | f | c | m | b | s | d | i | c | c | cs
  · cases e with
    | arrowB l ps b =>
      obtain ⟨l', b⟩ := b
      simp only [bareNode, codeOf, bareExpr, bareBlock, codeExpr, codeBlock, codeStmts_eq, codePatterns_eq, bareStmts_map, barePats_map, bare_onlyIdent,
        hpl ps (fun x hx => by simp [Node.children, hx]), hsl b (fun x hx => by simp [Node.children, hx])]
    | arrowE l ps b =>
      simp only [bareNode, codeOf, bareExpr, codeExpr, codePatterns_eq, barePats_map, bare_onlyIdent,
        hpl ps (fun x hx => by simp [Node.children, hx]), he b (by simp [Node.children])]
    | seq l es | array l es | template l es qs =>
      simp only [bareNode, codeOf, bareExpr, codeExpr, codeExprs_eq, bareExprs_map, bare_template, hel es (fun x hx => by simp [Node.children, hx])]
    | call l c es | tagged l c l' es qs =>
      simp only [bareNode, codeOf, bareExpr, codeExpr, codeExprs_eq, bareExprs_map, bare_template, hel es (fun x hx => by simp [Node.children, hx]), he c (by simp [Node.children])]
    | object l ps =>
      simp only [bareNode, codeOf, bareExpr, codeExpr, codeProperties_eq, bareProps_map, hprl ps (fun x hx => by simp [Node.children, hx])]
    | function l f => simp only [bareNode, codeOf, bareExpr, codeExpr, hf f (by simp [Node.children])]
    | «class» l c => simp only [bareNode, codeOf, bareExpr, codeExpr, hc c (by simp [Node.children])]
    | member l o p => simp only [bareNode, codeOf, bareExpr, codeExpr, bare_write, bareIdent, he o (by simp [Node.children])]
    | cmember l o p => simp only [bareNode, codeOf, bareExpr, codeExpr, bare_write, he o (by simp [Node.children]), he p (by simp [Node.children])]
    | binary l op a b => simp only [bareNode, codeOf, bareExpr, codeExpr, bare_write, bare_spacing, he a (by simp [Node.children]), he b (by simp [Node.children])]
    | «prefix» l op a | «postfix» l op a | spread l a => simp only [bareNode, codeOf, bareExpr, codeExpr, he a (by simp [Node.children])]
    | cond l a b c => simp only [bareNode, codeOf, bareExpr, codeExpr, he a (by simp [Node.children]), he b (by simp [Node.children]), he c (by simp [Node.children])]
    | _ => simp only [bareNode, codeOf, bareExpr, codeExpr, bareIdent]
  · cases k with
    | computed l e => simp only [bareNode, codeOf, bareKey, codeKey, he e (by simp [Node.children])]
    | _ => simp only [bareNode, codeOf, bareKey, codeKey]
  · cases p with
    | literal l k v => simp only [bareNode, codeOf, bareProp, codeProperty, he v (by simp [Node.children]), hk k (by simp [Node.children])]
    | method l k l' f => simp only [bareNode, codeOf, bareProp, codeProperty, hf f (by simp [Node.children]), hk k (by simp [Node.children])]
    | spread l e => simp only [bareNode, codeOf, bareProp, codeProperty, he e (by simp [Node.children])]
    | shorthand => simp only [bareNode, codeOf, bareProp, codeProperty]
  · cases p with
    | object l ps =>
      simp only [bareNode, codeOf, barePat, codePattern, codeProperties_eq, bareProps_map, hprl ps (fun x hx => by simp [Node.children, hx])]
    | array l ps =>
      simp only [bareNode, codeOf, barePat, codePattern, codePatterns_eq, barePats_map, hpl ps (fun x hx => by simp [Node.children, hx])]
    | assign l p e => simp only [bareNode, codeOf, barePat, codePattern, he e (by simp [Node.children]), hp p (by simp [Node.children])]
    | _ => simp only [bareNode, codeOf, barePat, codePattern, bareIdent]
  · obtain ⟨n, g, ps, ⟨l, b⟩⟩ := f
    simp only [bareNode, codeOf, bareFunc, bareBlock, codeFunc, codeBlock, codeStmts_eq, codePatterns_eq, bareStmts_map, barePats_map, bare_codeName, bare_codeKeyword,
        hpl ps (fun x hx => by simp [Node.children, hx]), hsl b (fun x hx => by simp [Node.children, hx])]
  · obtain ⟨n, s, l, ms⟩ := c
    cases s with
    | none => simp only [bareNode, codeOf, bareClass, codeClass, codeMembers_eq, bareMembers_map, bare_codeName, bare_codeKeyword, hml ms (fun x hx => by simp [Node.children, hx])]
    | some e => simp only [bareNode, codeOf, bareClass, codeClass, codeMembers_eq, bareMembers_map, bare_codeName, bare_codeKeyword, hml ms (fun x hx => by simp [Node.children, hx]), he e (by simp [Node.children])]
  · cases m with
    | error => rfl
    | literal l s k v => simp only [bareNode, codeOf, bareMember, codeMember, he v (by simp [Node.children]), hk k (by simp [Node.children])]
    | method l s k kd l' f => simp only [bareNode, codeOf, bareMember, codeMember, hf f (by simp [Node.children]), hk k (by simp [Node.children])]
  · obtain ⟨l, b⟩ := b
    simp only [bareNode, codeOf, bareBlock, codeBlock, codeStmts_eq, bareStmts_map, hsl b (fun x hx => by simp [Node.children, hx])]
  · cases s with
    | empty => rfl
    | debugger => rfl
    | expr l e => simp only [bareNode, codeOf, bareStmt, codeStmt, bare_allowed, he e (by simp [Node.children])]
    | decl l k ds =>
      simp only [bareNode, codeOf, bareStmt, codeStmt, codeDeclarators_eq, bareDeclarators_map, hdl ds (fun x hx => by simp [Node.children, hx])]
    | ret l v => cases v with
      | none => rfl
      | some e => simp only [bareNode, codeOf, bareStmt, codeStmt, he e (by simp [Node.children])]
    | brk l v => simp only [bareNode, codeOf, bareStmt, codeStmt, bare_codeJump]
    | cont l v => simp only [bareNode, codeOf, bareStmt, codeStmt, bare_codeJump]
    | throw l e => simp only [bareNode, codeOf, bareStmt, codeStmt, he e (by simp [Node.children])]
    | ifS l t c a => cases a with
      | none => simp only [bareNode, codeOf, bareStmt, codeStmt, he t (by simp [Node.children]), hs c (by simp [Node.children])]
      | some a => simp only [bareNode, codeOf, bareStmt, codeStmt, bare_isBlock, he t (by simp [Node.children]), hs c (by simp [Node.children]), hs a (by simp [Node.children])]
    | whileS l t b => simp only [bareNode, codeOf, bareStmt, codeStmt, he t (by simp [Node.children]), hs b (by simp [Node.children])]
    | doS l b t => simp only [bareNode, codeOf, bareStmt, codeStmt, bare_isBlock, he t (by simp [Node.children]), hs b (by simp [Node.children])]
    | forS l i t u b =>
      have hb0 := hs b (by simp [Node.children])
      cases i with
      | none => cases t with
        | none => cases u with
          | none => simp only [bareNode, codeOf, bareStmt, codeStmt, hb0]
          | some u => simp only [bareNode, codeOf, bareStmt, codeStmt, hb0, he u (by simp [Node.children])]
        | some t => cases u with
          | none => simp only [bareNode, codeOf, bareStmt, codeStmt, hb0, he t (by simp [Node.children])]
          | some u => simp only [bareNode, codeOf, bareStmt, codeStmt, hb0, he u (by simp [Node.children]), he t (by simp [Node.children])]
      | some i => cases t with
        | none => cases u with
          | none => simp only [bareNode, codeOf, bareStmt, codeStmt, hb0, hi i (by simp [Node.children])]
          | some u => simp only [bareNode, codeOf, bareStmt, codeStmt, hb0, hi i (by simp [Node.children]), he u (by simp [Node.children])]
        | some t => cases u with
          | none => simp only [bareNode, codeOf, bareStmt, codeStmt, hb0, hi i (by simp [Node.children]), he t (by simp [Node.children])]
          | some u => simp only [bareNode, codeOf, bareStmt, codeStmt, hb0, hi i (by simp [Node.children]), he u (by simp [Node.children]), he t (by simp [Node.children])]
    | forIn l i r b => simp only [bareNode, codeOf, bareStmt, codeStmt, hi i (by simp [Node.children]), he r (by simp [Node.children]), hs b (by simp [Node.children])]
    | forOf l i r b => simp only [bareNode, codeOf, bareStmt, codeStmt, hi i (by simp [Node.children]), he r (by simp [Node.children]), hs b (by simp [Node.children])]
    | tryS l b h f =>
      have hb0 := hb b (by simp [Node.children])
      cases h with
      | none => cases f with
        | none => simp only [bareNode, codeOf, bareStmt, codeStmt, hb0]
        | some f => simp only [bareNode, codeOf, bareStmt, codeStmt, hb0, hb f (by simp [Node.children])]
      | some h => cases f with
        | none => simp only [bareNode, codeOf, bareStmt, codeStmt, hb0, hct h (by simp [Node.children])]
        | some f => simp only [bareNode, codeOf, bareStmt, codeStmt, hb0, hct h (by simp [Node.children]), hb f (by simp [Node.children])]
    | block l b =>
      simp only [bareNode, codeOf, bareStmt, codeStmt, codeStmts_eq, bareStmts_map, hsl b (fun x hx => by simp [Node.children, hx])]
    | labeled l n b => simp only [bareNode, codeOf, bareStmt, codeStmt, hs b (by simp [Node.children])]
    | function l f => simp only [bareNode, codeOf, bareStmt, codeStmt, hf f (by simp [Node.children])]
    | «class» l c => simp only [bareNode, codeOf, bareStmt, codeStmt, hc c (by simp [Node.children])]
    | switch l d l' cs =>
      have := hsw cs (by simp [Node.children])
      simp only [bareNode, codeOf, bareStmt, codeStmt, he d (by simp [Node.children]), this]
    | «import» l ss src => simp only [bareNode, codeOf, bareStmt, codeStmt, bare_codeImport]
  · obtain ⟨l, p, i⟩ := d
    cases i with
    | none => simp only [bareNode, codeOf, bareDeclarator, codeDeclarator, hp p (by simp [Node.children])]
    | some e => simp only [bareNode, codeOf, bareDeclarator, codeDeclarator, hp p (by simp [Node.children]), he e (by simp [Node.children])]
  · cases i with
    | decl l k ds =>
      simp only [bareNode, codeOf, bareInit, codeForInit, codeDeclarators_eq, bareDeclarators_map, hdl ds (fun x hx => by simp [Node.children, hx])]
    | expr l e => simp only [bareNode, codeOf, bareInit, codeForInit, he e (by simp [Node.children])]
  · obtain ⟨l, t, b⟩ := c
    cases t with
    | none => simp only [bareNode, codeOf, bareCase, codeCase, codeStmts_eq, bareStmts_map, hsl b (fun x hx => by simp [Node.children, hx])]
    | some e => simp only [bareNode, codeOf, bareCase, codeCase, codeStmts_eq, bareStmts_map, hsl b (fun x hx => by simp [Node.children, hx]), he e (by simp [Node.children])]
  · obtain ⟨l, p, b⟩ := c
    simp only [bareNode, codeOf, bareCatch, codeCatch, hp p (by simp [Node.children]), hb b (by simp [Node.children])]
  · simp only [Node.children] at hca
    simp only [bareNode, codeOf, codeCases_eq, bareCases_map, hcal cs (fun x hx => by simp [Node.children, hx])]

theorem codegen_bare (m : List Stmt) (minify : Bool) : codegen (bareStmts m) minify = codegen m minify := by
  have : codeStmts (bareStmts m) = codeStmts m := by
    rw [codeStmts_eq, codeStmts_eq, bareStmts_map]
    exact map_same fun s _ => codeOf_bare (.stmt s)
  unfold codegen codeModuleMin codeModulePretty
  rw [this]

end
end Ratel
