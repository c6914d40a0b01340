import Verif.Lemmas.Walk
import Mathlib.Tactic.CasesM
/-! Every procedure of the parser, run without errors, returns good nodes. -/
namespace Ratel
open Spec

set_option linter.unusedSectionVars false
variable [Unicode]

/-! ### Texts of tokens -/

section
variable {src : Bytes} {l : Lex}

theorem Lexeme.ne_nil {t : Token} {p r : Bytes} (h : Lexeme t p r) (h1 : t ≠ .EndOfProgram) (h2 : t ≠ .UnexpectedToken) : p ≠ [] := by
  cases h with
  | eof => exact absurd rfl h1
  | punct hp =>
    have : ∀ x ∈ puncts, x.1 ≠ [] := by decide +kernel
    exact this _ hp
  | number hn => cases hn <;> simp_all
  | badChar => exact absurd rfl h2
  | _ => simp

/-- The tokens whose text is never empty, and which do not belong to templates or regular expressions. -/
def named (t : Token) : Bool := t.isWord || t == .LiteralString || t == .LiteralNumber || t == .LiteralBinary ||
  t == .LiteralTrue || t == .LiteralFalse || t == .LiteralNull || t == .LiteralUndefined || t == .Import

theorem named_ne' : ∀ t, named t = true → t ≠ .TemplateOpen ∧ t ≠ .TemplateClosed ∧ t ≠ .UnexpectedEndOfProgram ∧
    t ≠ .UnexpectedToken ∧ t ≠ .LiteralRegEx ∧ t ≠ .EndOfProgram := forall_token (by decide +kernel)

theorem At.nonempty (h : At src l) (ht : named l.token = true) : l.tokenAsStr ≠ [] := by
  obtain ⟨h1, h2, h3, h4, h5, h6⟩ := named_ne' _ ht
  exact Lexeme.ne_nil (h.lexing.lexeme h1 h2 h3 h4 h5) h6 h4

theorem At.keyword (h : At src l) {k : Bytes} (hk : (k, l.token) ∈ keywords) : l.tokenAsStr = k := h.lexing.keyword_text hk

theorem At.string (h : At src l) (ht : l.token = .LiteralString) :
    ∃ q s, (q = #b'"' ∨ q = #b'\'') ∧ l.tokenAsStr = q :: s ++ [q] := by
  have hx := h.lexing.lexeme (by simp [ht]) (by simp [ht]) (by simp [ht]) (by simp [ht]) (by simp [ht])
  rw [ht] at hx
  generalize hk : Token.LiteralString = t at hx
  generalize l.tokenAsStr = p at hx
  cases hx with
  | punct hp => subst hk; exact absurd hp (by revert p; simp [puncts])
  | word _ _ _ => exact absurd (wordToken_inv hk.symm (by decide)) (by simp [keywords])
  | string hq hs => exact ⟨_, _, hq, rfl⟩
  | _ => simp at hk

end

/-! ### Postconditions -/

/-- A node that was read while the lexer moved from `l` to `l'`. -/
structure Read (src : Bytes) (nd : Node) (loc : Loc) (l l' : Lex) : Prop where
  good : nd.Forall (Good src)
  lo : l.tokenStart ≤ loc.start
  ord : loc.start ≤ loc.stop
  mid : loc.start ≤ l'.tokenStart
  hi : loc.stop ≤ l'.index

/-- A node that is not a hole and covers the first token. -/
structure Full (src : Bytes) (nd : Node) (loc : Loc) (l l' : Lex) : Prop extends Read src nd loc l l' where
  hole : nd.isHole = false
  first : l.index ≤ loc.stop

/-- A list of nodes, with commas between them if `c`. -/
structure Reads {α : Type} (src : Bytes) (c : Bool) (f : α → Node) (g : α → Loc) (p : α → Prop) (l : Lex) (xs : List α) (l' : Lex) : Prop where
  good : ∀ x ∈ xs, (f x).Forall (Good src)
  lo : ∀ x ∈ xs, l.tokenStart ≤ (g x).start
  ord : ∀ x ∈ xs, (g x).start ≤ (g x).stop
  mid : ∀ x ∈ xs, (g x).start ≤ l'.tokenStart
  hi : ∀ x ∈ xs, (g x).stop ≤ l'.index
  order : xs.Pairwise fun a b => (g a).start ≤ (g b).start
  apart : c = true → xs.Pairwise fun a b => (g a).stop ≤ (g b).start
  extra : ∀ x ∈ xs, p x

/-- An identifier that was read. -/
structure IdentRead (src : Bytes) (l : Lex) (i : Ident) (l' : Lex) : Prop where
  name : i.name ≠ []
  text : slice src i.loc.start i.loc.stop = i.name
  lo : l.tokenStart ≤ i.loc.start
  ord : i.loc.start ≤ i.loc.stop
  first : l.index ≤ i.loc.stop
  hi : i.loc.stop ≤ l'.tokenStart

section
variable {src : Bytes}

abbrev ExprRead (src : Bytes) (l : Lex) (e : Expr) (l' : Lex) : Prop := Full src (.expr e) e.loc l l'
abbrev StmtRead (src : Bytes) (l : Lex) (s : Stmt) (l' : Lex) : Prop := Full src (.stmt s) s.loc l l'
abbrev PropRead (src : Bytes) (l : Lex) (p : Property) (l' : Lex) : Prop := Full src (.prop p) (propLoc p) l l'
abbrev PatRead (src : Bytes) (l : Lex) (p : Pattern) (l' : Lex) : Prop := Full src (.pat p) p.loc l l' ∧ isRest p = false

/-- The recursive procedures return good nodes. -/
class Rec.Ok (src : Bytes) (R : Rec) : Prop where
  defExpr : ∀ lvl, Sp src (R.expr .DEF lvl) (ExprRead src)
  callExpr : ∀ lvl, Sp src (R.expr .CALL lvl) (ExprRead src)
  element : Sp src (R.expr .ARRAY .B0) fun l e l' => Read src (.expr e) e.loc l l'
  stmt : Sp src R.stmt (StmtRead src)
  patArray : Sp src R.patArray fun l p l' => l.token = .BracketOpen → PatRead src l p l'
  property : Sp src R.property (PropRead src)

variable {n : Nat} {R : Rec} [Rec.Known src R] [hR : Rec.Ok src R]

instance {lvl} : Sp src (R.expr .DEF lvl) (ExprRead src) := hR.defExpr lvl
instance {lvl} : Sp src (R.expr .CALL lvl) (ExprRead src) := hR.callExpr lvl
instance : Sp src (R.expr .ARRAY .B0) fun l e l' => Read src (.expr e) e.loc l l' := hR.element
instance : Sp src R.stmt (StmtRead src) := hR.stmt
instance : Sp src R.patArray fun l p l' => l.token = .BracketOpen → PatRead src l p l' := hR.patArray
instance : Sp src R.property (PropRead src) := hR.property

end

/-! ### Tactics -/

theorem isHole_key (k : PropKey) : (Node.key k).isHole = false := rfl
theorem isHole_prop (k : Property) : (Node.prop k).isHole = false := rfl
theorem isHole_func (k : Func) : (Node.func k).isHole = false := rfl
theorem isHole_cls (k : Class) : (Node.cls k).isHole = false := rfl
theorem isHole_member (k : ClassMember) : (Node.member k).isHole = false := rfl
theorem isHole_block (k : Block) : (Node.block k).isHole = false := rfl
theorem isHole_stmt (k : Stmt) : (Node.stmt k).isHole = false := rfl
theorem isHole_declarator (k : Declarator) : (Node.declarator k).isHole = false := rfl
theorem isHole_forInit (k : ForInit) : (Node.forInit k).isHole = false := rfl
theorem isHole_case (k : SwitchCase) : (Node.case k).isHole = false := rfl
theorem isHole_catch (k : Catch) : (Node.catch k).isHole = false := rfl
theorem isHole_switchBody (k) : (Node.switchBody k).isHole = false := rfl

theorem loc_Expr_void {a} : (Expr.void a).loc = a := rfl
theorem loc_Expr_this {a} : (Expr.this a).loc = a := rfl
theorem loc_Expr_ident {a b} : (Expr.ident a b).loc = a := rfl
theorem loc_Expr_lit {a b} : (Expr.lit a b).loc = a := rfl
theorem loc_Expr_seq {a b} : (Expr.seq a b).loc = a := rfl
theorem loc_Expr_array {a b} : (Expr.array a b).loc = a := rfl
theorem loc_Expr_member {a b c} : (Expr.member a b c).loc = a := rfl
theorem loc_Expr_cmember {a b c} : (Expr.cmember a b c).loc = a := rfl
theorem loc_Expr_metaProp {a b c} : (Expr.metaProp a b c).loc = a := rfl
theorem loc_Expr_call {a b c} : (Expr.call a b c).loc = a := rfl
theorem loc_Expr_binary {a b c d} : (Expr.binary a b c d).loc = a := rfl
theorem loc_Expr_prefix {a b c} : (Expr.prefix a b c).loc = a := rfl
theorem loc_Expr_postfix {a b c} : (Expr.postfix a b c).loc = a := rfl
theorem loc_Expr_cond {a b c d} : (Expr.cond a b c d).loc = a := rfl
theorem loc_Expr_template {a b c} : (Expr.template a b c).loc = a := rfl
theorem loc_Expr_tagged {a b c d e} : (Expr.tagged a b c d e).loc = a := rfl
theorem loc_Expr_spread {a b} : (Expr.spread a b).loc = a := rfl
theorem loc_Expr_arrowE {a b c} : (Expr.arrowE a b c).loc = a := rfl
theorem loc_Expr_arrowB {a b c} : (Expr.arrowB a b c).loc = a := rfl
theorem loc_Expr_object {a b} : (Expr.object a b).loc = a := rfl
theorem loc_Expr_function {a b} : (Expr.function a b).loc = a := rfl
theorem loc_Expr_class {a b} : (Expr.class a b).loc = a := rfl
theorem loc_Pattern_void {a} : (Pattern.void a).loc = a := rfl
theorem loc_Pattern_ident {a b} : (Pattern.ident a b).loc = a := rfl
theorem loc_Pattern_object {a b} : (Pattern.object a b).loc = a := rfl
theorem loc_Pattern_array {a b} : (Pattern.array a b).loc = a := rfl
theorem loc_Pattern_rest {a b} : (Pattern.rest a b).loc = a := rfl
theorem loc_Pattern_assign {a b c} : (Pattern.assign a b c).loc = a := rfl
theorem loc_Stmt_empty {a} : (Stmt.empty a).loc = a := rfl
theorem loc_Stmt_debugger {a} : (Stmt.debugger a).loc = a := rfl
theorem loc_Stmt_expr {a b} : (Stmt.expr a b).loc = a := rfl
theorem loc_Stmt_decl {a b c} : (Stmt.decl a b c).loc = a := rfl
theorem loc_Stmt_ret {a b} : (Stmt.ret a b).loc = a := rfl
theorem loc_Stmt_brk {a b} : (Stmt.brk a b).loc = a := rfl
theorem loc_Stmt_cont {a b} : (Stmt.cont a b).loc = a := rfl
theorem loc_Stmt_throw {a b} : (Stmt.throw a b).loc = a := rfl
theorem loc_Stmt_ifS {a b c d} : (Stmt.ifS a b c d).loc = a := rfl
theorem loc_Stmt_whileS {a b c} : (Stmt.whileS a b c).loc = a := rfl
theorem loc_Stmt_doS {a b c} : (Stmt.doS a b c).loc = a := rfl
theorem loc_Stmt_forS {a b c d e} : (Stmt.forS a b c d e).loc = a := rfl
theorem loc_Stmt_forIn {a b c d} : (Stmt.forIn a b c d).loc = a := rfl
theorem loc_Stmt_forOf {a b c d} : (Stmt.forOf a b c d).loc = a := rfl
theorem loc_Stmt_tryS {a b c d} : (Stmt.tryS a b c d).loc = a := rfl
theorem loc_Stmt_block {a b} : (Stmt.block a b).loc = a := rfl
theorem loc_Stmt_labeled {a b c} : (Stmt.labeled a b c).loc = a := rfl
theorem loc_Stmt_function {a b} : (Stmt.function a b).loc = a := rfl
theorem loc_Stmt_class {a b} : (Stmt.class a b).loc = a := rfl
theorem loc_Stmt_switch {a b c d} : (Stmt.switch a b c d).loc = a := rfl
theorem loc_Stmt_import {a b c} : (Stmt.import a b c).loc = a := rfl
theorem loc_Block_mk {a b} : (Block.mk a b).loc = a := rfl
theorem loc_Catch_mk {a b c} : (Catch.mk a b c).loc = a := rfl
theorem loc_PropKey_computed {a b} : keyLoc (PropKey.computed a b) = a := rfl
theorem loc_PropKey_literal {a b} : keyLoc (PropKey.literal a b) = a := rfl
theorem loc_PropKey_binary {a b} : keyLoc (PropKey.binary a b) = a := rfl
theorem loc_Property_shorthand {a b} : propLoc (Property.shorthand a b) = a := rfl
theorem loc_Property_literal {a b c} : propLoc (Property.literal a b c) = a := rfl
theorem loc_Property_method {a b c d} : propLoc (Property.method a b c d) = a := rfl
theorem loc_Property_spread {a b} : propLoc (Property.spread a b) = a := rfl
theorem loc_ClassMember_error {a} : memberLoc (ClassMember.error a) = a := rfl
theorem loc_ClassMember_method {a b c d e f} : memberLoc (ClassMember.method a b c d e f) = a := rfl
theorem loc_ClassMember_literal {a b c d} : memberLoc (ClassMember.literal a b c d) = a := rfl
theorem loc_Declarator_mk {a b c} : declaratorLoc (Declarator.mk a b c) = a := rfl
theorem loc_ForInit_decl {a b c} : forInitLoc (ForInit.decl a b c) = a := rfl
theorem loc_ForInit_expr {a b} : forInitLoc (ForInit.expr a b) = a := rfl
theorem loc_SwitchCase_mk {a b c} : caseLoc (SwitchCase.mk a b c) = a := rfl
theorem isHole_Expr_void {a} : (Node.expr (.void a)).isHole = true := rfl
theorem isHole_Expr_this {a} : (Node.expr (.this a)).isHole = false := rfl
theorem isHole_Expr_ident {a b} : (Node.expr (.ident a b)).isHole = false := rfl
theorem isHole_Expr_lit {a b} : (Node.expr (.lit a b)).isHole = false := rfl
theorem isHole_Expr_seq {a b} : (Node.expr (.seq a b)).isHole = false := rfl
theorem isHole_Expr_array {a b} : (Node.expr (.array a b)).isHole = false := rfl
theorem isHole_Expr_member {a b c} : (Node.expr (.member a b c)).isHole = false := rfl
theorem isHole_Expr_cmember {a b c} : (Node.expr (.cmember a b c)).isHole = false := rfl
theorem isHole_Expr_metaProp {a b c} : (Node.expr (.metaProp a b c)).isHole = false := rfl
theorem isHole_Expr_call {a b c} : (Node.expr (.call a b c)).isHole = false := rfl
theorem isHole_Expr_binary {a b c d} : (Node.expr (.binary a b c d)).isHole = false := rfl
theorem isHole_Expr_prefix {a b c} : (Node.expr (.prefix a b c)).isHole = false := rfl
theorem isHole_Expr_postfix {a b c} : (Node.expr (.postfix a b c)).isHole = false := rfl
theorem isHole_Expr_cond {a b c d} : (Node.expr (.cond a b c d)).isHole = false := rfl
theorem isHole_Expr_template {a b c} : (Node.expr (.template a b c)).isHole = false := rfl
theorem isHole_Expr_tagged {a b c d e} : (Node.expr (.tagged a b c d e)).isHole = false := rfl
theorem isHole_Expr_spread {a b} : (Node.expr (.spread a b)).isHole = false := rfl
theorem isHole_Expr_arrowE {a b c} : (Node.expr (.arrowE a b c)).isHole = false := rfl
theorem isHole_Expr_arrowB {a b c} : (Node.expr (.arrowB a b c)).isHole = false := rfl
theorem isHole_Expr_object {a b} : (Node.expr (.object a b)).isHole = false := rfl
theorem isHole_Expr_function {a b} : (Node.expr (.function a b)).isHole = false := rfl
theorem isHole_Expr_class {a b} : (Node.expr (.class a b)).isHole = false := rfl
theorem isHole_Pattern_void {a} : (Node.pat (.void a)).isHole = true := rfl
theorem isHole_Pattern_ident {a b} : (Node.pat (.ident a b)).isHole = false := rfl
theorem isHole_Pattern_object {a b} : (Node.pat (.object a b)).isHole = false := rfl
theorem isHole_Pattern_array {a b} : (Node.pat (.array a b)).isHole = false := rfl
theorem isHole_Pattern_rest {a b} : (Node.pat (.rest a b)).isHole = false := rfl
theorem isHole_Pattern_assign {a b c} : (Node.pat (.assign a b c)).isHole = false := rfl
theorem isRest_void {a} : isRest (.void a) = false := rfl
theorem isRest_ident {a b} : isRest (.ident a b) = false := rfl
theorem isRest_object {a b} : isRest (.object a b) = false := rfl
theorem isRest_array {a b} : isRest (.array a b) = false := rfl
theorem isRest_rest {a b} : isRest (.rest a b) = true := rfl
theorem isRest_assign {a b c} : isRest (.assign a b c) = false := rfl
theorem funcBodyLoc_mk {a b c d} : funcBodyLoc (.mk a b c d) = d.loc := rfl
theorem classBodyLoc_mk {a b c d} : classBodyLoc (.mk a b c d) = c := rfl
theorem funcName_mk {a b c d} : funcName (.mk a b c d) = a := rfl
theorem className_mk {a b c d} : className (.mk a b c d) = a := rfl
theorem bodyStop_mk {a b c d} : (Func.mk a b c d).bodyStop = d.loc.stop := rfl
theorem bodyStop_class {a b c d} : (Class.mk a b c d).bodyStop = c.stop := rfl
theorem body_mk {a b} : (Block.mk a b).body = b := rfl
theorem keyNames_computed {a b} : keyNames (.computed a b) = [] := rfl
theorem keyNames_literal {a b} : keyNames (.literal a b) = [b] := rfl
theorem keyNames_binary {a b} : keyNames (.binary a b) = [b] := rfl
theorem keyWritten_computed {a b} : keyWritten (.computed a b) = [] := rfl
theorem keyWritten_literal {a b} : keyWritten (.literal a b) = [(a, b)] := rfl
theorem keyWritten_binary {a b} : keyWritten (.binary a b) = [(a, b)] := rfl

attribute [simp, grind =] loc_Expr_void loc_Expr_this loc_Expr_ident loc_Expr_lit loc_Expr_seq loc_Expr_array loc_Expr_member
  loc_Expr_cmember loc_Expr_metaProp loc_Expr_call loc_Expr_binary loc_Expr_prefix loc_Expr_postfix
  loc_Expr_cond loc_Expr_template loc_Expr_tagged loc_Expr_spread loc_Expr_arrowE loc_Expr_arrowB
  loc_Expr_object loc_Expr_function loc_Expr_class loc_Pattern_void loc_Pattern_ident loc_Pattern_object
  loc_Pattern_array loc_Pattern_rest loc_Pattern_assign loc_Stmt_empty loc_Stmt_debugger loc_Stmt_expr
  loc_Stmt_decl loc_Stmt_ret loc_Stmt_brk loc_Stmt_cont loc_Stmt_throw loc_Stmt_ifS loc_Stmt_whileS loc_Stmt_doS
  loc_Stmt_forS loc_Stmt_forIn loc_Stmt_forOf loc_Stmt_tryS loc_Stmt_block loc_Stmt_labeled loc_Stmt_function
  loc_Stmt_class loc_Stmt_switch loc_Stmt_import loc_Block_mk loc_Catch_mk loc_PropKey_computed
  loc_PropKey_literal loc_PropKey_binary loc_Property_shorthand loc_Property_literal loc_Property_method
  loc_Property_spread loc_ClassMember_error loc_ClassMember_method loc_ClassMember_literal loc_Declarator_mk
  loc_ForInit_decl loc_ForInit_expr loc_SwitchCase_mk isHole_Expr_void isHole_Expr_this isHole_Expr_ident
  isHole_Expr_lit isHole_Expr_seq isHole_Expr_array isHole_Expr_member isHole_Expr_cmember isHole_Expr_metaProp
  isHole_Expr_call isHole_Expr_binary isHole_Expr_prefix isHole_Expr_postfix isHole_Expr_cond
  isHole_Expr_template isHole_Expr_tagged isHole_Expr_spread isHole_Expr_arrowE isHole_Expr_arrowB
  isHole_Expr_object isHole_Expr_function isHole_Expr_class isHole_Pattern_void isHole_Pattern_ident
  isHole_Pattern_object isHole_Pattern_array isHole_Pattern_rest isHole_Pattern_assign isRest_void isRest_ident
  isRest_object isRest_array isRest_rest isRest_assign funcBodyLoc_mk classBodyLoc_mk funcName_mk className_mk
  bodyStop_mk bodyStop_class body_mk keyNames_computed keyNames_literal keyNames_binary keyWritten_computed
  keyWritten_literal keyWritten_binary isHole_key isHole_prop isHole_func isHole_cls isHole_member isHole_block
  isHole_stmt isHole_declarator isHole_forInit isHole_case isHole_catch isHole_switchBody

/-! ### Texts -/

theorem fixedText_BracketOpen : fixedText .BracketOpen = bs!"[" := by decide +kernel
theorem fixedText_BracketClose : fixedText .BracketClose = bs!"]" := by decide +kernel
theorem fixedText_BraceOpen : fixedText .BraceOpen = bs!"{" := by decide +kernel
theorem fixedText_BraceClose : fixedText .BraceClose = bs!"}" := by decide +kernel
theorem fixedText_ParenOpen : fixedText .ParenOpen = bs!"(" := by decide +kernel
theorem fixedText_ParenClose : fixedText .ParenClose = bs!")" := by decide +kernel
theorem fixedText_Semicolon : fixedText .Semicolon = bs!";" := by decide +kernel
theorem fixedText_Colon : fixedText .Colon = bs!":" := by decide +kernel
theorem fixedText_OperatorSpread : fixedText .OperatorSpread = bs!"..." := by decide +kernel
theorem fixedText_OperatorNew : fixedText .OperatorNew = bs!"new" := by decide +kernel
theorem fixedText_Function : fixedText .Function = bs!"function" := by decide +kernel
theorem fixedText_Class : fixedText .Class = bs!"class" := by decide +kernel
theorem fixedText_Static : fixedText .Static = bs!"static" := by decide +kernel
theorem fixedText_Debugger : fixedText .Debugger = bs!"debugger" := by decide +kernel
theorem fixedText_Return : fixedText .Return = bs!"return" := by decide +kernel
theorem fixedText_Break : fixedText .Break = bs!"break" := by decide +kernel
theorem fixedText_Continue : fixedText .Continue = bs!"continue" := by decide +kernel
theorem fixedText_Throw : fixedText .Throw = bs!"throw" := by decide +kernel
theorem fixedText_If : fixedText .If = bs!"if" := by decide +kernel
theorem fixedText_While : fixedText .While = bs!"while" := by decide +kernel
theorem fixedText_Do : fixedText .Do = bs!"do" := by decide +kernel
theorem fixedText_For : fixedText .For = bs!"for" := by decide +kernel
theorem fixedText_Try : fixedText .Try = bs!"try" := by decide +kernel
theorem fixedText_Switch : fixedText .Switch = bs!"switch" := by decide +kernel
theorem fixedText_Import : fixedText .Import = bs!"import" := by decide +kernel
theorem fixedText_Case : fixedText .Case = bs!"case" := by decide +kernel
theorem fixedText_Default : fixedText .Default = bs!"default" := by decide +kernel
theorem fixedText_Catch : fixedText .Catch = bs!"catch" := by decide +kernel
theorem fixedText_DeclarationVar : fixedText .DeclarationVar = bs!"var" := by decide +kernel
theorem fixedText_DeclarationLet : fixedText .DeclarationLet = bs!"let" := by decide +kernel
theorem fixedText_DeclarationConst : fixedText .DeclarationConst = bs!"const" := by decide +kernel

attribute [grind =] fixedText_BracketOpen fixedText_BracketClose fixedText_BraceOpen fixedText_BraceClose fixedText_ParenOpen fixedText_ParenClose fixedText_Semicolon fixedText_Colon fixedText_OperatorSpread fixedText_OperatorNew fixedText_Function fixedText_Class fixedText_Static fixedText_Debugger fixedText_Return fixedText_Break fixedText_Continue fixedText_Throw fixedText_If fixedText_While fixedText_Do fixedText_For fixedText_Try fixedText_Switch fixedText_Import fixedText_Case fixedText_Default fixedText_Catch fixedText_DeclarationVar fixedText_DeclarationLet fixedText_DeclarationConst
attribute [grind =] declWord unaryText

/-- Instantiates the metavariables in the goal. -/
elab "inst_all" : tactic => Lean.Elab.Tactic.liftMetaTactic fun g => g.withContext do
  let lctx ← Lean.instantiateLCtxMVars (← Lean.getLCtx)
  let t ← Lean.instantiateMVars (← g.getType)
  let g' ← Lean.Meta.mkFreshExprMVarAt lctx (← Lean.Meta.getLocalInstances) t .syntheticOpaque
  g.assign g'
  return [g'.mvarId!]

theorem pairwise_true {α : Type} (l : List α) : l.Pairwise (fun _ _ => True) := List.pairwise_of_forall fun _ _ => trivial

set_option hygiene false

/-- Unfolds the conditions on a node. -/
macro "good" : tactic => `(tactic| (
  refine Node.forall_iff.2 ⟨⟨⟨?_, ?_, ?_⟩, ⟨?_, ?_, ?_⟩, ?_, ⟨?_, ?_, ?_, ?_, ?_, ?_⟩, ?_, ?_, ?_, ⟨?_, ?_, ?_, ?_, ?_⟩⟩, ?_⟩ <;>
  simp [Node.children, Node.isErrorMember, Node.names, Node.isArray, Node.written, Node.quasis, Located,
    SpansInside, Node.span, Node.innerSpans, Node.contained, Node.enclosed, Node.listed, pairwise_true, Assignable, OperatorsFit, WellShaped,
    Node.opens, Node.closes, Node.starts, Node.stops, Node.braces,
    literalTexts, literalText, List.pairwise_map, List.pairwise_append]))

macro "open_all" : tactic => `(tactic| (inst_all; (try dsimp only [ExprRead, StmtRead, PropRead, PatRead] at *); cases_type* Full Read Adv Nxt At Reads IdentRead And))

macro "walk_step" : tactic => `(tactic| with_reducible first
  | refine W.pure ?_
  | refine W.tok ?_
  | refine W.asi ?_
  | refine W.start ?_
  | refine W.stop ?_
  | refine W.curLoc ?_
  | refine W.tokStr ?_
  | refine W.accStr ?_
  | refine W.quasi ?_
  | (refine W.consume (src := src) (by assumption) ?_; intro l' _ _)
  | (refine W.consume' (src := src) (by assumption) ?_; intro l' _ _)
  | (refine W.startThenConsume (src := src) (by assumption) ?_; intro l' _ _)
  | (refine W.endThenConsume (src := src) (by assumption) ?_; intro l' _ _)
  | (refine W.expect (src := src) (by assumption) ?_ (by mono; done); intro _ l' _ _)
  | (refine W.expect' (src := src) (by assumption) ?_; intro _ l' _ _)
  | exact W.error (src := src) (by mono; done)
  | exact W.error'
  | (refine W.sp (src := src) (by assumption) ?_ (by mono; done); intro a l' _ _ _)
  | (refine W.sp' (src := src) (by assumption) ?_; intro a l' _ _ _)
  | refine W.assoc ?_
  | refine W.pure_bind ?_
  | dsimp only
  | split)

/-- Runs a procedure. -/
macro "walk" : tactic => `(tactic| repeat' walk_step)

end Ratel
