import Verif.Lemmas.Sim
import Verif.Lemmas.AcceptExpr
import Verif.Lemmas.Spell
/-! The procedures of the parser with a text in front of the source. -/
namespace Ratel
open Spec Shift

set_option linter.unusedSectionVars false
set_option linter.unusedVariables false

theorem shiftExprs_eq (k : Nat) : ∀ l, shiftExprs k l = l.map (shiftExpr k)
  | [] => by rw [shiftExprs]; rfl
  | e :: es => by rw [shiftExprs, shiftExprs_eq k es]; rfl
theorem shiftProps_eq (k : Nat) : ∀ l, shiftProps k l = l.map (shiftProp k)
  | [] => by rw [shiftProps]; rfl
  | e :: es => by rw [shiftProps, shiftProps_eq k es]; rfl
theorem shiftPats_eq (k : Nat) : ∀ l, shiftPats k l = l.map (shiftPat k)
  | [] => by rw [shiftPats]; rfl
  | e :: es => by rw [shiftPats, shiftPats_eq k es]; rfl
theorem shiftMembers_eq (k : Nat) : ∀ l, shiftMembers k l = l.map (shiftMember k)
  | [] => by rw [shiftMembers]; rfl
  | e :: es => by rw [shiftMembers, shiftMembers_eq k es]; rfl
theorem shiftStmts_eq (k : Nat) : ∀ l, shiftStmts k l = l.map (shiftStmt k)
  | [] => by rw [shiftStmts]; rfl
  | e :: es => by rw [shiftStmts, shiftStmts_eq k es]; rfl
theorem shiftDeclarators_eq (k : Nat) : ∀ l, shiftDeclarators k l = l.map (shiftDeclarator k)
  | [] => by rw [shiftDeclarators]; rfl
  | e :: es => by rw [shiftDeclarators, shiftDeclarators_eq k es]; rfl
theorem shiftCases_eq (k : Nat) : ∀ l, shiftCases k l = l.map (shiftCase k)
  | [] => by rw [shiftCases]; rfl
  | e :: es => by rw [shiftCases, shiftCases_eq k es]; rfl

theorem shiftExpr_loc (k : Nat) (e : Expr) : (shiftExpr k e).loc = shiftLoc k e.loc := by
  cases e <;> simp only [shiftExpr] <;> rfl
theorem shiftPat_loc (k : Nat) (e : Pattern) : (shiftPat k e).loc = shiftLoc k e.loc := by
  cases e <;> simp only [shiftPat] <;> rfl
theorem shiftStmt_loc (k : Nat) (e : Stmt) : (shiftStmt k e).loc = shiftLoc k e.loc := by
  cases e <;> (rw [shiftStmt.eq_def]; rfl)
theorem shiftBlock_loc (k : Nat) (e : Block) : (shiftBlock k e).loc = shiftLoc k e.loc := by
  cases e <;> rw [shiftBlock] <;> rfl
theorem shiftFunc_stop (k : Nat) (e : Func) : (shiftFunc k e).bodyStop = e.bodyStop + k := by
  cases e; rw [shiftFunc, Func.bodyStop, shiftBlock_loc]; rfl
theorem shiftClass_stop (k : Nat) (e : Class) : (shiftClass k e).bodyStop = e.bodyStop + k := by
  cases e; simp only [shiftClass]; rfl
theorem shiftCatch_loc (k : Nat) (e : Catch) : (shiftCatch k e).loc = shiftLoc k e.loc := by
  cases e; rw [shiftCatch]; rfl
theorem shiftExpr_lvalue (k : Nat) (e : Expr) : (shiftExpr k e).isLvalue = e.isLvalue := by
  cases e <;> simp only [shiftExpr] <;> rfl
theorem shiftIdent_loc (k : Nat) (e : Ident) : (shiftIdent k e).loc = shiftLoc k e.loc := rfl
theorem shiftIdent_name (k : Nat) (e : Ident) : (shiftIdent k e).name = e.name := rfl

theorem shiftClass_mk (k : Nat) (n : Name) (s : Option Expr) (w : Loc) (ms : List ClassMember) : shiftClass k (.mk n s w ms) =
    .mk (shiftName k n) (s.map (shiftExpr k)) (shiftLoc k w) (shiftMembers k ms) := by cases s <;> rfl
theorem shiftStmt_ret (k : Nat) (w : Loc) (v : Option Expr) : shiftStmt k (.ret w v) = .ret (shiftLoc k w) (v.map (shiftExpr k)) := by
  cases v <;> rfl
theorem shiftStmt_if (k : Nat) (w : Loc) (t : Expr) (c : Stmt) (a : Option Stmt) : shiftStmt k (.ifS w t c a) =
    .ifS (shiftLoc k w) (shiftExpr k t) (shiftStmt k c) (a.map (shiftStmt k)) := by cases a <;> rfl
theorem shiftStmt_for (k : Nat) (w : Loc) (i : Option ForInit) (t u : Option Expr) (b : Stmt) : shiftStmt k (.forS w i t u b) =
    .forS (shiftLoc k w) (i.map (shiftInit k)) (t.map (shiftExpr k)) (u.map (shiftExpr k)) (shiftStmt k b) := by
  cases i <;> cases t <;> cases u <;> rfl
theorem shiftStmt_try (k : Nat) (w : Loc) (b : Block) (h : Option Catch) (f : Option Block) : shiftStmt k (.tryS w b h f) =
    .tryS (shiftLoc k w) (shiftBlock k b) (h.map (shiftCatch k)) (f.map (shiftBlock k)) := by cases h <;> cases f <;> rfl
theorem shiftDeclarator_mk (k : Nat) (w : Loc) (p : Pattern) (i : Option Expr) : shiftDeclarator k (.mk w p i) =
    .mk (shiftLoc k w) (shiftPat k p) (i.map (shiftExpr k)) := by cases i <;> rfl
theorem shiftCase_mk (k : Nat) (w : Loc) (t : Option Expr) (b : List Stmt) : shiftCase k (.mk w t b) =
    .mk (shiftLoc k w) (t.map (shiftExpr k)) (shiftStmts k b) := by cases t <;> rfl

/-- Computes `sh`. -/
macro "sh_close" : tactic => `(tactic| first
  | rfl
  | (try simp only [Sh.sh, shiftClass_mk, shiftStmt_ret, shiftStmt_if, shiftStmt_for, shiftStmt_try, shiftDeclarator_mk, shiftCase_mk]
     simp only [Sh.sh, shiftExpr, shiftKey, shiftProp, shiftPat, shiftFunc, shiftClass, shiftMember, shiftBlock, shiftStmt,
      shiftDeclarator, shiftInit, shiftCase, shiftCatch, shiftName, shiftSpec, shiftLoc, shiftExprs_eq, shiftProps_eq, shiftPats_eq,
      shiftMembers_eq, shiftStmts_eq, shiftDeclarators_eq, shiftCases_eq, List.map_append, List.map_cons, List.map_nil, Option.map_some,
      Option.map_none, shiftExpr_loc, shiftPat_loc, shiftStmt_loc, shiftBlock_loc, shiftFunc_stop, shiftClass_stop, shiftCatch_loc,
      shiftExpr_lvalue, shiftIdent_loc]; done)
  | (try simp only [Sh.sh, shiftClass_mk, shiftStmt_ret, shiftStmt_if, shiftStmt_for, shiftStmt_try, shiftDeclarator_mk, shiftCase_mk]
     simp only [Sh.sh, shiftExpr, shiftKey, shiftProp, shiftPat, shiftFunc, shiftClass, shiftMember, shiftBlock, shiftStmt,
      shiftDeclarator, shiftInit, shiftCase, shiftCatch, shiftName, shiftSpec, shiftLoc, shiftExprs_eq, shiftProps_eq, shiftPats_eq,
      shiftMembers_eq, shiftStmts_eq, shiftDeclarators_eq, shiftCases_eq, List.map_append, List.map_cons, List.map_nil, Option.map_some,
      Option.map_none, shiftExpr_loc, shiftPat_loc, shiftStmt_loc, shiftBlock_loc, shiftFunc_stop, shiftClass_stop, shiftCatch_loc,
      shiftExpr_lvalue, shiftIdent_loc]; rfl))

variable [Unicode] {g : Bytes} {T : Lex → Prop} {f : Bool}

/-- The recursive procedures. -/
class Rec.Moved (g : Bytes) (R : Rec) : Prop where
  expr : ∀ c lvl {T : Lex → Prop}, Sim g T false (R.expr c lvl) (R.expr c lvl)
  stmt : ∀ {T : Lex → Prop} {f : Bool}, Sim g T f R.stmt R.stmt
  patArray : ∀ {T : Lex → Prop}, Sim g T false R.patArray R.patArray
  property : ∀ {T : Lex → Prop}, Sim g T false R.property R.property

/-- Procedures that are done. -/
syntax "sim_known" : tactic
macro_rules | `(tactic| sim_known) => `(tactic| with_reducible first
  | exact Sim.consume
  | exact Sim.template
  | exact Sim.expect _
  | exact Sim.startThenConsume
  | exact Sim.endThenConsume
  | exact Rec.Moved.expr _ _
  | exact Rec.Moved.stmt
  | exact Rec.Moved.patArray
  | exact Rec.Moved.property)

macro "sim_step" : tactic => `(tactic| first
  | with_reducible exact Sim.error_pure
  | with_reducible exact Sim.error
  | with_reducible exact Sim.panic
  | ((with_reducible refine Sim.pure ?_); sh_close)
  | (with_reducible refine Sim.tok fun _ => ?_)
  | (with_reducible refine Sim.tokStr fun _ => ?_)
  | (with_reducible refine Sim.quasi fun _ => ?_)
  | (with_reducible refine Sim.asi fun _ => ?_)
  | (with_reducible refine Sim.start fun _ => ?_)
  | (with_reducible refine Sim.stop fun _ => ?_)
  | (with_reducible refine Sim.curLoc fun _ _ => ?_)
  | sim_known
  | (with_reducible refine Sim.ite Iff.rfl (fun _ => ?_) (fun _ => ?_))
  | (with_reducible refine Sim.bindU (by sim_known) ?_)
  | (with_reducible refine Sim.bindN (by sim_known) fun _ => ?_)
  | (with_reducible refine Sim.bind₀ (by sim_known) fun _ => ?_)
  | (with_reducible refine Sim.bind₃ (by sim_known) fun _ _ _ => ?_)
  | (with_reducible refine Sim.bind₂ (by sim_known) fun _ _ => ?_)
  | (with_reducible refine Sim.bind (by sim_known) fun _ => ?_)
  | ((with_reducible refine Sim.loop (fun _ => ?_) _ ?_); rotate_left; sh_close)
  | (with_reducible refine Sim.bindU (Sim.ite Iff.rfl (fun _ => ?_) (fun _ => ?_)) ?_)
  | (with_reducible refine Sim.bindB ?_ fun _ => ?_)
  | (with_reducible refine Sim.bind₀ ?_ fun _ => ?_)
  | (with_reducible refine Sim.bind₂ ?_ fun _ _ => ?_)
  | (with_reducible refine Sim.bind ?_ fun _ => ?_)
  | dsimp only
  | split)
macro "sim" : tactic => `(tactic| (repeat' sim_step))

theorem parseName_sim (k : NameKind) : Sim g T false (parseName k) (parseName k) := by
  cases k <;> unfold parseName <;> sim
theorem identifier_sim : Sim g T f identifier identifier := by
  cases f <;> unfold identifier <;> sim
macro_rules | `(tactic| sim_known) => `(tactic| with_reducible exact parseName_sim _)
macro_rules | `(tactic| sim_known) => `(tactic| with_reducible exact identifier_sim)
theorem expectSemicolon_sim : Sim g T false expectSemicolon expectSemicolon := by unfold expectSemicolon; sim

theorem patternFromExpression_sim (e : Expr) {e' : Expr} (h : e' = sh g.length e) :
    Sim g T false (patternFromExpression e) (patternFromExpression e') := by
  subst h
  induction e using patternFromExpression.induct generalizing T with
  | case1 loc l r ih =>
    simp only [Sh.sh, shiftExpr, patternFromExpression]
    exact ih.bind fun p => .pure (by sh_close)
  | case2 => simp only [Sh.sh, shiftExpr, patternFromExpression]; sim
  | case3 => simp only [patternFromExpression]; sim

theorem paramsFromExpressions_sim (l : List Expr) {l' : List Expr} (h : l' = sh g.length l) :
    Sim g T false (paramsFromExpressions l) (paramsFromExpressions l') := by
  subst h
  induction l generalizing T with
  | nil => exact .pure rfl
  | cons e es ih =>
    rw [sh_cons, paramsFromExpressions, paramsFromExpressions]
    exact (patternFromExpression_sim e rfl).bind fun p => ih.bind fun ps => .pure rfl
macro_rules | `(tactic| sim_known) => `(tactic| with_reducible exact expectSemicolon_sim)
macro_rules | `(tactic| sim_known) => `(tactic| ((with_reducible refine patternFromExpression_sim _ ?_); sh_close))
macro_rules | `(tactic| sim_known) => `(tactic| ((with_reducible refine paramsFromExpressions_sim _ ?_); sh_close))
variable {n : Nat} {R : Rec} [Rec.Moved g R]

theorem rawBlock_sim {α : Type} [Sh α] {m : P α} (hm : ∀ {T : Lex → Prop}, Sim g T false m m) :
    Sim g T false (rawBlock n m) (rawBlock n m) := by
  unfold rawBlock
  refine Sim.tok fun _ => Sim.ite Iff.rfl (fun _ => .pure rfl) fun _ => hm.bind fun x => Sim.loop (fun y => ?_) _ rfl
  refine Sim.tok fun _ => Sim.ite Iff.rfl (fun _ => hm.bind fun z => .pure ?_) fun _ => .pure rfl
  simp

theorem block_sim {α : Type} [Sh α] {m : P α} (hm : ∀ {T : Lex → Prop}, Sim g T false m m) :
    Sim g T f (block n m) (block n m) := by
  unfold block
  refine Sim.start fun s => .bindU (.expect _) (.bind (rawBlock_sim hm) fun b => .bindN .endThenConsume fun e => .pure rfl)

theorem uncheckedBlock_sim {α : Type} [Sh α] {m : P α} (hm : ∀ {T : Lex → Prop}, Sim g T false m m) :
    Sim g T f (uncheckedBlock n m) (uncheckedBlock n m) := by
  unfold uncheckedBlock
  refine .bindN .startThenConsume fun s => .bind (rawBlock_sim hm) fun b => .bindN .endThenConsume fun e => .pure rfl

theorem arrayElements_sim {α : Type} [Sh α] {m : P α} (hm : ∀ {T : Lex → Prop}, Sim g T false m m) :
    Sim g T false (arrayElements n m) (arrayElements n m) := by
  unfold arrayElements
  refine Sim.tok fun _ => Sim.ite Iff.rfl (fun _ => .pure rfl) fun _ => hm.bind fun x => Sim.loop (fun y => ?_) _ rfl
  refine Sim.tok fun _ => ?_
  split
  · exact .bindU .consume (hm.bind fun z => .pure (by simp))
  · exact .pure rfl
  · exact .error_pure
macro_rules | `(tactic| sim_known) => `(tactic| ((with_reducible refine rawBlock_sim ?_); intro _; sim_known))
macro_rules | `(tactic| sim_known) => `(tactic| ((with_reducible refine block_sim ?_); intro _; sim_known))
macro_rules | `(tactic| sim_known) => `(tactic| ((with_reducible refine uncheckedBlock_sim ?_); intro _; sim_known))
macro_rules | `(tactic| sim_known) => `(tactic| ((with_reducible refine arrayElements_sim ?_); intro _; sim_known))
theorem stmtBlock_sim : Sim g T f (stmtBlock n R) (stmtBlock n R) := by unfold stmtBlock; sim
theorem propertyList_sim : Sim g T false (propertyList n R) (propertyList n R) := by unfold propertyList; sim
theorem patternIdentifier_sim : Sim g T f patternIdentifier patternIdentifier := by unfold patternIdentifier; sim
theorem patternAssign_sim (p : Pattern) {p' : Pattern} (h : p' = sh g.length p) :
    Sim g T false (patternAssign R p) (patternAssign R p') := by subst h; unfold patternAssign; sim
macro_rules | `(tactic| sim_known) => `(tactic| with_reducible exact stmtBlock_sim)
macro_rules | `(tactic| sim_known) => `(tactic| with_reducible exact propertyList_sim)
macro_rules | `(tactic| sim_known) => `(tactic| with_reducible exact patternIdentifier_sim)
macro_rules | `(tactic| sim_known) => `(tactic| ((with_reducible refine patternAssign_sim _ ?_); sh_close))
theorem patternObject_sim : Sim g T f (patternObject n R) (patternObject n R) := by unfold patternObject; sim
macro_rules | `(tactic| sim_known) => `(tactic| with_reducible exact patternObject_sim)
theorem patternParam_sim : Sim g T false (patternParam n R) (patternParam n R) := by unfold patternParam; sim
macro_rules | `(tactic| sim_known) => `(tactic| with_reducible exact patternParam_sim)
theorem patternArrayElement_sim : Sim g T false (patternArrayElement n R) (patternArrayElement n R) := by unfold patternArrayElement; sim
macro_rules | `(tactic| sim_known) => `(tactic| with_reducible exact patternArrayElement_sim)
theorem patternArray_sim : Sim g T f (patternArray n R) (patternArray n R) := by unfold patternArray; sim
macro_rules | `(tactic| sim_known) => `(tactic| with_reducible exact patternArray_sim)
theorem patternParse_sim : Sim g T false (patternParse n R) (patternParse n R) := by unfold patternParse; sim
macro_rules | `(tactic| sim_known) => `(tactic| with_reducible exact patternParse_sim)
theorem restElement_sim : Sim g T false (restElement) (restElement) := by unfold restElement; sim
macro_rules | `(tactic| sim_known) => `(tactic| with_reducible exact restElement_sim)
theorem params_sim : Sim g T false (params n R) (params n R) := by unfold params; sim
macro_rules | `(tactic| sim_known) => `(tactic| with_reducible exact params_sim)
theorem functionParse_sim (k : NameKind) : Sim g T false (functionParse n R k) (functionParse n R k) := by unfold functionParse; sim
macro_rules | `(tactic| sim_known) => `(tactic| with_reducible exact functionParse_sim _)
theorem methodParse_sim : Sim g T false (methodParse n R) (methodParse n R) := by unfold methodParse; sim
macro_rules | `(tactic| sim_known) => `(tactic| with_reducible exact methodParse_sim)
theorem propertyValue_sim (a : Nat) {a' : Nat} (key : PropKey) {key' : PropKey} (h : a' = sh g.length a) (h' : key' = sh g.length key) :
    Sim g T false (propertyValue n R a key) (propertyValue n R a' key') := by subst h; subst h'; unfold propertyValue; sim
macro_rules | `(tactic| sim_known) => `(tactic| ((with_reducible refine propertyValue_sim _ _ ?_ ?_); (all_goals sh_close)))
theorem property_sim : Sim g T false (property n R) (property n R) := by unfold property; sim
macro_rules | `(tactic| sim_known) => `(tactic| with_reducible exact property_sim)
theorem callArguments_sim : Sim g T false (callArguments n R) (callArguments n R) := by unfold callArguments; sim
macro_rules | `(tactic| sim_known) => `(tactic| with_reducible exact callArguments_sim)
theorem arrowFunctionExpression_sim (a : Nat) {a' : Nat} (ps : List Expr) {ps' : List Expr} (h : a' = sh g.length a) (h' : ps' = sh g.length ps) :
    Sim g T false (arrowFunctionExpression n R a ps) (arrowFunctionExpression n R a' ps') := by
  subst h; subst h'; unfold arrowFunctionExpression; sim
macro_rules | `(tactic| sim_known) => `(tactic| ((with_reducible refine arrowFunctionExpression_sim _ _ ?_ ?_); (all_goals sh_close)))
theorem parenExpression_sim : Sim g T f (parenExpression n R) (parenExpression n R) := by unfold parenExpression; sim
macro_rules | `(tactic| sim_known) => `(tactic| with_reducible exact parenExpression_sim)
theorem objectExpression_sim : Sim g T f (objectExpression n R) (objectExpression n R) := by unfold objectExpression; sim
macro_rules | `(tactic| sim_known) => `(tactic| with_reducible exact objectExpression_sim)
theorem arrayExpression_sim : Sim g T f (arrayExpression n R) (arrayExpression n R) := by unfold arrayExpression; sim
macro_rules | `(tactic| sim_known) => `(tactic| with_reducible exact arrayExpression_sim)
theorem templateString_sim : Sim g T f (templateString) (templateString) := by unfold templateString; sim
macro_rules | `(tactic| sim_known) => `(tactic| with_reducible exact templateString_sim)
theorem templateLiteral_sim : Sim g T f (templateLiteral n R) (templateLiteral n R) := by unfold templateLiteral; sim
macro_rules | `(tactic| sim_known) => `(tactic| with_reducible exact templateLiteral_sim)
theorem classMemberValue_sim (a : Nat) {a' : Nat} (b : Bool) (kd : MethodKind) (key : PropKey) {key' : PropKey} (h : a' = sh g.length a)
    (h' : key' = sh g.length key) : Sim g T false (classMemberValue n R a b kd key) (classMemberValue n R a' b kd key') := by
  subst h; subst h'; unfold classMemberValue; sim
macro_rules | `(tactic| sim_known) => `(tactic| ((with_reducible refine classMemberValue_sim _ _ _ _ ?_ ?_); (all_goals sh_close)))
theorem classMember_sim : Sim g T false (classMember n R) (classMember n R) := by unfold classMember; sim
macro_rules | `(tactic| sim_known) => `(tactic| with_reducible exact classMember_sim)
theorem classParse_sim (k : NameKind) : Sim g T false (classParse n R k) (classParse n R k) := by unfold classParse; sim
macro_rules | `(tactic| sim_known) => `(tactic| with_reducible exact classParse_sim _)
theorem literalExpr_sim (v : Bytes → Literal) : Sim g T f (literalExpr v) (literalExpr v) := by unfold literalExpr; sim
macro_rules | `(tactic| sim_known) => `(tactic| with_reducible exact literalExpr_sim _)


theorem accessor_start {src : Bytes} {l : Lex} (h : Lexing src l) (ht : l.token = .Accessor) : l.accessorStart ≠ 0 := by
  obtain ⟨s, c, w, h1, h2, -, -, -⟩ := h.accessor_text ht
  intro h0
  have h3 : l.tokenAsStr.length = 1 + s.length + l.accessorAsStr.length := by rw [h1]; simp; omega
  have h4 : l.tokenAsStr.length ≤ l.accessorAsStr.length := by
    unfold Lex.tokenAsStr Lex.accessorAsStr Lex.sliceSource
    rw [h0]
    simp
    omega
  omega

theorem Rel.accStr {l l' : Lex} (h : Rel g f l l') (ht : l.token = .Accessor) : l'.accessorAsStr = l.accessorAsStr := by
  obtain ⟨src, hx⟩ := h.lexing
  have h0 := accessor_start hx ht
  have h1 : l'.accessorStart = l.accessorStart + g.length := by rw [h.eq]; simp [Lex.under, h0]
  rw [Lex.accessorAsStr, Lex.accessorAsStr, h1, h.index]
  rw [h.eq]
  exact Lex.under_slice (φ := id) l _ _

theorem Sim.accStr {β : Type} [Sh β] {F F' : Bytes → P β} (ht : ∀ l, T l → l.token = .Accessor) (h : ∀ t, Sim g T f (F t) (F' t)) :
    Sim g T f (accStr >>= F) (accStr >>= F') :=
  Sim.read (fun x => (h x).weaken fun _ h => h.1) fun l l' hr hl => hr.accStr (ht l hl)

theorem regularExpression_sim (ht : ∀ l, T l → l.token = .OperatorDivision) : Sim g T f regularExpression regularExpression := by
  unfold regularExpression
  refine Sim.start fun s => ?_
  have hs : ∀ v : Bytes, Sim g Any f (do
      let e ← stop
      expect .LiteralRegEx
      pure (Expr.lit ⟨s, e⟩ (.RegEx v))) (do
      let e ← stop
      expect .LiteralRegEx
      pure (Expr.lit ⟨s + g.length, e⟩ (.RegEx v))) := fun v => by sim
  constructor
  · intro s0 b s' hr he
    obtain ⟨v, t, h1, h2⟩ := P.bind_ok.1 hr
    have h3 : t.errors = s0.errors := by
      cases hc : s0.lex.readRegularExpression <;> simp [readRegex, hc, Out.bind] at h1
      rw [← h1.2]
    exact (hs v).keeps _ _ _ h2 (by rw [h3]; exact he)
  · intro l l' hr hl b l1 hb
    obtain ⟨v, ⟨l2, es⟩, h1, h2⟩ := P.bind_ok.1 hb
    obtain ⟨src, hx⟩ := hr.lexing
    have hi : l.index ≠ 0 := by
      have h3 := hx.punct_text (p := bs!"/") (by rw [ht l hl]; simp [puncts])
      intro h0
      unfold Lex.tokenAsStr Lex.sliceSource at h3
      rw [h0] at h3
      simp at h3
    have e : ∀ a, ({ l.under g id with asi := a } : Lex).readRegularExpression =
        (l.readRegularExpression).bind fun (l', v) => .ok ({ l'.under g id with asi := a }, v) := by
      intro a
      have := Lex.under_readRegularExpression (g := g) (φ := id) (l := { l with asi := a }) hi
      rw [show ({ l.under g id with asi := a } : Lex) = ({ l with asi := a } : Lex).under g id from rfl, this]
      unfold Lex.readRegularExpression
      cases Lex.regexGo false l.rest l.index with
      | none => rfl
      | some x =>
        obtain ⟨t, r, i⟩ := x
        cases t <;> rfl
    cases hc : l.readRegularExpression <;> simp [readRegex, hc, Out.bind] at h1
    rename_i x
    obtain ⟨l3, v'⟩ := x
    obtain ⟨rfl, rfl, rfl⟩ := h1
    have ha : f = false → l'.asi = l3.asi := by
      intro hf
      rw [hr.asi hf]
      unfold Lex.readRegularExpression at hc
      cases hg : Lex.regexGo false l.rest l.index with
      | none => rw [hg] at hc; cases hc
      | some x =>
        obtain ⟨t, r, i⟩ := x
        rw [hg] at hc
        cases t <;> cases hc <;> rfl
    obtain ⟨l1', h5, h6⟩ := (hs v').run l3 { l3.under g id with asi := l'.asi }
      ⟨rfl, ha, src, hx.regex hc⟩ trivial b l1 h2
    refine ⟨l1', ?_, h6⟩
    rw [P.bind_run]
    have : readRegex ⟨l', []⟩ = .ok (v', ⟨{ l3.under g id with asi := l'.asi }, []⟩) := by
      rw [hr.eq, readRegex]
      simp only [e, hc]
      rfl
    rw [this]
    exact h5

theorem runEH_sim (h : EH) (hf : f = true → h ≠ .VOID) (hr : h = .REG → ∀ l, T l → l.token = .OperatorDivision) :
    Sim g T f (runEH n R h) (runEH n R h) := by
  cases h
  case REG => exact regularExpression_sim (hr rfl)
  case VOID =>
    cases f
    · unfold runEH; sim
    · exact absurd rfl (hf rfl)
  case NEW =>
    unfold runEH
    refine Sim.curLoc fun a b => Sim.bindU .consume (Sim.tok fun t => Sim.ite Iff.rfl (fun ht => ?_) fun _ => ?_)
    · subst ht
      refine Sim.accStr (fun l hl => hl.2) fun p => ?_
      have hs : Sim g Any false (do
          let pl ← curLoc
          let e ← stop
          consume
          pure (Expr.metaProp ⟨a, e⟩ ⟨⟨a, b⟩, bs!"new"⟩ ⟨pl, p⟩)) (do
          let pl ← curLoc
          let e ← stop
          consume
          pure (Expr.metaProp ⟨a + g.length, e⟩ ⟨⟨a + g.length, b + g.length⟩, bs!"new"⟩ ⟨pl, p⟩)) := by sim
      exact Sim.ite Iff.rfl (fun _ => .error_bind hs.keeps) fun _ => hs.any
    · sim
  all_goals (unfold runEH; sim)

theorem runNH_sim (h : NH) (left : Expr) {left' : Expr} (e : left' = sh g.length left)
    (ht : ∀ l, T l → NHTok h l.token = true) : Sim g T false (runNH n R h left) (runNH n R h left') := by
  subst e
  cases h
  case ACCS =>
    unfold runNH
    exact Sim.accStr (fun l hl => by simpa [NHTok] using ht l hl) fun p => by sim
  case ARRW =>
    unfold runNH
    refine Sim.bindU .consume ?_
    dsimp only
    refine arrowFunctionExpression_sim _ _ (by sh_close) ?_
    cases left <;> first | rfl | (simp only [Sh.sh, shiftExpr, shiftExprs_eq])
  case «postfix» op =>
    unfold runNH
    refine Sim.stop fun e => Sim.bindU .consume (Sim.ite ?_ (fun _ => .error_pure) fun _ => ?_)
    · rw [show sh g.length left = shiftExpr g.length left from rfl, shiftExpr_lvalue]
    · sim
  case assign op =>
    unfold runNH
    have hs : Sim g Any false (do
        let right ← R.expr .DEF .B1
        pure (Expr.binary ⟨left.loc.start, right.loc.stop⟩ op left right)) (do
        let right ← R.expr .DEF .B1
        pure (Expr.binary ⟨(sh g.length left).loc.start, right.loc.stop⟩ op (sh g.length left) right)) := by sim
    refine Sim.bindU .consume (Sim.ite ?_ (fun _ => .error_bind hs.keeps) fun _ => hs)
    rw [show sh g.length left = shiftExpr g.length left from rfl, shiftExpr_lvalue]
  all_goals (unfold runNH; sim)


theorem nestedExpression_sim (lvl : Lvl) (left : Expr) {left' : Expr} (h : left' = sh g.length left) :
    Sim g T false (nestedExpression n R lvl left) (nestedExpression n R lvl left') := by
  unfold nestedExpression
  refine Sim.loop (fun x => Sim.asi fun a => Sim.tok fun t => ?_) _ h
  cases hh : nestedHandler lvl a t with
  | none => exact .pure rfl
  | some h =>
    refine Sim.bind (runNH_sim h x rfl fun l hl => ?_) fun e => .pure rfl
    rw [hl.2]
    exact nestedHandler_tok hh
macro_rules | `(tactic| sim_known) => `(tactic| ((with_reducible refine nestedExpression_sim _ _ ?_); (all_goals sh_close)))

theorem expression_sim (c : Ctx) (lvl : Lvl) : Sim g T false (expression n R c lvl) (expression n R c lvl) := by
  unfold expression
  refine Sim.tok fun t => Sim.bind (runEH_sim _ nofun fun h l hl => ?_) fun e => nestedExpression_sim _ _ rfl
  rw [hl.2]
  exact (exprHandler_op c t).2 h
theorem variableDeclarator_sim : Sim g T false (variableDeclarator n R) (variableDeclarator n R) := by unfold variableDeclarator; sim
macro_rules | `(tactic| sim_known) => `(tactic| with_reducible exact variableDeclarator_sim)
theorem variableDeclarators_sim : Sim g T false (variableDeclarators n R) (variableDeclarators n R) := by unfold variableDeclarators; sim
macro_rules | `(tactic| sim_known) => `(tactic| with_reducible exact variableDeclarators_sim)
theorem variableDeclarationStatement_sim (k : DeclKind) : Sim g T f (variableDeclarationStatement n R k) (variableDeclarationStatement n R k) := by
  unfold variableDeclarationStatement; sim
macro_rules | `(tactic| sim_known) => `(tactic| with_reducible exact variableDeclarationStatement_sim _)
theorem returnStatement_sim : Sim g T f (returnStatement R) (returnStatement R) := by unfold returnStatement; sim
macro_rules | `(tactic| sim_known) => `(tactic| with_reducible exact returnStatement_sim)
theorem jumpStatement_sim : Sim g T f (jumpStatement) (jumpStatement) := by unfold jumpStatement; sim
macro_rules | `(tactic| sim_known) => `(tactic| with_reducible exact jumpStatement_sim)
theorem throwStatement_sim : Sim g T f (throwStatement R) (throwStatement R) := by unfold throwStatement; sim
macro_rules | `(tactic| sim_known) => `(tactic| with_reducible exact throwStatement_sim)
theorem catchClause_sim : Sim g T f (catchClause n R) (catchClause n R) := by unfold catchClause; sim
macro_rules | `(tactic| sim_known) => `(tactic| with_reducible exact catchClause_sim)
theorem tryStatement_sim : Sim g T f (tryStatement n R) (tryStatement n R) := by unfold tryStatement; sim
macro_rules | `(tactic| sim_known) => `(tactic| with_reducible exact tryStatement_sim)
theorem ifStatement_sim : Sim g T f (ifStatement R) (ifStatement R) := by unfold ifStatement; sim
macro_rules | `(tactic| sim_known) => `(tactic| with_reducible exact ifStatement_sim)
theorem whileStatement_sim : Sim g T f (whileStatement R) (whileStatement R) := by unfold whileStatement; sim
macro_rules | `(tactic| sim_known) => `(tactic| with_reducible exact whileStatement_sim)
theorem doStatement_sim : Sim g T f (doStatement R) (doStatement R) := by unfold doStatement; sim
macro_rules | `(tactic| sim_known) => `(tactic| with_reducible exact doStatement_sim)
theorem forInit_sim (k : DeclKind) : Sim g T f (forInit n R k) (forInit n R k) := by unfold forInit; sim
macro_rules | `(tactic| sim_known) => `(tactic| with_reducible exact forInit_sim _)
theorem forRest_sim (s : Nat) {s' : Nat} (i : Option ForInit) {i' : Option ForInit} (hs : s' = sh g.length s) (hi : i' = sh g.length i) : Sim g T false (forRest R s i) (forRest R s' i') := by
  subst hs; subst hi; unfold forRest; sim
macro_rules | `(tactic| sim_known) => `(tactic| ((with_reducible refine forRest_sim _ _ ?_ ?_); (all_goals sh_close)))
theorem forEachRest_sim (s : Nat) {s' : Nat} (hs : s' = sh g.length s) : Sim g T false (forEachRest R s) (forEachRest R s') := by
  subst hs; unfold forEachRest; sim
macro_rules | `(tactic| sim_known) => `(tactic| ((with_reducible refine forEachRest_sim _ ?_); (all_goals sh_close)))
theorem forAfterInit_sim (s : Nat) {s' : Nat} (i : ForInit) {i' : ForInit} (hs : s' = sh g.length s) (hi : i' = sh g.length i) : Sim g T false (forAfterInit R s i) (forAfterInit R s' i') := by
  subst hs; subst hi; unfold forAfterInit; sim
macro_rules | `(tactic| sim_known) => `(tactic| ((with_reducible refine forAfterInit_sim _ _ ?_ ?_); (all_goals sh_close)))
theorem forStatement_sim : Sim g T f (forStatement n R) (forStatement n R) := by
  unfold forStatement
  refine Sim.bindN .startThenConsume fun s => Sim.bindU (.expect _) (Sim.tok fun t => ?_)
  split
  · sim
  · sim
  · sim
  · sim
  · refine Sim.bind (Rec.Moved.expr _ _) fun e => ?_
    cases e
    case binary w op l r =>
      cases op
      case In => simp only [Sh.sh, shiftExpr]; sim
      all_goals exact forAfterInit_sim _ _ rfl (by sh_close)
    all_goals exact forAfterInit_sim _ _ rfl (by sh_close)
macro_rules | `(tactic| sim_known) => `(tactic| with_reducible exact forStatement_sim)
theorem switchCase_sim : Sim g T false (switchCase n R) (switchCase n R) := by unfold switchCase; sim
macro_rules | `(tactic| sim_known) => `(tactic| with_reducible exact switchCase_sim)
theorem switchStatement_sim : Sim g T f (switchStatement n R) (switchStatement n R) := by unfold switchStatement; sim
macro_rules | `(tactic| sim_known) => `(tactic| with_reducible exact switchStatement_sim)
theorem labeledOrExpressionStatement_sim : Sim g T f (labeledOrExpressionStatement n R) (labeledOrExpressionStatement n R) := by unfold labeledOrExpressionStatement; sim
macro_rules | `(tactic| sim_known) => `(tactic| with_reducible exact labeledOrExpressionStatement_sim)
theorem expressionStatement_sim (e : Expr) {e' : Expr} (he : e' = sh g.length e) : Sim g T false (expressionStatement n R e) (expressionStatement n R e') := by
  subst he; unfold expressionStatement; sim
macro_rules | `(tactic| sim_known) => `(tactic| ((with_reducible refine expressionStatement_sim _ ?_); (all_goals sh_close)))
theorem stringContent_sim (v : Bytes) : Sim g T false (stringContent v) (stringContent v) := by unfold stringContent; sim
macro_rules | `(tactic| sim_known) => `(tactic| with_reducible exact stringContent_sim _)
theorem importNamed_sim (a : List ImportSpec) {a' : List ImportSpec} (ha : a' = sh g.length a) : Sim g T false (importNamed n a) (importNamed n a') := by
  subst ha; unfold importNamed; sim
macro_rules | `(tactic| sim_known) => `(tactic| ((with_reducible refine importNamed_sim _ ?_); (all_goals sh_close)))
theorem importSecond_sim (a : List ImportSpec) {a' : List ImportSpec} (ha : a' = sh g.length a) : Sim g T false (importSecond n a) (importSecond n a') := by
  subst ha; unfold importSecond; sim
macro_rules | `(tactic| sim_known) => `(tactic| ((with_reducible refine importSecond_sim _ ?_); (all_goals sh_close)))
theorem importFrom_sim (s : Nat) {s' : Nat} (a : List ImportSpec) {a' : List ImportSpec} (hs : s' = sh g.length s) (ha : a' = sh g.length a) : Sim g T false (importFrom  s a) (importFrom  s' a') := by
  subst hs; subst ha; unfold importFrom; sim
macro_rules | `(tactic| sim_known) => `(tactic| ((with_reducible refine importFrom_sim _ _ ?_ ?_); (all_goals sh_close)))
theorem importDeclaration_sim : Sim g T f (importDeclaration n R) (importDeclaration n R) := by unfold importDeclaration; sim
macro_rules | `(tactic| sim_known) => `(tactic| with_reducible exact importDeclaration_sim)


theorem stmtHandler_fresh (t : Token) : stmtHandler t ≠ .E .VOID := by
  revert t
  exact forall_token (by decide +kernel)

theorem statement_sim : Sim g T f (statement n R) (statement n R) := by
  unfold statement
  refine Sim.tok fun t => ?_
  generalize hh : stmtHandler t = h
  by_cases hE : ∃ x, h = .E x
  · obtain ⟨x, rfl⟩ := hE
    unfold runSH
    refine Sim.bind (runEH_sim x (fun _ e => stmtHandler_fresh t (hh.trans (by rw [e]))) fun e l hl => ?_) fun e => expressionStatement_sim _ rfl
    rw [hl.2]
    exact (stmtHandler_op t).2 (hh.trans (by rw [e]))
  · cases h <;> first | (exfalso; exact hE ⟨_, rfl⟩) | (unfold runSH; sim)

instance : Rec.Moved g (body n R) := ⟨fun c lvl _ => expression_sim c lvl, statement_sim, patternArray_sim, property_sim⟩

instance procs_moved {g : Bytes} : ∀ k, Rec.Moved g (procs k)
  | 0 => ⟨fun _ _ _ => .timeout, .timeout, .timeout, .timeout⟩
  | k + 1 => by
    have := procs_moved (g := g) k
    rw [procs]
    infer_instance

theorem Sim.vacuous {α : Type} [Sh α] {m m' : P α} (hk : ∀ s a s1, m s = .ok (a, s1) → s.errors ≠ [] → s1.errors ≠ []) (h : ∀ l, ¬ T l) :
    Sim g T f m m' := ⟨hk, fun l _ _ ht => absurd ht (h l)⟩

theorem program_sim : Sim g (fun l => l.token ≠ .EndOfProgram) f (program n R) (program n R) := by
  unfold program
  refine Sim.tok fun t => .ite Iff.rfl (fun ht => .vacuous (fun s a s1 h he => by cases h; exact he) fun l hl => hl.1 (hl.2.trans ht))
    fun _ => ?_
  sim

/-- The lexer behind white space and comments. -/
theorem new_gap {src : Bytes} {b : Bool} (hg : Gap false g src b) {l : Lex} (h : Lex.new src = .ok l) :
    ∃ l', Lex.new (g ++ src) = .ok l' ∧ l' = { l.under g id with asi := l'.asi } := by
  have h1 : Lex.new (g ++ src) = Lex.scanAll { Lex.init (g ++ src) with asi := .NoSemicolon } := Lex.consume_eq _
  rw [Lex.scanAll_gap hg _ rfl rfl] at h1
  have h2 := Lex.scan_fresh (g := g) (src.length + 1) (Lex.init src) (asiFlag b) h
  rw [h1, ← Lex.scanAll_tokenStart _ g.length]
  have e : ({ ({ (Lex.init (g ++ src) : Lex) with asi := .NoSemicolon } : Lex).moveTo src (0 + g.length) with
      asi := asiFlag b, tokenStart := g.length } : Lex) = { (Lex.init src).under g id with asi := asiFlag b } := by
    simp [Lex.moveTo, Lex.init, Lex.under]
  have h3 : Lex.scanAll ({ (Lex.init src).under g id with asi := asiFlag b } : Lex) =
      Lex.scan (src.length + 1) { (Lex.init src).under g id with asi := asiFlag b } := rfl
  rw [← h3, ← e] at h2
  exact h2

theorem parse_gap {src : Bytes} {b : Bool} (hg : Gap false g src b) {fuel : Nat} {m : List Stmt} (h : parse fuel src = .ok (.ok m)) :
    parse fuel (g ++ src) = .ok (.ok (shiftStmts g.length m)) := by
  unfold parse runParser at h ⊢
  cases hn : Lex.new src with
  | ok l =>
    obtain ⟨l', h1, h2⟩ := new_gap hg hn
    rw [hn] at h
    rw [h1]
    cases hp : program fuel (procs fuel) ⟨l, []⟩ with
    | ok x =>
      obtain ⟨m', l1, es⟩ := x
      simp only [Out.bind, hp] at h ⊢
      have hes : es = [] ∧ m' = m := by
        by_cases he : es.length = 0
        · simp only [he, if_true] at h
          exact ⟨List.length_eq_zero_iff.1 he, by simpa using h⟩
        · simp [he] at h
      obtain ⟨rfl, rfl⟩ := hes
      by_cases ht : l.token = .EndOfProgram
      · have ht' : l'.token = .EndOfProgram := by rw [h2]; exact ht
        have h3 : m' = [] := by
          unfold program at hp
          rw [P.bind_run] at hp
          simp only [tok, Out.bind, ht, if_true] at hp
          cases hp
          rfl
        have h4 : program fuel (procs fuel) ⟨l', []⟩ = .ok ([], ⟨l', []⟩) := by
          unfold program
          rw [P.bind_run]
          simp only [tok, Out.bind, ht', if_true]
          rfl
        rw [h4, h3]
        rfl
      · obtain ⟨l1', h3, -⟩ := (program_sim (g := g) (n := fuel) (R := procs fuel) (f := true)).run l l' ⟨h2, nofun, src, .new hn⟩ ht _ _ hp
        rw [h3, show sh g.length m' = m'.map (shiftStmt g.length) from rfl, ← shiftStmts_eq]
        rfl
    | _ => simp [Out.bind, hp] at h
  | _ => simp [hn, Out.bind] at h

end Ratel
