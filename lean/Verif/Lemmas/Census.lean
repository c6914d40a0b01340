import Verif.Lemmas.Breadth
import Verif.Lemmas.FormedBare
/-! The number of nodes of a tree, compared with the length of the source: by induction over the grammar. -/
namespace Ratel
open Spec
set_option linter.unusedSimpArgs false
set_option linter.unusedTactic false
set_option linter.unusedVariables false

/-- The number of nodes of a tree. -/
def census (n : Node) : Nat := n.all.length

/-- The number of nodes of trees. -/
def censuses : List Node → Nat
  | [] => 0
  | n :: l => census n + censuses l

theorem censuses_nil : censuses [] = 0 := rfl
theorem censuses_cons (n : Node) (l : List Node) : censuses (n :: l) = census n + censuses l := rfl
theorem censuses_append (a b : List Node) : censuses (a ++ b) = censuses a + censuses b := by
  induction a <;> simp [censuses, *, Nat.add_assoc]
theorem censuses_flatMap (l : List Node) : (l.flatMap Node.all).length = censuses l := by
  induction l <;> simp [censuses, census, *]

theorem census_eq (n : Node) : census n = censuses n.children + 1 := by
  unfold census
  rw [Node.all_eq, List.length_cons, censuses_flatMap]

theorem census_expr_void {u1} : census (.expr (.void u1)) = censuses ([]) + 1 := census_eq _
theorem census_expr_this {u1} : census (.expr (.this u1)) = censuses ([]) + 1 := census_eq _
theorem census_expr_ident {u1 u2} : census (.expr (.ident u1 u2)) = censuses ([]) + 1 := census_eq _
theorem census_expr_lit {u1 u2} : census (.expr (.lit u1 u2)) = censuses ([]) + 1 := census_eq _
theorem census_expr_seq {u1 body} : census (.expr (.seq u1 body)) = censuses (body.map .expr) + 1 := census_eq _
theorem census_expr_array {u1 body} : census (.expr (.array u1 body)) = censuses (body.map .expr) + 1 := census_eq _
theorem census_expr_member {u1 o u2} : census (.expr (.member u1 o u2)) = censuses ([.expr o]) + 1 := census_eq _
theorem census_expr_cmember {u1 o p} : census (.expr (.cmember u1 o p)) = censuses ([.expr o, .expr p]) + 1 := census_eq _
theorem census_expr_metaProp {u1 u2 u3} : census (.expr (.metaProp u1 u2 u3)) = censuses ([]) + 1 := census_eq _
theorem census_expr_call {u1 c args} : census (.expr (.call u1 c args)) = censuses (.expr c :: args.map .expr) + 1 := census_eq _
theorem census_expr_binary {u1 u2 a b} : census (.expr (.binary u1 u2 a b)) = censuses ([.expr a, .expr b]) + 1 := census_eq _
theorem census_expr_prefix {u1 u2 a} : census (.expr (.prefix u1 u2 a)) = censuses ([.expr a]) + 1 := census_eq _
theorem census_expr_postfix {u1 u2 a} : census (.expr (.postfix u1 u2 a)) = censuses ([.expr a]) + 1 := census_eq _
theorem census_expr_cond {u1 t c a} : census (.expr (.cond u1 t c a)) = censuses ([.expr t, .expr c, .expr a]) + 1 := census_eq _
theorem census_expr_template {u1 es u2} : census (.expr (.template u1 es u2)) = censuses (es.map .expr) + 1 := census_eq _
theorem census_expr_tagged {u1 t u2 es u3} : census (.expr (.tagged u1 t u2 es u3)) = censuses (.expr t :: es.map .expr) + 1 := census_eq _
theorem census_expr_spread {u1 a} : census (.expr (.spread u1 a)) = censuses ([.expr a]) + 1 := census_eq _
theorem census_expr_arrowE {u1 ps b} : census (.expr (.arrowE u1 ps b)) = censuses (ps.map .pat ++ [.expr b]) + 1 := census_eq _
theorem census_expr_arrowB_mk {u1 ps u2 body} : census (.expr (.arrowB u1 ps (.mk u2 body))) = censuses (ps.map .pat ++ body.map .stmt) + 1 := census_eq _
theorem census_expr_object {u1 ps} : census (.expr (.object u1 ps)) = censuses (ps.map .prop) + 1 := census_eq _
theorem census_expr_function {u1 f} : census (.expr (.function u1 f)) = censuses ([.func f]) + 1 := census_eq _
theorem census_expr_class {u1 c} : census (.expr (.class u1 c)) = censuses ([.cls c]) + 1 := census_eq _
theorem census_key_computed {u1 e} : census (.key (.computed u1 e)) = censuses ([.expr e]) + 1 := census_eq _
theorem census_key_literal {u1 u2} : census (.key (.literal u1 u2)) = censuses ([]) + 1 := census_eq _
theorem census_key_binary {u1 u2} : census (.key (.binary u1 u2)) = censuses ([]) + 1 := census_eq _
theorem census_prop_shorthand {u1 u2} : census (.prop (.shorthand u1 u2)) = censuses ([]) + 1 := census_eq _
theorem census_prop_literal {u1 k v} : census (.prop (.literal u1 k v)) = censuses ([.key k, .expr v]) + 1 := census_eq _
theorem census_prop_method {u1 k u2 f} : census (.prop (.method u1 k u2 f)) = censuses ([.key k, .func f]) + 1 := census_eq _
theorem census_prop_spread {u1 e} : census (.prop (.spread u1 e)) = censuses ([.expr e]) + 1 := census_eq _
theorem census_pat_void {u1} : census (.pat (.void u1)) = censuses ([]) + 1 := census_eq _
theorem census_pat_ident {u1 u2} : census (.pat (.ident u1 u2)) = censuses ([]) + 1 := census_eq _
theorem census_pat_object {u1 ps} : census (.pat (.object u1 ps)) = censuses (ps.map .prop) + 1 := census_eq _
theorem census_pat_array {u1 es} : census (.pat (.array u1 es)) = censuses (es.map .pat) + 1 := census_eq _
theorem census_pat_rest {u1 u2} : census (.pat (.rest u1 u2)) = censuses ([]) + 1 := census_eq _
theorem census_pat_assign {u1 l r} : census (.pat (.assign u1 l r)) = censuses ([.pat l, .expr r]) + 1 := census_eq _
theorem census_func_mk_mk {u1 u2 ps u3 body} : census (.func (.mk u1 u2 ps (.mk u3 body))) = censuses (ps.map .pat ++ body.map .stmt) + 1 := census_eq _
theorem census_cls_mk {u1 super u2 ms} : census (.cls (.mk u1 super u2 ms)) = censuses (super.toList.map .expr ++ ms.map .member) + 1 := census_eq _
theorem census_member_error {u1} : census (.member (.error u1)) = censuses ([]) + 1 := census_eq _
theorem census_member_method {u1 u2 k u3 u4 f} : census (.member (.method u1 u2 k u3 u4 f)) = censuses ([.key k, .func f]) + 1 := census_eq _
theorem census_member_literal {u1 u2 k v} : census (.member (.literal u1 u2 k v)) = censuses ([.key k, .expr v]) + 1 := census_eq _
theorem census_block_mk {u1 body} : census (.block (.mk u1 body)) = censuses (body.map .stmt) + 1 := census_eq _
theorem census_stmt_empty {u1} : census (.stmt (.empty u1)) = censuses ([]) + 1 := census_eq _
theorem census_stmt_debugger {u1} : census (.stmt (.debugger u1)) = censuses ([]) + 1 := census_eq _
theorem census_stmt_expr {u1 e} : census (.stmt (.expr u1 e)) = censuses ([.expr e]) + 1 := census_eq _
theorem census_stmt_decl {u1 u2 ds} : census (.stmt (.decl u1 u2 ds)) = censuses (ds.map .declarator) + 1 := census_eq _
theorem census_stmt_ret {u1 v} : census (.stmt (.ret u1 v)) = censuses (v.toList.map .expr) + 1 := census_eq _
theorem census_stmt_brk {u1 u2} : census (.stmt (.brk u1 u2)) = censuses ([]) + 1 := census_eq _
theorem census_stmt_cont {u1 u2} : census (.stmt (.cont u1 u2)) = censuses ([]) + 1 := census_eq _
theorem census_stmt_throw {u1 e} : census (.stmt (.throw u1 e)) = censuses ([.expr e]) + 1 := census_eq _
theorem census_stmt_ifS {u1 t c a} : census (.stmt (.ifS u1 t c a)) = censuses ([.expr t, .stmt c] ++ a.toList.map .stmt) + 1 := census_eq _
theorem census_stmt_whileS {u1 t b} : census (.stmt (.whileS u1 t b)) = censuses ([.expr t, .stmt b]) + 1 := census_eq _
theorem census_stmt_doS {u1 b t} : census (.stmt (.doS u1 b t)) = censuses ([.stmt b, .expr t]) + 1 := census_eq _
theorem census_stmt_forS {u1 i t u b} : census (.stmt (.forS u1 i t u b)) = censuses (i.toList.map .forInit ++ t.toList.map .expr ++ u.toList.map .expr ++ [.stmt b]) + 1 := census_eq _
theorem census_stmt_forIn {u1 i r b} : census (.stmt (.forIn u1 i r b)) = censuses ([.forInit i, .expr r, .stmt b]) + 1 := census_eq _
theorem census_stmt_forOf {u1 i r b} : census (.stmt (.forOf u1 i r b)) = censuses ([.forInit i, .expr r, .stmt b]) + 1 := census_eq _
theorem census_stmt_tryS {u1 b h f} : census (.stmt (.tryS u1 b h f)) = censuses ([.block b] ++ h.toList.map .catch ++ f.toList.map .block) + 1 := census_eq _
theorem census_stmt_block {u1 body} : census (.stmt (.block u1 body)) = censuses (body.map .stmt) + 1 := census_eq _
theorem census_stmt_labeled {u1 u2 b} : census (.stmt (.labeled u1 u2 b)) = censuses ([.stmt b]) + 1 := census_eq _
theorem census_stmt_function {u1 f} : census (.stmt (.function u1 f)) = censuses ([.func f]) + 1 := census_eq _
theorem census_stmt_class {u1 c} : census (.stmt (.class u1 c)) = censuses ([.cls c]) + 1 := census_eq _
theorem census_stmt_switch {u1 d u2 cs} : census (.stmt (.switch u1 d u2 cs)) = censuses ([.expr d, .switchBody cs]) + 1 := census_eq _
theorem census_stmt_import {u1 u2 u3} : census (.stmt (.import u1 u2 u3)) = censuses ([]) + 1 := census_eq _
theorem census_declarator_mk {u1 p i} : census (.declarator (.mk u1 p i)) = censuses (.pat p :: i.toList.map .expr) + 1 := census_eq _
theorem census_forInit_decl {u1 u2 ds} : census (.forInit (.decl u1 u2 ds)) = censuses (ds.map .declarator) + 1 := census_eq _
theorem census_forInit_expr {u1 e} : census (.forInit (.expr u1 e)) = censuses ([.expr e]) + 1 := census_eq _
theorem census_case_mk {u1 t body} : census (.case (.mk u1 t body)) = censuses (t.toList.map .expr ++ body.map .stmt) + 1 := census_eq _
theorem census_catch_mk {u1 p b} : census (.catch (.mk u1 p b)) = censuses ([.pat p, .block b]) + 1 := census_eq _
theorem census_switchBody {cs} : census (.switchBody cs) = censuses (cs.map .case) + 1 := census_eq _

/-- The number of nodes of a phrase, with something to spare. -/
def peopled : Phrase → Nat
  | .expr _ e | .whole _ e => census (.expr e) + 1
  | .commaTail es => censuses (es.map .expr) + 1
  | .arg e => census (.expr e)
  | .args es => censuses (es.map .expr)
  | .elem e => census (.expr e) - 1
  | .elems es => censuses (es.map .expr) - 1
  | .template es _ => censuses (es.map .expr) + 2
  | .templateTail es _ => censuses (es.map .expr)
  | .prop p => census (.prop p)
  | .props ps => censuses (ps.map .prop)
  | .propValue k p => census (.prop p) - census (.key k)
  | .pat p => census (.pat p) + 1
  | .param p => census (.pat p) + 1
  | .params ps => censuses (ps.map .pat)
  | .patElem p => census (.pat p) - 1
  | .patElems ps => censuses (ps.map .pat) - 1
  | .func _ f => census (.func f) + 1
  | .cls _ c => census (.cls c) + 1
  | .member m => census (.member m)
  | .memberValue _ _ k m => census (.member m) - census (.key k)
  | .membersTail ms => censuses (ms.map .member)
  | .block b => census (.block b) + 1
  | .stmtsTail ss => censuses (ss.map .stmt)
  | .stmt s => census (.stmt s)
  | .declarator d => census (.declarator d)
  | .declarators ds => censuses (ds.map .declarator)
  | .optExpr _ e => censuses (e.toList.map .expr)
  | .forInit i => census (.forInit i)
  | .switchCase c => census (.case c)
  | .cases cs => censuses (cs.map .case)
  | .caseBody ss => censuses (ss.map .stmt)
  | .catch c => census (.catch c)
  | .program ss => censuses (ss.map .stmt)

theorem param_census : ∀ {e : Expr} {p : Pattern}, paramOf e = some p → census (.pat p) = census (.expr e)
  | .ident l n, p, h => by
    cases h
    rw [census_pat_ident, census_expr_ident]
  | .binary l op a b, p, h => by
    by_cases ho : op = .Assign
    · subst ho
      rw [paramOf] at h
      cases ha : paramOf a with
      | none => rw [ha] at h; cases h
      | some q =>
        rw [ha] at h
        cases h
        have := param_census ha
        simp only [census_pat_assign, census_expr_binary, censuses_cons, censuses_nil]
        omega
    · cases op <;> first | exact absurd rfl ho | (cases h; done)
  | .void .., _, h | .this .., _, h | .lit .., _, h | .seq .., _, h | .array .., _, h | .member .., _, h | .cmember .., _, h
  | .metaProp .., _, h | .call .., _, h | .prefix .., _, h | .postfix .., _, h | .cond .., _, h | .template .., _, h
  | .tagged .., _, h | .spread .., _, h | .arrowE .., _, h | .arrowB .., _, h | .object .., _, h | .function .., _, h
  | .class .., _, h => by cases h

theorem params_census {es : List Expr} : ∀ {ps : List Pattern}, es.mapM paramOf = some ps →
    censuses (ps.map .pat) = censuses (es.map .expr) := by
  induction es with
  | nil =>
    intro ps h
    cases h
    rfl
  | cons e es ih =>
    intro ps h
    rw [List.mapM_cons] at h
    cases he : paramOf e with
    | none => rw [he] at h; cases h
    | some p =>
      cases hs : es.mapM paramOf with
      | none => rw [he, hs] at h; cases h
      | some qs =>
        rw [he, hs] at h
        cases h
        simp only [List.map_cons, censuses_cons, param_census he, ih hs]

theorem arrow_census {e : Expr} {ps : List Pattern} (h : paramsOf e = some ps) : censuses (ps.map .pat) ≤ census (.expr e) := by
  unfold paramsOf at h
  split at h
  · rw [params_census h, census_expr_seq]
    omega
  · cases hp : paramOf e with
    | none => rw [hp] at h; cases h
    | some p =>
      rw [hp] at h
      cases h
      simp only [List.map_cons, List.map_nil, censuses_cons, censuses_nil, param_census hp]
      omega

macro "people" : tactic => `(tactic| (
  simp only [peopled, censuses_nil, censuses_cons, censuses_append, List.map_cons, List.map_nil, Option.toList_some, Option.toList_none,
    census_expr_void, census_expr_this, census_expr_ident, census_expr_lit, census_expr_seq, census_expr_array, census_expr_member, census_expr_cmember, census_expr_metaProp, census_expr_call, census_expr_binary, census_expr_prefix, census_expr_postfix, census_expr_cond, census_expr_template, census_expr_tagged, census_expr_spread, census_expr_arrowE, census_expr_arrowB_mk, census_expr_object, census_expr_function, census_expr_class, census_key_computed, census_key_literal, census_key_binary, census_prop_shorthand, census_prop_literal, census_prop_method, census_prop_spread, census_pat_void, census_pat_ident, census_pat_object, census_pat_array, census_pat_rest, census_pat_assign, census_func_mk_mk, census_cls_mk, census_member_error, census_member_method, census_member_literal, census_block_mk, census_stmt_empty, census_stmt_debugger, census_stmt_expr, census_stmt_decl, census_stmt_ret, census_stmt_brk, census_stmt_cont, census_stmt_throw, census_stmt_ifS, census_stmt_whileS, census_stmt_doS, census_stmt_forS, census_stmt_forIn, census_stmt_forOf, census_stmt_tryS, census_stmt_block, census_stmt_labeled, census_stmt_function, census_stmt_class, census_stmt_switch, census_stmt_import, census_declarator_mk, census_forInit_decl, census_forInit_expr, census_case_mk, census_catch_mk, census_switchBody] at *
  try omega))

theorem peopled_le {i j : List Item} {x : Phrase} (h : G i x j) : peopled x + 2 * breadth j ≤ 2 * breadth i := by
  induction h with
  | @whole i j k e h h' ih =>
    people
  | @ident i j k w hk h  =>
    have th := h.breadth
    simp only [breadth_Identifier, delimiters, List.length_cons, List.length_nil] at th
    people
  | @«this» i j k hk h  =>
    have th := h.breadth
    simp only [breadth_This, delimiters, List.length_cons, List.length_nil] at th
    people
  | @lit i j k t w v hk h hv  =>
    have th := h.breadth
    have hl := literal_len hv
    people
  | @regex j k w a hk  =>
    simp only [breadth, itemBreadth]
    people
    by_cases hw : w.length = 0
    · rw [if_pos hw]
      omega
    · rw [if_neg hw]
      omega
  | @array i m n j k es hk h h0 h1 h2 ih1 =>
    have th := h.breadth
    simp only [breadth_BracketOpen, delimiters, List.length_cons, List.length_nil] at th
    have th2 := h2.breadth
    simp only [breadth_BracketClose, delimiters, List.length_cons, List.length_nil] at th2
    people
  | @emptyArray i m j k hk h h2  =>
    have th := h.breadth
    simp only [breadth_BracketOpen, delimiters, List.length_cons, List.length_nil] at th
    have th2 := h2.breadth
    simp only [breadth_BracketClose, delimiters, List.length_cons, List.length_nil] at th2
    people
  | @object i m n j k ps hk h h1 h2 ih1 =>
    have th := h.breadth
    simp only [breadth_BraceOpen, delimiters, List.length_cons, List.length_nil] at th
    have th2 := h2.breadth
    simp only [breadth_BraceClose, delimiters, List.length_cons, List.length_nil] at th2
    people
  | @«function» i m j k f hk h h1 ih1 =>
    have th := h.breadth
    simp only [breadth_Function, delimiters, List.length_cons, List.length_nil] at th
    people
  | @«class» i m j k c hk h h1 ih1 =>
    have th := h.breadth
    simp only [breadth_Class, delimiters, List.length_cons, List.length_nil] at th
    people
  | @«template» i j k es qs hk h ih =>
    people
  | @paren i m n j k e hk h h1 h2 ih1 =>
    have th := h.breadth
    simp only [breadth_ParenOpen, delimiters, List.length_cons, List.length_nil] at th
    have th2 := h2.breadth
    simp only [breadth_ParenClose, delimiters, List.length_cons, List.length_nil] at th2
    people
  | @newTarget i m j k hk h h1  =>
    have th := h.breadth
    simp only [breadth_OperatorNew, delimiters, List.length_cons, List.length_nil] at th
    have th1 := h1.breadth
    simp only [breadth_Accessor, delimiters, List.length_cons, List.length_nil] at th1
    people
  | @member i m j k e w hk h h1 ih =>
    have th1 := h1.breadth
    simp only [breadth_Accessor, delimiters, List.length_cons, List.length_nil] at th1
    people
  | @index i m n o j k e p hk h h1 h2 h3 ih ih2 =>
    have th1 := h1.breadth
    simp only [breadth_BracketOpen, delimiters, List.length_cons, List.length_nil] at th1
    have th3 := h3.breadth
    simp only [breadth_BracketClose, delimiters, List.length_cons, List.length_nil] at th3
    people
  | @call i m n o j k e es hk h h1 h2 h3 ih ih2 =>
    have th1 := h1.breadth
    simp only [breadth_ParenOpen, delimiters, List.length_cons, List.length_nil] at th1
    have th3 := h3.breadth
    simp only [breadth_ParenClose, delimiters, List.length_cons, List.length_nil] at th3
    people
  | @tagged i m j k e es qs hk h h1 ih ih1 =>
    people
  | @«postfix» i j k e t w a op hk h he hop ha ih =>
    have o1 : 2 ≤ tokenBreadth t := by
      unfold postfixOp at hop
      split at hop <;> first | (cases hop; done) | decide +kernel
    simp only [breadth, itemBreadth] at *
    people
  | @arrow i m n j k e ps b hk h hp h1 hb h2 ih ih2 =>
    have th1 := h1.breadth
    simp only [breadth_OperatorFatArrow, delimiters, List.length_cons, List.length_nil] at th1
    have hp' := arrow_census hp
    people
  | @arrowBlock i m n j k e ps b hk h hp h1 h2 ih ih2 =>
    have th1 := h1.breadth
    simp only [breadth_OperatorFatArrow, delimiters, List.length_cons, List.length_nil] at th1
    have hp' := arrow_census hp
    cases b
    people
  | @arrow0 i m n o j k b hk h h0 h1 hb h2 ih2 =>
    have th := h.breadth
    simp only [breadth_ParenOpen, delimiters, List.length_cons, List.length_nil] at th
    have th0 := h0.breadth
    simp only [breadth_ParenClose, delimiters, List.length_cons, List.length_nil] at th0
    have th1 := h1.breadth
    simp only [breadth_OperatorFatArrow, delimiters, List.length_cons, List.length_nil] at th1
    people
  | @arrowBlock0 i m n o j k b hk h h0 h1 h2 ih2 =>
    have th := h.breadth
    simp only [breadth_ParenOpen, delimiters, List.length_cons, List.length_nil] at th
    have th0 := h0.breadth
    simp only [breadth_ParenClose, delimiters, List.length_cons, List.length_nil] at th0
    have th1 := h1.breadth
    simp only [breadth_OperatorFatArrow, delimiters, List.length_cons, List.length_nil] at th1
    cases b
    people
  | @«prefix» i m j k t op e hk h hop h1 ih1 =>
    have th := h.breadth
    have o1 := prefix_len hop
    people
  | @«new» i m j k e hk h hm h1 ih1 =>
    have th := h.breadth
    simp only [breadth_OperatorNew, delimiters, List.length_cons, List.length_nil] at th
    people
  | @binary i m n j k t op p a b hop hk h h1 h2 ih ih2 =>
    have th1 := h1.breadth
    have o1 := op_len hop
    people
  | @cond i m n o q j k a b c hk h h1 h2 h3 h4 ih ih2 ih4 =>
    have th1 := h1.breadth
    simp only [breadth_OperatorConditional, delimiters, List.length_cons, List.length_nil] at th1
    have th3 := h3.breadth
    simp only [breadth_Colon, delimiters, List.length_cons, List.length_nil] at th3
    people
  | @assign i m n j k t op a b hk h ha h1 hop h2 ih ih2 =>
    have th1 := h1.breadth
    have o1 := assign_len hop
    people
  | @comma i m n j a es h h1 h2 ih ih2 =>
    have th1 := h1.breadth
    simp only [breadth_Comma, delimiters, List.length_cons, List.length_nil] at th1
    people
  | @commaLast i j e h h' ih =>
    people
  | @commaMore i m n j e es h h1 h2 ih ih2 =>
    have th1 := h1.breadth
    simp only [breadth_Comma, delimiters, List.length_cons, List.length_nil] at th1
    people
  | @arg i j e h ih =>
    people
  | @argSpread i m j e h h1 ih1 =>
    have th := h.breadth
    simp only [breadth_OperatorSpread, delimiters, List.length_cons, List.length_nil] at th
    people
  | @argsNone j h  =>
    people
  | @argsLast i j e h h' ih =>
    people
  | @argsMore i m n j e es h h1 h2 ih ih2 =>
    have th1 := h1.breadth
    simp only [breadth_Comma, delimiters, List.length_cons, List.length_nil] at th1
    people
  | @elem i j e h ih =>
    people
  | @elemSpread i m j e h h1 ih1 =>
    have th := h.breadth
    simp only [breadth_OperatorSpread, delimiters, List.length_cons, List.length_nil] at th
    people
  | @elemHole j h  =>
    people
  | @elemsLast i j e h h' ih =>
    people
  | @elemsMore i m n j e es h h1 h2 ih ih2 =>
    have th1 := h1.breadth
    simp only [breadth_Comma, delimiters, List.length_cons, List.length_nil] at th1
    people
  | @templateClosed i j w h  =>
    have th := h.breadth
    simp only [breadth_TemplateClosed, delimiters, List.length_cons, List.length_nil] at th
    people
  | @templateOpen i m n j w e es qs h h1 h2 ih1 ih2 =>
    have th := h.breadth
    simp only [breadth_TemplateOpen, delimiters, List.length_cons, List.length_nil] at th
    people
  | @templateEnd j w  =>
    simp only [breadth, itemBreadth]
    people
  | @templateMore m n j w e es qs h1 h2 ih1 ih2 =>
    simp only [breadth, itemBreadth]
    people
  | @shorthand i j t w h ht h1 h2  =>
    have th := h.breadth
    have := word_breadth ht
    people
  | @propWord i m j t w p h ht h1 ih1 =>
    have th := h.breadth
    have := word_breadth ht
    people
  | @propLiteral i m j t w p h ht h1 ih1 =>
    have th := h.breadth
    have : tokenBreadth t = 1 := by rcases ht with rfl | rfl <;> decide +kernel
    people
  | @propBinary i m j w p h h1 ih1 =>
    have th := h.breadth
    simp only [breadth_LiteralBinary, delimiters, List.length_cons, List.length_nil] at th
    people
  | @propComputed i m n o j e p h h1 h2 h3 ih1 ih3 =>
    have th := h.breadth
    simp only [breadth_BracketOpen, delimiters, List.length_cons, List.length_nil] at th
    have th2 := h2.breadth
    simp only [breadth_BracketClose, delimiters, List.length_cons, List.length_nil] at th2
    people
  | @propSpread i m j e h h1 ih1 =>
    have th := h.breadth
    simp only [breadth_OperatorSpread, delimiters, List.length_cons, List.length_nil] at th
    people
  | @propField i m j k e h h1 ih1 =>
    have th := h.breadth
    simp only [breadth_Colon, delimiters, List.length_cons, List.length_nil] at th
    people
  | @propMethod i j k f h h1 ih1 =>
    people
  | @propsNone j h  =>
    people
  | @propsLast i j p h h' ih =>
    people
  | @propsMore i m n j p ps h h1 h2 ih ih2 =>
    have th1 := h1.breadth
    simp only [breadth_Comma, delimiters, List.length_cons, List.length_nil] at th1
    people
  | @patIdent i j w h  =>
    have th := h.breadth
    simp only [breadth_Identifier, delimiters, List.length_cons, List.length_nil] at th
    people
  | @patArray i m n j ps h h0 h1 h2 ih1 =>
    have th := h.breadth
    simp only [breadth_BracketOpen, delimiters, List.length_cons, List.length_nil] at th
    have th2 := h2.breadth
    simp only [breadth_BracketClose, delimiters, List.length_cons, List.length_nil] at th2
    people
  | @patEmptyArray i m j h h2  =>
    have th := h.breadth
    simp only [breadth_BracketOpen, delimiters, List.length_cons, List.length_nil] at th
    have th2 := h2.breadth
    simp only [breadth_BracketClose, delimiters, List.length_cons, List.length_nil] at th2
    people
  | @patObject i m n j ps h h1 h2 ih1 =>
    have th := h.breadth
    simp only [breadth_BraceOpen, delimiters, List.length_cons, List.length_nil] at th
    have th2 := h2.breadth
    simp only [breadth_BraceClose, delimiters, List.length_cons, List.length_nil] at th2
    people
  | @param i j p h h' ih =>
    people
  | @paramDefault i m n j p e h h1 h2 ih ih2 =>
    have th1 := h1.breadth
    simp only [breadth_OperatorAssign, delimiters, List.length_cons, List.length_nil] at th1
    people
  | @patElem i j p h ih =>
    people
  | @patHole j h  =>
    people
  | @patElemsLast i j p h h' ih =>
    people
  | @patElemsMore i m n j p ps h h1 h2 ih ih2 =>
    have th1 := h1.breadth
    simp only [breadth_Comma, delimiters, List.length_cons, List.length_nil] at th1
    people
  | @paramsNone i j h  =>
    have th := h.breadth
    simp only [breadth_ParenClose, delimiters, List.length_cons, List.length_nil] at th
    people
  | @paramsRest i m n j w h h1 h2  =>
    have th := h.breadth
    simp only [breadth_OperatorSpread, delimiters, List.length_cons, List.length_nil] at th
    have th1 := h1.breadth
    simp only [breadth_Identifier, delimiters, List.length_cons, List.length_nil] at th1
    have th2 := h2.breadth
    simp only [breadth_ParenClose, delimiters, List.length_cons, List.length_nil] at th2
    people
  | @paramsLast i m j p h h1 ih =>
    have th1 := h1.breadth
    simp only [breadth_ParenClose, delimiters, List.length_cons, List.length_nil] at th1
    people
  | @paramsMore i m n j p ps h h1 h2 ih ih2 =>
    have th1 := h1.breadth
    simp only [breadth_Comma, delimiters, List.length_cons, List.length_nil] at th1
    people
  | @func i m n o q j nk g nm ps b h h1 h2 h3 h4 ih3 ih4 =>
    have th := h.breadth
    have th1 := h1.breadth
    have th2 := h2.breadth
    simp only [breadth_ParenOpen, delimiters, List.length_cons, List.length_nil] at th2
    cases b
    people
  | @cls i m n j nk nm ms h h1 h2 h0 ih2 =>
    have th := h.breadth
    have th1 := h1.breadth
    simp only [breadth_BraceOpen, delimiters, List.length_cons, List.length_nil] at th1
    people
  | @clsExtends i m n o q j nk nm e ms h h1 h2 h3 h4 h0 ih2 ih4 =>
    have th := h.breadth
    have th1 := h1.breadth
    simp only [breadth_Extends, delimiters, List.length_cons, List.length_nil] at th1
    have th3 := h3.breadth
    simp only [breadth_BraceOpen, delimiters, List.length_cons, List.length_nil] at th3
    people
  | @memberWord i m n j s t w x h h1 ht hn h2 ih2 =>
    have th := h.breadth
    have th1 := h1.breadth
    have := word_breadth ht
    people
  | @memberGet i m n o j s t t' w x h h1 ht h2 ht' h3 ih3 =>
    have th := h.breadth
    have th1 := h1.breadth
    have th2 := h2.breadth
    have := word_breadth ht'
    people
  | @memberSet i m n o j s t t' w x h h1 ht h2 ht' h3 ih3 =>
    have th := h.breadth
    have th1 := h1.breadth
    have th2 := h2.breadth
    have := word_breadth ht'
    people
  | @memberNumber i m n j s w x h h1 h2 ih2 =>
    have th := h.breadth
    have th1 := h1.breadth
    simp only [breadth_LiteralNumber, delimiters, List.length_cons, List.length_nil] at th1
    people
  | @memberBinary i m n j s w x h h1 h2 ih2 =>
    have th := h.breadth
    have th1 := h1.breadth
    simp only [breadth_LiteralBinary, delimiters, List.length_cons, List.length_nil] at th1
    people
  | @memberComputed i m n o q j s e x h h1 h2 h3 h4 ih2 ih4 =>
    have th := h.breadth
    have th1 := h1.breadth
    simp only [breadth_BracketOpen, delimiters, List.length_cons, List.length_nil] at th1
    have th3 := h3.breadth
    simp only [breadth_BracketClose, delimiters, List.length_cons, List.length_nil] at th3
    people
  | @memberMethod i m j s kd k f h h1 h2 ih1 =>
    have th2 := h2.breadth
    people
  | @memberField i m n j s kd k e h h1 h2 ih1 =>
    have th := h.breadth
    simp only [breadth_OperatorAssign, delimiters, List.length_cons, List.length_nil] at th
    have th2 := h2.breadth
    people
  | @membersClose i j h  =>
    have th := h.breadth
    simp only [breadth_BraceClose, delimiters, List.length_cons, List.length_nil] at th
    people
  | @membersEnd   =>
    people
  | @membersMore i m j x xs h h1 ih ih1 =>
    people
  | @block i m j ss h h1 h0 ih1 =>
    have th := h.breadth
    simp only [breadth_BraceOpen, delimiters, List.length_cons, List.length_nil] at th
    people
  | @stmtsClose i j h  =>
    have th := h.breadth
    simp only [breadth_BraceClose, delimiters, List.length_cons, List.length_nil] at th
    people
  | @stmtsEnd   =>
    people
  | @stmtsMore i m j s ss h h1 ih ih1 =>
    people
  | @empty i j h  =>
    have th := h.breadth
    simp only [breadth_Semicolon, delimiters, List.length_cons, List.length_nil] at th
    people
  | @debugger i j h  =>
    have th := h.breadth
    simp only [breadth_Debugger, delimiters, List.length_cons, List.length_nil] at th
    people
  | @blockStmt i j ss h ih =>
    people
  | @exprStmt i m j e h1 h2 h3 h4 h h5 ih =>
    have th5 := h5.breadth
    people
  | @importExpr w a i m j e h1 h h5 ih =>
    have th5 := h5.breadth
    have hi : tokenBreadth .Import = 6 := breadth_Import
    simp only [breadth, itemBreadth, delimiters, hi, breadth_Identifier] at *
    people
  | @declStmt i m n j t k ds h hk h1 h2 ih1 =>
    have th := h.breadth
    have th2 := h2.breadth
    have k2 := kind_breadth hk
    people
  | @ret i m j h h1  =>
    have th := h.breadth
    simp only [breadth_Return, delimiters, List.length_cons, List.length_nil] at th
    have th1 := h1.breadth
    people
  | @retValue i m n j e h h0 h1 h2 ih1 =>
    have th := h.breadth
    simp only [breadth_Return, delimiters, List.length_cons, List.length_nil] at th
    have th2 := h2.breadth
    people
  | @brk i m j h h1  =>
    have th := h.breadth
    simp only [breadth_Break, delimiters, List.length_cons, List.length_nil] at th
    have th1 := h1.breadth
    people
  | @brkLabel i m n j w h h0 h1 h2  =>
    have th := h.breadth
    simp only [breadth_Break, delimiters, List.length_cons, List.length_nil] at th
    have th1 := h1.breadth
    simp only [breadth_Identifier, delimiters, List.length_cons, List.length_nil] at th1
    have th2 := h2.breadth
    people
  | @cont i m j h h1  =>
    have th := h.breadth
    simp only [breadth_Continue, delimiters, List.length_cons, List.length_nil] at th
    have th1 := h1.breadth
    people
  | @contLabel i m n j w h h0 h1 h2  =>
    have th := h.breadth
    simp only [breadth_Continue, delimiters, List.length_cons, List.length_nil] at th
    have th1 := h1.breadth
    simp only [breadth_Identifier, delimiters, List.length_cons, List.length_nil] at th1
    have th2 := h2.breadth
    people
  | @throw i m n j e h h1 h2 ih1 =>
    have th := h.breadth
    simp only [breadth_Throw, delimiters, List.length_cons, List.length_nil] at th
    have th2 := h2.breadth
    people
  | @ifThen i m n o q j e s h h1 h2 h3 h4 h5 ih2 ih4 =>
    have th := h.breadth
    simp only [breadth_If, delimiters, List.length_cons, List.length_nil] at th
    have th1 := h1.breadth
    simp only [breadth_ParenOpen, delimiters, List.length_cons, List.length_nil] at th1
    have th3 := h3.breadth
    simp only [breadth_ParenClose, delimiters, List.length_cons, List.length_nil] at th3
    people
  | @ifElse i m n o q r u j e s s' h h1 h2 h3 h4 h5 h6 ih2 ih4 ih6 =>
    have th := h.breadth
    simp only [breadth_If, delimiters, List.length_cons, List.length_nil] at th
    have th1 := h1.breadth
    simp only [breadth_ParenOpen, delimiters, List.length_cons, List.length_nil] at th1
    have th3 := h3.breadth
    simp only [breadth_ParenClose, delimiters, List.length_cons, List.length_nil] at th3
    have th5 := h5.breadth
    simp only [breadth_Else, delimiters, List.length_cons, List.length_nil] at th5
    people
  | @whileLoop i m n o q j e s h h1 h2 h3 h4 ih2 ih4 =>
    have th := h.breadth
    simp only [breadth_While, delimiters, List.length_cons, List.length_nil] at th
    have th1 := h1.breadth
    simp only [breadth_ParenOpen, delimiters, List.length_cons, List.length_nil] at th1
    have th3 := h3.breadth
    simp only [breadth_ParenClose, delimiters, List.length_cons, List.length_nil] at th3
    people
  | @doLoop i m n o q r j e s h h1 h2 h3 h4 h5 ih1 ih4 =>
    have th := h.breadth
    simp only [breadth_Do, delimiters, List.length_cons, List.length_nil] at th
    have th2 := h2.breadth
    simp only [breadth_While, delimiters, List.length_cons, List.length_nil] at th2
    have th3 := h3.breadth
    simp only [breadth_ParenOpen, delimiters, List.length_cons, List.length_nil] at th3
    have th5 := h5.breadth
    simp only [breadth_ParenClose, delimiters, List.length_cons, List.length_nil] at th5
    people
  | @forLoop i m n o q j t u s h h1 h2 h3 r h4 h5 ih3 ih4 ih5 =>
    have th := h.breadth
    simp only [breadth_For, delimiters, List.length_cons, List.length_nil] at th
    have th1 := h1.breadth
    simp only [breadth_ParenOpen, delimiters, List.length_cons, List.length_nil] at th1
    have th2 := h2.breadth
    simp only [breadth_Semicolon, delimiters, List.length_cons, List.length_nil] at th2
    people
  | @forLoopInit i m n o q r v j x t u s h h1 h2 h2' h3 h4 h5 ih2 ih3 ih4 ih5 =>
    have th := h.breadth
    simp only [breadth_For, delimiters, List.length_cons, List.length_nil] at th
    have th1 := h1.breadth
    simp only [breadth_ParenOpen, delimiters, List.length_cons, List.length_nil] at th1
    have th2' := h2'.breadth
    simp only [breadth_Semicolon, delimiters, List.length_cons, List.length_nil] at th2'
    people
  | @forInDecl i m n o q r v j k ds e s h h1 h2 h3 h4 h5 h6 ih2 ih4 ih6 =>
    have th := h.breadth
    simp only [breadth_For, delimiters, List.length_cons, List.length_nil] at th
    have th1 := h1.breadth
    simp only [breadth_ParenOpen, delimiters, List.length_cons, List.length_nil] at th1
    have th3 := h3.breadth
    simp only [breadth_OperatorIn, delimiters, List.length_cons, List.length_nil] at th3
    have th5 := h5.breadth
    simp only [breadth_ParenClose, delimiters, List.length_cons, List.length_nil] at th5
    people
  | @forInExpr i m n o q j a b s h h1 h2 h3 h4 ih2 ih4 =>
    have th := h.breadth
    simp only [breadth_For, delimiters, List.length_cons, List.length_nil] at th
    have th1 := h1.breadth
    simp only [breadth_ParenOpen, delimiters, List.length_cons, List.length_nil] at th1
    have th3 := h3.breadth
    simp only [breadth_ParenClose, delimiters, List.length_cons, List.length_nil] at th3
    people
  | @forOf i m n o q r v j x e s h h1 h2 h3 h4 h5 h6 ih2 ih4 ih6 =>
    have th := h.breadth
    simp only [breadth_For, delimiters, List.length_cons, List.length_nil] at th
    have th1 := h1.breadth
    simp only [breadth_ParenOpen, delimiters, List.length_cons, List.length_nil] at th1
    have th3 := h3.breadth
    simp only [breadth_Identifier, delimiters, List.length_cons, List.length_nil] at th3
    have th5 := h5.breadth
    simp only [breadth_ParenClose, delimiters, List.length_cons, List.length_nil] at th5
    people
  | @forInitDecl i m j t k ds h hk h1 ih1 =>
    have th := h.breadth
    have k2 := kind_breadth hk
    people
  | @forInitExpr i j e h h1 ih =>
    people
  | @optExprNone i j t h  =>
    have th := h.breadth
    people
  | @optExprSome i m j t e h h1 ih =>
    have th1 := h1.breadth
    people
  | @tryCatch i m n j b c h h1 h2 h3 ih1 ih2 =>
    have th := h.breadth
    simp only [breadth_Try, delimiters, List.length_cons, List.length_nil] at th
    people
  | @tryCatchFinally i m n o q j b c f h h1 h2 h3 h4 ih1 ih2 ih4 =>
    have th := h.breadth
    simp only [breadth_Try, delimiters, List.length_cons, List.length_nil] at th
    have th3 := h3.breadth
    simp only [breadth_Finally, delimiters, List.length_cons, List.length_nil] at th3
    people
  | @tryFinally i m n o j b f h h1 h3 h4 ih1 ih4 =>
    have th := h.breadth
    simp only [breadth_Try, delimiters, List.length_cons, List.length_nil] at th
    have th3 := h3.breadth
    simp only [breadth_Finally, delimiters, List.length_cons, List.length_nil] at th3
    people
  | @«catch» i m n o q j p b h h1 h2 h3 h4 ih2 ih4 =>
    have th := h.breadth
    simp only [breadth_Catch, delimiters, List.length_cons, List.length_nil] at th
    have th1 := h1.breadth
    simp only [breadth_ParenOpen, delimiters, List.length_cons, List.length_nil] at th1
    have th3 := h3.breadth
    simp only [breadth_ParenClose, delimiters, List.length_cons, List.length_nil] at th3
    people
  | @«switch» i m n o q r j e cs h h1 h2 h3 h4 h5 ih2 ih5 =>
    have th := h.breadth
    simp only [breadth_Switch, delimiters, List.length_cons, List.length_nil] at th
    have th1 := h1.breadth
    simp only [breadth_ParenOpen, delimiters, List.length_cons, List.length_nil] at th1
    have th3 := h3.breadth
    simp only [breadth_ParenClose, delimiters, List.length_cons, List.length_nil] at th3
    have th4 := h4.breadth
    simp only [breadth_BraceOpen, delimiters, List.length_cons, List.length_nil] at th4
    people
  | @casesClose i j h  =>
    have th := h.breadth
    simp only [breadth_BraceClose, delimiters, List.length_cons, List.length_nil] at th
    people
  | @casesMore i m j c cs h h1 ih ih1 =>
    people
  | @«case» i m n o j e ss h h1 h2 h3 ih1 ih3 =>
    have th := h.breadth
    simp only [breadth_Case, delimiters, List.length_cons, List.length_nil] at th
    have th2 := h2.breadth
    simp only [breadth_Colon, delimiters, List.length_cons, List.length_nil] at th2
    people
  | @«default» i m n j ss h h1 h2 ih2 =>
    have th := h.breadth
    simp only [breadth_Default, delimiters, List.length_cons, List.length_nil] at th
    have th1 := h1.breadth
    simp only [breadth_Colon, delimiters, List.length_cons, List.length_nil] at th1
    people
  | @caseBodyEnd j h  =>
    people
  | @caseBodyMore i m j s ss h h1 ih ih1 =>
    people
  | @labeled i m n j w s h h1 h2 ih2 =>
    have th := h.breadth
    simp only [breadth_Identifier, delimiters, List.length_cons, List.length_nil] at th
    have th1 := h1.breadth
    simp only [breadth_Colon, delimiters, List.length_cons, List.length_nil] at th1
    people
  | @functionStmt i m j f h h1 ih1 =>
    have th := h.breadth
    simp only [breadth_Function, delimiters, List.length_cons, List.length_nil] at th
    people
  | @classStmt i m j c h h1 ih1 =>
    have th := h.breadth
    simp only [breadth_Class, delimiters, List.length_cons, List.length_nil] at th
    people
  | @importBare i m j w h h1 hw  =>
    have th := h.breadth
    simp only [breadth_Import, delimiters, List.length_cons, List.length_nil] at th
    have th1 := h1.breadth
    simp only [breadth_LiteralString, delimiters, List.length_cons, List.length_nil] at th1
    people
  | @importFrom i m n o j w ss h h1 h2 h3 hw  =>
    have th := h.breadth
    simp only [breadth_Import, delimiters, List.length_cons, List.length_nil] at th
    have th1 := h1.breadth
    have th2 := h2.breadth
    simp only [breadth_Identifier, delimiters, List.length_cons, List.length_nil] at th2
    have th3 := h3.breadth
    simp only [breadth_LiteralString, delimiters, List.length_cons, List.length_nil] at th3
    people
  | @declarator i j p h h' ih =>
    people
  | @declaratorInit i m n j p e h h1 h2 ih ih2 =>
    have th1 := h1.breadth
    simp only [breadth_OperatorAssign, delimiters, List.length_cons, List.length_nil] at th1
    people
  | @declaratorsLast i j d h h' ih =>
    people
  | @declaratorsMore i m n j d ds h h1 h2 ih ih2 =>
    have th1 := h1.breadth
    simp only [breadth_Comma, delimiters, List.length_cons, List.length_nil] at th1
    people
  | @programEnd   =>
    people
  | @programMore i m j s ss h h1 ih ih1 =>
    people

end Ratel
