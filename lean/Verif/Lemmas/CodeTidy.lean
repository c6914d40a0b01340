import Verif.Lemmas.CodeBare
/-! The minified code does not depend on empty statements in lists of statements. -/
namespace Ratel
open Spec

set_option linter.unusedSectionVars false
set_option linter.unusedSimpArgs false

def tidyNode : Node → Node
  | .expr e => .expr (tidyExpr e)
  | .key k => .key (tidyKey k)
  | .prop p => .prop (tidyProp p)
  | .pat p => .pat (tidyPat p)
  | .func f => .func (tidyFunc f)
  | .cls c => .cls (tidyClass c)
  | .member m => .member (tidyMember m)
  | .block b => .block (tidyBlock b)
  | .stmt s => .stmt (tidyStmt s)
  | .declarator d => .declarator (tidyDeclarator d)
  | .forInit i => .forInit (tidyInit i)
  | .case c => .case (tidyCase c)
  | .catch c => .catch (tidyCatch c)
  | .switchBody cs => .switchBody (tidyCases cs)

/-- What the minifying generator writes of the pieces. -/
def ink : List Piece → List Piece
  | [] => []
  | .text t :: r => .text t :: ink r
  | .panic :: r => .panic :: ink r
  | _ :: r => ink r

theorem ink_append (a b : List Piece) : ink (a ++ b) = ink a ++ ink b := by
  induction a with
  | nil => rfl
  | cons p a ih => cases p <;> simp [ink, ih]
theorem ink_nil : ink [] = [] := rfl
theorem ink_text (t : Bytes) (r : List Piece) : ink (.text t :: r) = .text t :: ink r := rfl
theorem ink_panic (r : List Piece) : ink (.panic :: r) = .panic :: ink r := rfl
theorem ink_pretty (b : Byte) (r : List Piece) : ink (.pretty b :: r) = ink r := rfl
theorem ink_newLine (r : List Piece) : ink (.newLine :: r) = ink r := rfl
theorem ink_indent (r : List Piece) : ink (.indent :: r) = ink r := rfl
theorem ink_dedent (r : List Piece) : ink (.dedent :: r) = ink r := rfl
theorem ink_if (c : Bool) (a b : Piece) (r : List Piece) : ink ((if c = true then a else b) :: r) = if c then ink (a :: r) else ink (b :: r) := by
  cases c <;> rfl
theorem ink_space (c : Bool) (r : List Piece) : ink (space c :: r) = (if c then [.text bs!" "] else []) ++ ink r := by
  cases c <;> rfl
theorem ink_write (e : Expr) (c : List Piece) (k : Nat) :
    ink (writeExpression e c k) = if e.bindingPower < k then .text bs!"(" :: (ink c ++ [.text bs!")"]) else ink c := by
  unfold writeExpression
  split <;> simp [ink_text, ink_append, ink_nil]

def inkJoin : List (List Piece) → List Piece
  | [] => []
  | [x] => x
  | x :: y :: r => x ++ [.text bs!","] ++ inkJoin (y :: r)

theorem ink_list (l : List (List Piece)) : ink (writeList l) = inkJoin (l.map ink) := by
  induction l with
  | nil => rfl
  | cons x l ih =>
    cases l with
    | nil => rfl
    | cons y l => simp only [writeList, ink_append, ink_text, ink_pretty, ink_nil, ih, List.map_cons, inkJoin]
theorem ink_lines (l : List (List Piece)) : ink (writeLines l) = (l.map ink).flatten := by
  induction l with
  | nil => rfl
  | cons x l ih => simp [writeLines, ink_append, ink_newLine, ih]
theorem ink_block (l : List (List Piece)) : ink (writeBlock l) = (l.map ink).flatten := by
  cases l with
  | nil => rfl
  | cons x l => simp [writeBlock, ink_append, ink_indent, ink_newLine, ink_dedent, ink_lines, ink_nil]
theorem ink_braces (l : List (List Piece)) : ink (writeBraces l) = .text bs!"{" :: ((l.map ink).flatten ++ [.text bs!"}"]) := by
  simp [writeBraces, ink_append, ink_text, ink_block, ink_nil]
theorem ink_props (l : List (List Piece)) : ink (writeProps l) = (l.map fun x => .text bs!"," :: ink x).flatten := by
  induction l with
  | nil => rfl
  | cons x l ih => simp [writeProps, ink_append, ink_newLine, ink_text, ih]
def inkObject : List (List Piece) → List Piece
  | [] => [.text bs!"{}"]
  | x :: r => .text bs!"{" :: x ++ (r.map fun x => Piece.text bs!"," :: x).flatten ++ [.text bs!"}"]
theorem ink_object (l : List (List Piece)) : ink (writeObject l) = inkObject (l.map ink) := by
  cases l with
  | nil => rfl
  | cons x l =>
    simp [writeObject, inkObject, ink_append, ink_indent, ink_newLine, ink_dedent, ink_text, ink_nil, ink_props, Function.comp_def]
def inkTemplateRest : List Ident → List (List Piece) → List Piece
  | q :: qs, e :: es => [.text bs!"${"] ++ e ++ [.text bs!"}", .text q.name] ++ inkTemplateRest qs es
  | _, _ => []
theorem ink_templateRest (qs : List Ident) (es : List (List Piece)) : ink (writeTemplateRest qs es) = inkTemplateRest qs (es.map ink) := by
  induction qs generalizing es with
  | nil => cases es <;> rfl
  | cons q qs ih =>
    cases es with
    | nil => rfl
    | cons e es => simp only [writeTemplateRest, inkTemplateRest, ink_append, ink_text, ink_pretty, ink_nil, ih, List.map_cons]
def inkTemplate : List Ident → List (List Piece) → List Piece
  | [], _ => []
  | [q], _ => [.text q.name]
  | q :: q' :: qs, es => .text q.name :: inkTemplateRest (q' :: qs) es
theorem ink_template (qs : List Ident) (es : List (List Piece)) : ink (writeTemplate qs es) = inkTemplate qs (es.map ink) := by
  match qs with
  | [] => rfl
  | [q] => rfl
  | q :: q' :: qs => simp only [writeTemplate, inkTemplate, ink_text, ink_templateRest]

theorem runMin_ink (l : List Piece) : runMin (ink l) = runMin l := by
  induction l with
  | nil => rfl
  | cons p l ih => cases p <;> simp [ink, runMin, ih]

theorem map_ink {α : Type} {f : α → List Piece} {b : α → α} {l : List α} (h : ∀ x ∈ l, ink (f (b x)) = ink (f x)) :
    ((l.map b).map f).map ink = (l.map f).map ink := by
  rw [List.map_map, List.map_map, List.map_map]
  exact List.map_congr_left h

theorem tidy_flat {l : List Stmt} (h : ∀ x ∈ l, ink (codeStmt (tidyStmt x)) = ink (codeStmt x)) :
    (((tidyStmts l).map codeStmt).map ink).flatten = ((l.map codeStmt).map ink).flatten := by
  induction l with
  | nil => rfl
  | cons s l ih =>
    have ih := ih fun x hx => h x (List.mem_cons_of_mem _ hx)
    have hs := h s List.mem_cons_self
    rw [tidyStmts]
    by_cases he : isEmptyStmt s = true
    · rw [if_pos he, ih]
      cases s <;> simp [isEmptyStmt] at he
      simp [codeStmt, ink]
    · rw [if_neg he]
      simp only [List.map_cons, List.flatten_cons, ih, hs]

theorem tidy_power (e : Expr) : (tidyExpr e).bindingPower = e.bindingPower := by cases e <;> simp [tidyExpr, Expr.bindingPower]
theorem tidy_allowed (e : Expr) : (tidyExpr e).isAllowedAsBareStatement = e.isAllowedAsBareStatement := by
  cases e <;> simp [tidyExpr, Expr.isAllowedAsBareStatement]
theorem tidy_isBlock (s : Stmt) : (tidyStmt s).isBlock = s.isBlock := by
  cases s with
  | ifS l t c a => cases a <;> simp only [tidyStmt, Stmt.isBlock]
  | _ => simp only [tidyStmt, Stmt.isBlock]
theorem tidy_spacing (op : Op) (a b : Expr) : binarySpacing op (tidyExpr a) (tidyExpr b) = binarySpacing op a b := by
  unfold binarySpacing
  cases a <;> cases b <;> simp only [tidyExpr]
theorem tidy_onlyIdent (ps : List Pattern) : onlyIdent (ps.map tidyPat) = onlyIdent ps := by
  match ps with
  | [] => rfl
  | [p] => cases p <;> simp [tidyPat, onlyIdent]
  | p :: q :: ps => cases p <;> simp [tidyPat, onlyIdent]
section
variable [Unicode]

theorem codeOf_tidy (n : Node) : ink (codeOf (tidyNode n)) = ink (codeOf n) := by
  induction n using Node.ind with
  | h n ih =>
  have he : ∀ e, Node.expr e ∈ n.children → ink (codeExpr (tidyExpr e)) = ink (codeExpr e) := fun e h => ih _ h
  have hs : ∀ e, Node.stmt e ∈ n.children → ink (codeStmt (tidyStmt e)) = ink (codeStmt e) := fun e h => ih _ h
  have hp : ∀ e, Node.pat e ∈ n.children → ink (codePattern (tidyPat e)) = ink (codePattern e) := fun e h => ih _ h
  have hk : ∀ e, Node.key e ∈ n.children → ink (codeKey (tidyKey e)) = ink (codeKey e) := fun e h => ih _ h
  have hf : ∀ e, Node.func e ∈ n.children → ink (codeFunc (tidyFunc e)) = ink (codeFunc e) := fun e h => ih _ h
  have hc : ∀ e, Node.cls e ∈ n.children → ink (codeClass (tidyClass e)) = ink (codeClass e) := fun e h => ih _ h
  have hb : ∀ e, Node.block e ∈ n.children → ink (codeBlock (tidyBlock e)) = ink (codeBlock e) := fun e h => ih _ h
  have hd : ∀ e, Node.declarator e ∈ n.children → ink (codeDeclarator (tidyDeclarator e)) = ink (codeDeclarator e) := fun e h => ih _ h
  have hi : ∀ e, Node.forInit e ∈ n.children → ink (codeForInit (tidyInit e)) = ink (codeForInit e) := fun e h => ih _ h
  have hpr : ∀ e, Node.prop e ∈ n.children → ink (codeProperty (tidyProp e)) = ink (codeProperty e) := fun e h => ih _ h
  have hm : ∀ e, Node.member e ∈ n.children → ink (codeMember (tidyMember e)) = ink (codeMember e) := fun e h => ih _ h
  have hca : ∀ e, Node.case e ∈ n.children → ink (codeCase (tidyCase e)) = ink (codeCase e) := fun e h => ih _ h
  have hct : ∀ e, Node.catch e ∈ n.children → ink (codeCatch (tidyCatch e)) = ink (codeCatch e) := fun e h => ih _ h
  have hsw : ∀ cs, Node.switchBody cs ∈ n.children → ink (writeBraces (codeCases (tidyCases cs))) = ink (writeBraces (codeCases cs)) := fun e h => ih _ h
  have hel : ∀ xs : List Expr, (∀ x ∈ xs, Node.expr x ∈ n.children) → ((xs.map tidyExpr).map codeExpr).map ink = (xs.map codeExpr).map ink := fun xs h => map_ink fun x hx => he x (h x hx)
  have hsl : ∀ xs : List Stmt, (∀ x ∈ xs, Node.stmt x ∈ n.children) → (((tidyStmts xs).map codeStmt).map ink).flatten = ((xs.map codeStmt).map ink).flatten := fun xs h => tidy_flat fun x hx => hs x (h x hx)
  have hpl : ∀ xs : List Pattern, (∀ x ∈ xs, Node.pat x ∈ n.children) → ((xs.map tidyPat).map codePattern).map ink = (xs.map codePattern).map ink := fun xs h => map_ink fun x hx => hp x (h x hx)
  have hdl : ∀ xs : List Declarator, (∀ x ∈ xs, Node.declarator x ∈ n.children) → ((xs.map tidyDeclarator).map codeDeclarator).map ink = (xs.map codeDeclarator).map ink := fun xs h => map_ink fun x hx => hd x (h x hx)
  have hprl : ∀ xs : List Property, (∀ x ∈ xs, Node.prop x ∈ n.children) → ((xs.map tidyProp).map codeProperty).map ink = (xs.map codeProperty).map ink := fun xs h => map_ink fun x hx => hpr x (h x hx)
  have hml : ∀ xs : List ClassMember, (∀ x ∈ xs, Node.member x ∈ n.children) → ((xs.map tidyMember).map codeMember).map ink = (xs.map codeMember).map ink := fun xs h => map_ink fun x hx => hm x (h x hx)
  have hcal : ∀ xs : List SwitchCase, (∀ x ∈ xs, Node.case x ∈ n.children) → ((xs.map tidyCase).map codeCase).map ink = (xs.map codeCase).map ink := fun xs h => map_ink fun x hx => hca x (h x hx)
  clear ih
  rcases n with e | k | p | p | f | c | m | b | s | d | i | c | c | cs
  · cases e with
    | arrowB l ps b =>
      obtain ⟨l', b⟩ := b
      simp only [tidyNode, codeOf, tidyExpr, codeExpr, tidyPats_eq, tidy_onlyIdent]
      rcases onlyIdent ps <;> simp only [ink_append, ink_nil, ink_text, ink_pretty, ink_newLine, ink_indent, ink_dedent, ink_panic, ink_if, ink_space, ink_write, ink_list, ink_braces, ink_block, ink_object, ink_template, tidyNode, codeOf, tidyExpr, tidyBlock, codeExpr, codeBlock, codeStmts_eq, codePatterns_eq, tidyPats_eq, tidy_onlyIdent,
        hpl ps (fun x hx => by simp [Node.children, hx]), hsl b (fun x hx => by simp [Node.children, hx])]
    | arrowE l ps b =>
      simp only [tidyNode, codeOf, tidyExpr, codeExpr, tidyPats_eq, tidy_onlyIdent]
      rcases onlyIdent ps <;> simp only [ink_append, ink_nil, ink_text, ink_pretty, ink_newLine, ink_indent, ink_dedent, ink_panic, ink_if, ink_space, ink_write, ink_list, ink_braces, ink_block, ink_object, ink_template, tidyNode, codeOf, tidyExpr, codeExpr, codePatterns_eq, tidyPats_eq, tidy_onlyIdent,
        hpl ps (fun x hx => by simp [Node.children, hx]), he b (by simp [Node.children])]
    | seq l es | array l es | template l es qs =>
      simp only [ink_append, ink_nil, ink_text, ink_pretty, ink_newLine, ink_indent, ink_dedent, ink_panic, ink_if, ink_space, ink_write, ink_list, ink_braces, ink_block, ink_object, ink_template, tidyNode, codeOf, tidyExpr, codeExpr, codeExprs_eq, tidyExprs_eq, bare_template, hel es (fun x hx => by simp [Node.children, hx])]
    | call l c es | tagged l c l' es qs =>
      simp only [ink_append, ink_nil, ink_text, ink_pretty, ink_newLine, ink_indent, ink_dedent, ink_panic, ink_if, ink_space, ink_write, ink_list, ink_braces, ink_block, ink_object, ink_template, tidyNode, codeOf, tidyExpr, codeExpr, codeExprs_eq, tidyExprs_eq, bare_template, hel es (fun x hx => by simp [Node.children, hx]), he c (by simp [Node.children])]
    | object l ps =>
      simp only [ink_append, ink_nil, ink_text, ink_pretty, ink_newLine, ink_indent, ink_dedent, ink_panic, ink_if, ink_space, ink_write, ink_list, ink_braces, ink_block, ink_object, ink_template, tidyNode, codeOf, tidyExpr, codeExpr, codeProperties_eq, tidyProps_eq, hprl ps (fun x hx => by simp [Node.children, hx])]
    | function l f => simp only [ink_append, ink_nil, ink_text, ink_pretty, ink_newLine, ink_indent, ink_dedent, ink_panic, ink_if, ink_space, ink_write, ink_list, ink_braces, ink_block, ink_object, ink_template, tidyNode, codeOf, tidyExpr, codeExpr, hf f (by simp [Node.children])]
    | «class» l c => simp only [ink_append, ink_nil, ink_text, ink_pretty, ink_newLine, ink_indent, ink_dedent, ink_panic, ink_if, ink_space, ink_write, ink_list, ink_braces, ink_block, ink_object, ink_template, tidyNode, codeOf, tidyExpr, codeExpr, hc c (by simp [Node.children])]
    | member l o p => simp only [ink_append, ink_nil, ink_text, ink_pretty, ink_newLine, ink_indent, ink_dedent, ink_panic, ink_if, ink_space, ink_write, ink_list, ink_braces, ink_block, ink_object, ink_template, tidyNode, codeOf, tidyExpr, codeExpr, tidy_power, bareIdent, he o (by simp [Node.children])]
    | cmember l o p => simp only [ink_append, ink_nil, ink_text, ink_pretty, ink_newLine, ink_indent, ink_dedent, ink_panic, ink_if, ink_space, ink_write, ink_list, ink_braces, ink_block, ink_object, ink_template, tidyNode, codeOf, tidyExpr, codeExpr, tidy_power, he o (by simp [Node.children]), he p (by simp [Node.children])]
    | binary l op a b => simp only [ink_append, ink_nil, ink_text, ink_pretty, ink_newLine, ink_indent, ink_dedent, ink_panic, ink_if, ink_space, ink_write, ink_list, ink_braces, ink_block, ink_object, ink_template, tidyNode, codeOf, tidyExpr, codeExpr, tidy_power, tidy_spacing, he a (by simp [Node.children]), he b (by simp [Node.children])]
    | «prefix» l op a | «postfix» l op a | spread l a => simp only [ink_append, ink_nil, ink_text, ink_pretty, ink_newLine, ink_indent, ink_dedent, ink_panic, ink_if, ink_space, ink_write, ink_list, ink_braces, ink_block, ink_object, ink_template, tidyNode, codeOf, tidyExpr, codeExpr, he a (by simp [Node.children])]
    | cond l a b c => simp only [ink_append, ink_nil, ink_text, ink_pretty, ink_newLine, ink_indent, ink_dedent, ink_panic, ink_if, ink_space, ink_write, ink_list, ink_braces, ink_block, ink_object, ink_template, tidyNode, codeOf, tidyExpr, codeExpr, he a (by simp [Node.children]), he b (by simp [Node.children]), he c (by simp [Node.children])]
    | _ => simp only [ink_append, ink_nil, ink_text, ink_pretty, ink_newLine, ink_indent, ink_dedent, ink_panic, ink_if, ink_space, ink_write, ink_list, ink_braces, ink_block, ink_object, ink_template, tidyNode, codeOf, tidyExpr, codeExpr, bareIdent]
  · cases k with
    | computed l e => simp only [ink_append, ink_nil, ink_text, ink_pretty, ink_newLine, ink_indent, ink_dedent, ink_panic, ink_if, ink_space, ink_write, ink_list, ink_braces, ink_block, ink_object, ink_template, tidyNode, codeOf, tidyKey, codeKey, he e (by simp [Node.children])]
    | _ => simp only [ink_append, ink_nil, ink_text, ink_pretty, ink_newLine, ink_indent, ink_dedent, ink_panic, ink_if, ink_space, ink_write, ink_list, ink_braces, ink_block, ink_object, ink_template, tidyNode, codeOf, tidyKey, codeKey]
  · cases p with
    | literal l k v => simp only [ink_append, ink_nil, ink_text, ink_pretty, ink_newLine, ink_indent, ink_dedent, ink_panic, ink_if, ink_space, ink_write, ink_list, ink_braces, ink_block, ink_object, ink_template, tidyNode, codeOf, tidyProp, codeProperty, he v (by simp [Node.children]), hk k (by simp [Node.children])]
    | method l k l' f => simp only [ink_append, ink_nil, ink_text, ink_pretty, ink_newLine, ink_indent, ink_dedent, ink_panic, ink_if, ink_space, ink_write, ink_list, ink_braces, ink_block, ink_object, ink_template, tidyNode, codeOf, tidyProp, codeProperty, hf f (by simp [Node.children]), hk k (by simp [Node.children])]
    | spread l e => simp only [ink_append, ink_nil, ink_text, ink_pretty, ink_newLine, ink_indent, ink_dedent, ink_panic, ink_if, ink_space, ink_write, ink_list, ink_braces, ink_block, ink_object, ink_template, tidyNode, codeOf, tidyProp, codeProperty, he e (by simp [Node.children])]
    | shorthand => simp only [ink_append, ink_nil, ink_text, ink_pretty, ink_newLine, ink_indent, ink_dedent, ink_panic, ink_if, ink_space, ink_write, ink_list, ink_braces, ink_block, ink_object, ink_template, tidyNode, codeOf, tidyProp, codeProperty]
  · cases p with
    | object l ps =>
      simp only [ink_append, ink_nil, ink_text, ink_pretty, ink_newLine, ink_indent, ink_dedent, ink_panic, ink_if, ink_space, ink_write, ink_list, ink_braces, ink_block, ink_object, ink_template, tidyNode, codeOf, tidyPat, codePattern, codeProperties_eq, tidyProps_eq, hprl ps (fun x hx => by simp [Node.children, hx])]
    | array l ps =>
      simp only [ink_append, ink_nil, ink_text, ink_pretty, ink_newLine, ink_indent, ink_dedent, ink_panic, ink_if, ink_space, ink_write, ink_list, ink_braces, ink_block, ink_object, ink_template, tidyNode, codeOf, tidyPat, codePattern, codePatterns_eq, tidyPats_eq, hpl ps (fun x hx => by simp [Node.children, hx])]
    | assign l p e => simp only [ink_append, ink_nil, ink_text, ink_pretty, ink_newLine, ink_indent, ink_dedent, ink_panic, ink_if, ink_space, ink_write, ink_list, ink_braces, ink_block, ink_object, ink_template, tidyNode, codeOf, tidyPat, codePattern, he e (by simp [Node.children]), hp p (by simp [Node.children])]
    | _ => simp only [ink_append, ink_nil, ink_text, ink_pretty, ink_newLine, ink_indent, ink_dedent, ink_panic, ink_if, ink_space, ink_write, ink_list, ink_braces, ink_block, ink_object, ink_template, tidyNode, codeOf, tidyPat, codePattern, bareIdent]
  · obtain ⟨n, g, ps, ⟨l, b⟩⟩ := f
    simp only [ink_append, ink_nil, ink_text, ink_pretty, ink_newLine, ink_indent, ink_dedent, ink_panic, ink_if, ink_space, ink_write, ink_list, ink_braces, ink_block, ink_object, ink_template, tidyNode, codeOf, tidyFunc, tidyBlock, codeFunc, codeBlock, codeStmts_eq, codePatterns_eq, tidyPats_eq, bare_codeName, bare_codeKeyword,
        hpl ps (fun x hx => by simp [Node.children, hx]), hsl b (fun x hx => by simp [Node.children, hx])]
  · obtain ⟨n, s, l, ms⟩ := c
    cases s with
    | none => simp only [ink_append, ink_nil, ink_text, ink_pretty, ink_newLine, ink_indent, ink_dedent, ink_panic, ink_if, ink_space, ink_write, ink_list, ink_braces, ink_block, ink_object, ink_template, tidyNode, codeOf, tidyClass, codeClass, codeMembers_eq, tidyMembers_eq, bare_codeName, bare_codeKeyword, hml ms (fun x hx => by simp [Node.children, hx])]
    | some e => simp only [ink_append, ink_nil, ink_text, ink_pretty, ink_newLine, ink_indent, ink_dedent, ink_panic, ink_if, ink_space, ink_write, ink_list, ink_braces, ink_block, ink_object, ink_template, tidyNode, codeOf, tidyClass, codeClass, codeMembers_eq, tidyMembers_eq, bare_codeName, bare_codeKeyword, hml ms (fun x hx => by simp [Node.children, hx]), he e (by simp [Node.children])]
  · cases m with
    | error => rfl
    | literal l s k v => simp only [ink_append, ink_nil, ink_text, ink_pretty, ink_newLine, ink_indent, ink_dedent, ink_panic, ink_if, ink_space, ink_write, ink_list, ink_braces, ink_block, ink_object, ink_template, tidyNode, codeOf, tidyMember, codeMember, he v (by simp [Node.children]), hk k (by simp [Node.children])]
    | method l s k kd l' f => simp only [ink_append, ink_nil, ink_text, ink_pretty, ink_newLine, ink_indent, ink_dedent, ink_panic, ink_if, ink_space, ink_write, ink_list, ink_braces, ink_block, ink_object, ink_template, tidyNode, codeOf, tidyMember, codeMember, hf f (by simp [Node.children]), hk k (by simp [Node.children])]
  · obtain ⟨l, b⟩ := b
    simp only [ink_append, ink_nil, ink_text, ink_pretty, ink_newLine, ink_indent, ink_dedent, ink_panic, ink_if, ink_space, ink_write, ink_list, ink_braces, ink_block, ink_object, ink_template, tidyNode, codeOf, tidyBlock, codeBlock, codeStmts_eq, hsl b (fun x hx => by simp [Node.children, hx])]
  · cases s with
    | empty => rfl
    | debugger => rfl
    | expr l e =>
      simp only [tidyNode, codeOf, tidyStmt, codeStmt, tidy_allowed]
      split <;> simp only [ink_append, ink_nil, ink_text, ink_pretty, ink_newLine, ink_indent, ink_dedent, ink_panic, ink_if, ink_space, ink_write, ink_list, ink_braces, ink_block, ink_object, ink_template, tidyNode, codeOf, tidyStmt, codeStmt, tidy_allowed, he e (by simp [Node.children])]
    | decl l k ds =>
      simp only [ink_append, ink_nil, ink_text, ink_pretty, ink_newLine, ink_indent, ink_dedent, ink_panic, ink_if, ink_space, ink_write, ink_list, ink_braces, ink_block, ink_object, ink_template, tidyNode, codeOf, tidyStmt, codeStmt, codeDeclarators_eq, tidyDeclarators_eq, hdl ds (fun x hx => by simp [Node.children, hx])]
    | ret l v => cases v with
      | none => rfl
      | some e => simp only [ink_append, ink_nil, ink_text, ink_pretty, ink_newLine, ink_indent, ink_dedent, ink_panic, ink_if, ink_space, ink_write, ink_list, ink_braces, ink_block, ink_object, ink_template, tidyNode, codeOf, tidyStmt, codeStmt, he e (by simp [Node.children])]
    | brk l v => simp only [ink_append, ink_nil, ink_text, ink_pretty, ink_newLine, ink_indent, ink_dedent, ink_panic, ink_if, ink_space, ink_write, ink_list, ink_braces, ink_block, ink_object, ink_template, tidyNode, codeOf, tidyStmt, codeStmt, bare_codeJump]
    | cont l v => simp only [ink_append, ink_nil, ink_text, ink_pretty, ink_newLine, ink_indent, ink_dedent, ink_panic, ink_if, ink_space, ink_write, ink_list, ink_braces, ink_block, ink_object, ink_template, tidyNode, codeOf, tidyStmt, codeStmt, bare_codeJump]
    | throw l e => simp only [ink_append, ink_nil, ink_text, ink_pretty, ink_newLine, ink_indent, ink_dedent, ink_panic, ink_if, ink_space, ink_write, ink_list, ink_braces, ink_block, ink_object, ink_template, tidyNode, codeOf, tidyStmt, codeStmt, he e (by simp [Node.children])]
    | ifS l t c a => cases a with
      | none => simp only [ink_append, ink_nil, ink_text, ink_pretty, ink_newLine, ink_indent, ink_dedent, ink_panic, ink_if, ink_space, ink_write, ink_list, ink_braces, ink_block, ink_object, ink_template, tidyNode, codeOf, tidyStmt, codeStmt, he t (by simp [Node.children]), hs c (by simp [Node.children])]
      | some a => simp only [ink_append, ink_nil, ink_text, ink_pretty, ink_newLine, ink_indent, ink_dedent, ink_panic, ink_if, ink_space, ink_write, ink_list, ink_braces, ink_block, ink_object, ink_template, tidyNode, codeOf, tidyStmt, codeStmt, tidy_isBlock, he t (by simp [Node.children]), hs c (by simp [Node.children]), hs a (by simp [Node.children])]
    | whileS l t b => simp only [ink_append, ink_nil, ink_text, ink_pretty, ink_newLine, ink_indent, ink_dedent, ink_panic, ink_if, ink_space, ink_write, ink_list, ink_braces, ink_block, ink_object, ink_template, tidyNode, codeOf, tidyStmt, codeStmt, he t (by simp [Node.children]), hs b (by simp [Node.children])]
    | doS l b t => simp only [ink_append, ink_nil, ink_text, ink_pretty, ink_newLine, ink_indent, ink_dedent, ink_panic, ink_if, ink_space, ink_write, ink_list, ink_braces, ink_block, ink_object, ink_template, tidyNode, codeOf, tidyStmt, codeStmt, tidy_isBlock, he t (by simp [Node.children]), hs b (by simp [Node.children])]
    | forS l i t u b =>
      have hb0 := hs b (by simp [Node.children])
      cases i with
      | none => cases t with
        | none => cases u with
          | none => simp only [ink_append, ink_nil, ink_text, ink_pretty, ink_newLine, ink_indent, ink_dedent, ink_panic, ink_if, ink_space, ink_write, ink_list, ink_braces, ink_block, ink_object, ink_template, tidyNode, codeOf, tidyStmt, codeStmt, hb0]
          | some u => simp only [ink_append, ink_nil, ink_text, ink_pretty, ink_newLine, ink_indent, ink_dedent, ink_panic, ink_if, ink_space, ink_write, ink_list, ink_braces, ink_block, ink_object, ink_template, tidyNode, codeOf, tidyStmt, codeStmt, hb0, he u (by simp [Node.children])]
        | some t => cases u with
          | none => simp only [ink_append, ink_nil, ink_text, ink_pretty, ink_newLine, ink_indent, ink_dedent, ink_panic, ink_if, ink_space, ink_write, ink_list, ink_braces, ink_block, ink_object, ink_template, tidyNode, codeOf, tidyStmt, codeStmt, hb0, he t (by simp [Node.children])]
          | some u => simp only [ink_append, ink_nil, ink_text, ink_pretty, ink_newLine, ink_indent, ink_dedent, ink_panic, ink_if, ink_space, ink_write, ink_list, ink_braces, ink_block, ink_object, ink_template, tidyNode, codeOf, tidyStmt, codeStmt, hb0, he u (by simp [Node.children]), he t (by simp [Node.children])]
      | some i => cases t with
        | none => cases u with
          | none => simp only [ink_append, ink_nil, ink_text, ink_pretty, ink_newLine, ink_indent, ink_dedent, ink_panic, ink_if, ink_space, ink_write, ink_list, ink_braces, ink_block, ink_object, ink_template, tidyNode, codeOf, tidyStmt, codeStmt, hb0, hi i (by simp [Node.children])]
          | some u => simp only [ink_append, ink_nil, ink_text, ink_pretty, ink_newLine, ink_indent, ink_dedent, ink_panic, ink_if, ink_space, ink_write, ink_list, ink_braces, ink_block, ink_object, ink_template, tidyNode, codeOf, tidyStmt, codeStmt, hb0, hi i (by simp [Node.children]), he u (by simp [Node.children])]
        | some t => cases u with
          | none => simp only [ink_append, ink_nil, ink_text, ink_pretty, ink_newLine, ink_indent, ink_dedent, ink_panic, ink_if, ink_space, ink_write, ink_list, ink_braces, ink_block, ink_object, ink_template, tidyNode, codeOf, tidyStmt, codeStmt, hb0, hi i (by simp [Node.children]), he t (by simp [Node.children])]
          | some u => simp only [ink_append, ink_nil, ink_text, ink_pretty, ink_newLine, ink_indent, ink_dedent, ink_panic, ink_if, ink_space, ink_write, ink_list, ink_braces, ink_block, ink_object, ink_template, tidyNode, codeOf, tidyStmt, codeStmt, hb0, hi i (by simp [Node.children]), he u (by simp [Node.children]), he t (by simp [Node.children])]
    | forIn l i r b => simp only [ink_append, ink_nil, ink_text, ink_pretty, ink_newLine, ink_indent, ink_dedent, ink_panic, ink_if, ink_space, ink_write, ink_list, ink_braces, ink_block, ink_object, ink_template, tidyNode, codeOf, tidyStmt, codeStmt, hi i (by simp [Node.children]), he r (by simp [Node.children]), hs b (by simp [Node.children])]
    | forOf l i r b => simp only [ink_append, ink_nil, ink_text, ink_pretty, ink_newLine, ink_indent, ink_dedent, ink_panic, ink_if, ink_space, ink_write, ink_list, ink_braces, ink_block, ink_object, ink_template, tidyNode, codeOf, tidyStmt, codeStmt, hi i (by simp [Node.children]), he r (by simp [Node.children]), hs b (by simp [Node.children])]
    | tryS l b h f =>
      have hb0 := hb b (by simp [Node.children])
      cases h with
      | none => cases f with
        | none => simp only [ink_append, ink_nil, ink_text, ink_pretty, ink_newLine, ink_indent, ink_dedent, ink_panic, ink_if, ink_space, ink_write, ink_list, ink_braces, ink_block, ink_object, ink_template, tidyNode, codeOf, tidyStmt, codeStmt, hb0]
        | some f => simp only [ink_append, ink_nil, ink_text, ink_pretty, ink_newLine, ink_indent, ink_dedent, ink_panic, ink_if, ink_space, ink_write, ink_list, ink_braces, ink_block, ink_object, ink_template, tidyNode, codeOf, tidyStmt, codeStmt, hb0, hb f (by simp [Node.children])]
      | some h => cases f with
        | none => simp only [ink_append, ink_nil, ink_text, ink_pretty, ink_newLine, ink_indent, ink_dedent, ink_panic, ink_if, ink_space, ink_write, ink_list, ink_braces, ink_block, ink_object, ink_template, tidyNode, codeOf, tidyStmt, codeStmt, hb0, hct h (by simp [Node.children])]
        | some f => simp only [ink_append, ink_nil, ink_text, ink_pretty, ink_newLine, ink_indent, ink_dedent, ink_panic, ink_if, ink_space, ink_write, ink_list, ink_braces, ink_block, ink_object, ink_template, tidyNode, codeOf, tidyStmt, codeStmt, hb0, hct h (by simp [Node.children]), hb f (by simp [Node.children])]
    | block l b =>
      simp only [ink_append, ink_nil, ink_text, ink_pretty, ink_newLine, ink_indent, ink_dedent, ink_panic, ink_if, ink_space, ink_write, ink_list, ink_braces, ink_block, ink_object, ink_template, tidyNode, codeOf, tidyStmt, codeStmt, codeStmts_eq, hsl b (fun x hx => by simp [Node.children, hx])]
    | labeled l n b => simp only [ink_append, ink_nil, ink_text, ink_pretty, ink_newLine, ink_indent, ink_dedent, ink_panic, ink_if, ink_space, ink_write, ink_list, ink_braces, ink_block, ink_object, ink_template, tidyNode, codeOf, tidyStmt, codeStmt, hs b (by simp [Node.children])]
    | function l f => simp only [ink_append, ink_nil, ink_text, ink_pretty, ink_newLine, ink_indent, ink_dedent, ink_panic, ink_if, ink_space, ink_write, ink_list, ink_braces, ink_block, ink_object, ink_template, tidyNode, codeOf, tidyStmt, codeStmt, hf f (by simp [Node.children])]
    | «class» l c => simp only [ink_append, ink_nil, ink_text, ink_pretty, ink_newLine, ink_indent, ink_dedent, ink_panic, ink_if, ink_space, ink_write, ink_list, ink_braces, ink_block, ink_object, ink_template, tidyNode, codeOf, tidyStmt, codeStmt, hc c (by simp [Node.children])]
    | switch l d l' cs =>
      have := hsw cs (by simp [Node.children])
      simp only [ink_append, ink_nil, ink_text, ink_pretty, ink_newLine, ink_indent, ink_dedent, ink_panic, ink_if, ink_space, ink_write, ink_list, ink_braces, ink_block, ink_object, ink_template, tidyNode, codeOf, tidyStmt, codeStmt, he d (by simp [Node.children]), this]
    | «import» l ss src => simp only [ink_append, ink_nil, ink_text, ink_pretty, ink_newLine, ink_indent, ink_dedent, ink_panic, ink_if, ink_space, ink_write, ink_list, ink_braces, ink_block, ink_object, ink_template, tidyNode, codeOf, tidyStmt, codeStmt, bare_codeImport]
  · obtain ⟨l, p, i⟩ := d
    cases i with
    | none => simp only [ink_append, ink_nil, ink_text, ink_pretty, ink_newLine, ink_indent, ink_dedent, ink_panic, ink_if, ink_space, ink_write, ink_list, ink_braces, ink_block, ink_object, ink_template, tidyNode, codeOf, tidyDeclarator, codeDeclarator, hp p (by simp [Node.children])]
    | some e => simp only [ink_append, ink_nil, ink_text, ink_pretty, ink_newLine, ink_indent, ink_dedent, ink_panic, ink_if, ink_space, ink_write, ink_list, ink_braces, ink_block, ink_object, ink_template, tidyNode, codeOf, tidyDeclarator, codeDeclarator, hp p (by simp [Node.children]), he e (by simp [Node.children])]
  · cases i with
    | decl l k ds =>
      simp only [ink_append, ink_nil, ink_text, ink_pretty, ink_newLine, ink_indent, ink_dedent, ink_panic, ink_if, ink_space, ink_write, ink_list, ink_braces, ink_block, ink_object, ink_template, tidyNode, codeOf, tidyInit, codeForInit, codeDeclarators_eq, tidyDeclarators_eq, hdl ds (fun x hx => by simp [Node.children, hx])]
    | expr l e => simp only [ink_append, ink_nil, ink_text, ink_pretty, ink_newLine, ink_indent, ink_dedent, ink_panic, ink_if, ink_space, ink_write, ink_list, ink_braces, ink_block, ink_object, ink_template, tidyNode, codeOf, tidyInit, codeForInit, he e (by simp [Node.children])]
  · obtain ⟨l, t, b⟩ := c
    cases t with
    | none => simp only [ink_append, ink_nil, ink_text, ink_pretty, ink_newLine, ink_indent, ink_dedent, ink_panic, ink_if, ink_space, ink_write, ink_list, ink_braces, ink_block, ink_object, ink_template, tidyNode, codeOf, tidyCase, codeCase, codeStmts_eq, hsl b (fun x hx => by simp [Node.children, hx])]
    | some e => simp only [ink_append, ink_nil, ink_text, ink_pretty, ink_newLine, ink_indent, ink_dedent, ink_panic, ink_if, ink_space, ink_write, ink_list, ink_braces, ink_block, ink_object, ink_template, tidyNode, codeOf, tidyCase, codeCase, codeStmts_eq, hsl b (fun x hx => by simp [Node.children, hx]), he e (by simp [Node.children])]
  · obtain ⟨l, p, b⟩ := c
    simp only [ink_append, ink_nil, ink_text, ink_pretty, ink_newLine, ink_indent, ink_dedent, ink_panic, ink_if, ink_space, ink_write, ink_list, ink_braces, ink_block, ink_object, ink_template, tidyNode, codeOf, tidyCatch, codeCatch, hp p (by simp [Node.children]), hb b (by simp [Node.children])]
  · simp only [Node.children] at hca
    simp only [ink_append, ink_nil, ink_text, ink_pretty, ink_newLine, ink_indent, ink_dedent, ink_panic, ink_if, ink_space, ink_write, ink_list, ink_braces, ink_block, ink_object, ink_template, tidyNode, codeOf, codeCases_eq, tidyCases_eq, hcal cs (fun x hx => by simp [Node.children, hx])]


theorem codegen_tidy (m : List Stmt) : codegen (tidyStmts m) true = codegen m true := by
  unfold codegen codeModuleMin
  simp only [if_true]
  rw [← runMin_ink, ← runMin_ink (codeStmts m).flatten]
  have h : ∀ l : List (List Piece), ink l.flatten = (l.map ink).flatten := by
    intro l
    induction l with
    | nil => rfl
    | cons x l ih => simp [ink_append, ih]
  rw [h, h, codeStmts_eq, codeStmts_eq, tidy_flat fun s _ => codeOf_tidy (.stmt s)]

end
end Ratel
