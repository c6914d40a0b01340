import Verif.Lemmas.CodeTidy
/-! Without empty statements nothing is dropped. -/
namespace Ratel
open Spec

set_option linter.unusedSectionVars false
set_option linter.unusedSimpArgs false

section
variable [Unicode]

theorem tidyStmts_bare {l : List Stmt} (h : ∀ s ∈ l, isEmptyStmt s = false) (h' : ∀ s ∈ l, tidyStmt s = bareStmt s) :
    tidyStmts l = l.map bareStmt := by
  induction l with
  | nil => rfl
  | cons s l ih =>
    rw [tidyStmts, if_neg (by simp [h s List.mem_cons_self]), h' s List.mem_cons_self,
      ih (fun x hx => h x (List.mem_cons_of_mem _ hx)) fun x hx => h' x (List.mem_cons_of_mem _ hx)]
    rfl

theorem tidyNode_bare (n : Node) (hn : n.Forall NotEmpty) : tidyNode n = bareNode n := by
  induction n using Node.ind with
  | h n ih =>
  rw [Node.forall_iff] at hn
  have hne : ∀ s, Node.stmt s ∈ n.children → isEmptyStmt s = false := fun s h => by
    have := hn.2 _ h
    rw [Node.forall_iff] at this
    cases s <;> first | rfl | exact this.1.elim
  replace hn := hn.2
  have he : ∀ e, Node.expr e ∈ n.children → tidyExpr e = bareExpr e := fun e h => by simpa [tidyNode, bareNode] using ih _ h (hn _ h)
  have hs : ∀ e, Node.stmt e ∈ n.children → tidyStmt e = bareStmt e := fun e h => by simpa [tidyNode, bareNode] using ih _ h (hn _ h)
  have hp : ∀ e, Node.pat e ∈ n.children → tidyPat e = barePat e := fun e h => by simpa [tidyNode, bareNode] using ih _ h (hn _ h)
  have hk : ∀ e, Node.key e ∈ n.children → tidyKey e = bareKey e := fun e h => by simpa [tidyNode, bareNode] using ih _ h (hn _ h)
  have hf : ∀ e, Node.func e ∈ n.children → tidyFunc e = bareFunc e := fun e h => by simpa [tidyNode, bareNode] using ih _ h (hn _ h)
  have hc : ∀ e, Node.cls e ∈ n.children → tidyClass e = bareClass e := fun e h => by simpa [tidyNode, bareNode] using ih _ h (hn _ h)
  have hb : ∀ e, Node.block e ∈ n.children → tidyBlock e = bareBlock e := fun e h => by simpa [tidyNode, bareNode] using ih _ h (hn _ h)
  have hd : ∀ e, Node.declarator e ∈ n.children → tidyDeclarator e = bareDeclarator e := fun e h => by simpa [tidyNode, bareNode] using ih _ h (hn _ h)
  have hi : ∀ e, Node.forInit e ∈ n.children → tidyInit e = bareInit e := fun e h => by simpa [tidyNode, bareNode] using ih _ h (hn _ h)
  have hpr : ∀ e, Node.prop e ∈ n.children → tidyProp e = bareProp e := fun e h => by simpa [tidyNode, bareNode] using ih _ h (hn _ h)
  have hm : ∀ e, Node.member e ∈ n.children → tidyMember e = bareMember e := fun e h => by simpa [tidyNode, bareNode] using ih _ h (hn _ h)
  have hca : ∀ e, Node.case e ∈ n.children → tidyCase e = bareCase e := fun e h => by simpa [tidyNode, bareNode] using ih _ h (hn _ h)
  have hct : ∀ e, Node.catch e ∈ n.children → tidyCatch e = bareCatch e := fun e h => by simpa [tidyNode, bareNode] using ih _ h (hn _ h)
  have hsw : ∀ cs, Node.switchBody cs ∈ n.children → tidyCases cs = bareCases cs := fun e h => by simpa [tidyNode, bareNode] using ih _ h (hn _ h)
  have hel : ∀ xs : List Expr, (∀ x ∈ xs, Node.expr x ∈ n.children) → xs.map tidyExpr = xs.map bareExpr := fun xs h => List.map_congr_left fun x hx => he x (h x hx)
  have hsl : ∀ xs : List Stmt, (∀ x ∈ xs, Node.stmt x ∈ n.children) → tidyStmts xs = xs.map bareStmt := fun xs h => tidyStmts_bare (fun x hx => hne x (h x hx)) fun x hx => hs x (h x hx)
  have hpl : ∀ xs : List Pattern, (∀ x ∈ xs, Node.pat x ∈ n.children) → xs.map tidyPat = xs.map barePat := fun xs h => List.map_congr_left fun x hx => hp x (h x hx)
  have hdl : ∀ xs : List Declarator, (∀ x ∈ xs, Node.declarator x ∈ n.children) → xs.map tidyDeclarator = xs.map bareDeclarator := fun xs h => List.map_congr_left fun x hx => hd x (h x hx)
  have hprl : ∀ xs : List Property, (∀ x ∈ xs, Node.prop x ∈ n.children) → xs.map tidyProp = xs.map bareProp := fun xs h => List.map_congr_left fun x hx => hpr x (h x hx)
  have hml : ∀ xs : List ClassMember, (∀ x ∈ xs, Node.member x ∈ n.children) → xs.map tidyMember = xs.map bareMember := fun xs h => List.map_congr_left fun x hx => hm x (h x hx)
  have hcal : ∀ xs : List SwitchCase, (∀ x ∈ xs, Node.case x ∈ n.children) → xs.map tidyCase = xs.map bareCase := fun xs h => List.map_congr_left fun x hx => hca x (h x hx)
  clear ih
  rcases n with e | k | p | p | f | c | m | b | s | d | i | c | c | cs
  · cases e with
    | arrowB l ps b =>
      obtain ⟨l', b⟩ := b
      simp only [tidyNode, bareNode, tidyExpr, bareExpr, tidyBlock, bareBlock, bareStmts_map, barePats_map, tidyPats_eq, hpl ps (fun x hx => by simp [Node.children, hx]), hsl b (fun x hx => by simp [Node.children, hx])]
    | arrowE l ps b =>
      simp only [tidyNode, bareNode, tidyExpr, bareExpr, barePats_map, tidyPats_eq, hpl ps (fun x hx => by simp [Node.children, hx]), he b (by simp [Node.children])]
    | seq l es | array l es | template l es qs =>
      simp only [tidyNode, bareNode, tidyExpr, bareExpr, bareExprs_map, tidyExprs_eq, hel es (fun x hx => by simp [Node.children, hx])]
    | call l c es | tagged l c l' es qs =>
      simp only [tidyNode, bareNode, tidyExpr, bareExpr, bareExprs_map, tidyExprs_eq, hel es (fun x hx => by simp [Node.children, hx]), he c (by simp [Node.children])]
    | object l ps =>
      simp only [tidyNode, bareNode, tidyExpr, bareExpr, bareProps_map, tidyProps_eq, hprl ps (fun x hx => by simp [Node.children, hx])]
    | function l f => simp only [tidyNode, bareNode, tidyExpr, bareExpr, hf f (by simp [Node.children])]
    | «class» l c => simp only [tidyNode, bareNode, tidyExpr, bareExpr, hc c (by simp [Node.children])]
    | member l o p => simp only [tidyNode, bareNode, tidyExpr, bareExpr, bareIdent, he o (by simp [Node.children])]
    | cmember l o p => simp only [tidyNode, bareNode, tidyExpr, bareExpr, he o (by simp [Node.children]), he p (by simp [Node.children])]
    | binary l op a b => simp only [tidyNode, bareNode, tidyExpr, bareExpr, he a (by simp [Node.children]), he b (by simp [Node.children])]
    | «prefix» l op a | «postfix» l op a | spread l a => simp only [tidyNode, bareNode, tidyExpr, bareExpr, he a (by simp [Node.children])]
    | cond l a b c => simp only [tidyNode, bareNode, tidyExpr, bareExpr, he a (by simp [Node.children]), he b (by simp [Node.children]), he c (by simp [Node.children])]
    | _ => simp only [tidyNode, bareNode, tidyExpr, bareExpr, bareIdent]
  · cases k with
    | computed l e => simp only [tidyNode, bareNode, tidyKey, bareKey, he e (by simp [Node.children])]
    | _ => simp only [tidyNode, bareNode, tidyKey, bareKey]
  · cases p with
    | literal l k v => simp only [tidyNode, bareNode, tidyProp, bareProp, he v (by simp [Node.children]), hk k (by simp [Node.children])]
    | method l k l' f => simp only [tidyNode, bareNode, tidyProp, bareProp, hf f (by simp [Node.children]), hk k (by simp [Node.children])]
    | spread l e => simp only [tidyNode, bareNode, tidyProp, bareProp, he e (by simp [Node.children])]
    | shorthand => simp only [tidyNode, bareNode, tidyProp, bareProp]
  · cases p with
    | object l ps =>
      simp only [tidyNode, bareNode, tidyPat, barePat, bareProps_map, tidyProps_eq, hprl ps (fun x hx => by simp [Node.children, hx])]
    | array l ps =>
      simp only [tidyNode, bareNode, tidyPat, barePat, barePats_map, tidyPats_eq, hpl ps (fun x hx => by simp [Node.children, hx])]
    | assign l p e => simp only [tidyNode, bareNode, tidyPat, barePat, he e (by simp [Node.children]), hp p (by simp [Node.children])]
    | _ => simp only [tidyNode, bareNode, tidyPat, barePat, bareIdent]
  · obtain ⟨n, g, ps, ⟨l, b⟩⟩ := f
    simp only [tidyNode, bareNode, tidyFunc, bareFunc, tidyBlock, bareBlock, bareStmts_map, barePats_map, tidyPats_eq, hpl ps (fun x hx => by simp [Node.children, hx]), hsl b (fun x hx => by simp [Node.children, hx])]
  · obtain ⟨n, s, l, ms⟩ := c
    cases s with
    | none => simp only [tidyNode, bareNode, tidyClass, bareClass, bareMembers_map, tidyMembers_eq, hml ms (fun x hx => by simp [Node.children, hx])]
    | some e => simp only [tidyNode, bareNode, tidyClass, bareClass, bareMembers_map, tidyMembers_eq, hml ms (fun x hx => by simp [Node.children, hx]), he e (by simp [Node.children])]
  · cases m with
    | error => rfl
    | literal l s k v => simp only [tidyNode, bareNode, tidyMember, bareMember, he v (by simp [Node.children]), hk k (by simp [Node.children])]
    | method l s k kd l' f => simp only [tidyNode, bareNode, tidyMember, bareMember, hf f (by simp [Node.children]), hk k (by simp [Node.children])]
  · obtain ⟨l, b⟩ := b
    simp only [tidyNode, bareNode, tidyBlock, bareBlock, bareStmts_map, hsl b (fun x hx => by simp [Node.children, hx])]
  · cases s with
    | empty => rfl
    | debugger => rfl
    | expr l e => simp only [tidyNode, bareNode, tidyStmt, bareStmt, he e (by simp [Node.children])]
    | decl l k ds =>
      simp only [tidyNode, bareNode, tidyStmt, bareStmt, bareDeclarators_map, tidyDeclarators_eq, hdl ds (fun x hx => by simp [Node.children, hx])]
    | ret l v => cases v with
      | none => rfl
      | some e => simp only [tidyNode, bareNode, tidyStmt, bareStmt, he e (by simp [Node.children])]
    | brk l v => simp only [tidyNode, bareNode, tidyStmt, bareStmt]
    | cont l v => simp only [tidyNode, bareNode, tidyStmt, bareStmt]
    | throw l e => simp only [tidyNode, bareNode, tidyStmt, bareStmt, he e (by simp [Node.children])]
    | ifS l t c a => cases a with
      | none => simp only [tidyNode, bareNode, tidyStmt, bareStmt, he t (by simp [Node.children]), hs c (by simp [Node.children])]
      | some a => simp only [tidyNode, bareNode, tidyStmt, bareStmt, he t (by simp [Node.children]), hs c (by simp [Node.children]), hs a (by simp [Node.children])]
    | whileS l t b => simp only [tidyNode, bareNode, tidyStmt, bareStmt, he t (by simp [Node.children]), hs b (by simp [Node.children])]
    | doS l b t => simp only [tidyNode, bareNode, tidyStmt, bareStmt, he t (by simp [Node.children]), hs b (by simp [Node.children])]
    | forS l i t u b =>
      have hb0 := hs b (by simp [Node.children])
      cases i with
      | none => cases t with
        | none => cases u with
          | none => simp only [tidyNode, bareNode, tidyStmt, bareStmt, hb0]
          | some u => simp only [tidyNode, bareNode, tidyStmt, bareStmt, hb0, he u (by simp [Node.children])]
        | some t => cases u with
          | none => simp only [tidyNode, bareNode, tidyStmt, bareStmt, hb0, he t (by simp [Node.children])]
          | some u => simp only [tidyNode, bareNode, tidyStmt, bareStmt, hb0, he u (by simp [Node.children]), he t (by simp [Node.children])]
      | some i => cases t with
        | none => cases u with
          | none => simp only [tidyNode, bareNode, tidyStmt, bareStmt, hb0, hi i (by simp [Node.children])]
          | some u => simp only [tidyNode, bareNode, tidyStmt, bareStmt, hb0, hi i (by simp [Node.children]), he u (by simp [Node.children])]
        | some t => cases u with
          | none => simp only [tidyNode, bareNode, tidyStmt, bareStmt, hb0, hi i (by simp [Node.children]), he t (by simp [Node.children])]
          | some u => simp only [tidyNode, bareNode, tidyStmt, bareStmt, hb0, hi i (by simp [Node.children]), he u (by simp [Node.children]), he t (by simp [Node.children])]
    | forIn l i r b => simp only [tidyNode, bareNode, tidyStmt, bareStmt, hi i (by simp [Node.children]), he r (by simp [Node.children]), hs b (by simp [Node.children])]
    | forOf l i r b => simp only [tidyNode, bareNode, tidyStmt, bareStmt, hi i (by simp [Node.children]), he r (by simp [Node.children]), hs b (by simp [Node.children])]
    | tryS l b h f =>
      have hb0 := hb b (by simp [Node.children])
      cases h with
      | none => cases f with
        | none => simp only [tidyNode, bareNode, tidyStmt, bareStmt, hb0]
        | some f => simp only [tidyNode, bareNode, tidyStmt, bareStmt, hb0, hb f (by simp [Node.children])]
      | some h => cases f with
        | none => simp only [tidyNode, bareNode, tidyStmt, bareStmt, hb0, hct h (by simp [Node.children])]
        | some f => simp only [tidyNode, bareNode, tidyStmt, bareStmt, hb0, hct h (by simp [Node.children]), hb f (by simp [Node.children])]
    | block l b =>
      simp only [tidyNode, bareNode, tidyStmt, bareStmt, bareStmts_map, hsl b (fun x hx => by simp [Node.children, hx])]
    | labeled l n b => simp only [tidyNode, bareNode, tidyStmt, bareStmt, hs b (by simp [Node.children])]
    | function l f => simp only [tidyNode, bareNode, tidyStmt, bareStmt, hf f (by simp [Node.children])]
    | «class» l c => simp only [tidyNode, bareNode, tidyStmt, bareStmt, hc c (by simp [Node.children])]
    | switch l d l' cs =>
      have := hsw cs (by simp [Node.children])
      simp only [tidyNode, bareNode, tidyStmt, bareStmt, he d (by simp [Node.children]), this]
    | «import» l ss src => simp only [tidyNode, bareNode, tidyStmt, bareStmt]
  · obtain ⟨l, p, i⟩ := d
    cases i with
    | none => simp only [tidyNode, bareNode, tidyDeclarator, bareDeclarator, hp p (by simp [Node.children])]
    | some e => simp only [tidyNode, bareNode, tidyDeclarator, bareDeclarator, hp p (by simp [Node.children]), he e (by simp [Node.children])]
  · cases i with
    | decl l k ds =>
      simp only [tidyNode, bareNode, tidyInit, bareInit, bareDeclarators_map, tidyDeclarators_eq, hdl ds (fun x hx => by simp [Node.children, hx])]
    | expr l e => simp only [tidyNode, bareNode, tidyInit, bareInit, he e (by simp [Node.children])]
  · obtain ⟨l, t, b⟩ := c
    cases t with
    | none => simp only [tidyNode, bareNode, tidyCase, bareCase, bareStmts_map, hsl b (fun x hx => by simp [Node.children, hx])]
    | some e => simp only [tidyNode, bareNode, tidyCase, bareCase, bareStmts_map, hsl b (fun x hx => by simp [Node.children, hx]), he e (by simp [Node.children])]
  · obtain ⟨l, p, b⟩ := c
    simp only [tidyNode, bareNode, tidyCatch, bareCatch, hp p (by simp [Node.children]), hb b (by simp [Node.children])]
  · simp only [Node.children] at hca
    simp only [tidyNode, bareNode, bareCases_map, tidyCases_eq, hcal cs (fun x hx => by simp [Node.children, hx])]

theorem tidyStmts_same {m : List Stmt} (h : ∀ n ∈ moduleNodes m, NotEmpty n) : tidyStmts m = bareStmts m := by
  rw [bareStmts_map]
  have h' : ∀ s ∈ m, (Node.stmt s).Forall NotEmpty := fun s hs n hn => h n (List.mem_flatMap.2 ⟨s, hs, hn⟩)
  refine tidyStmts_bare (fun s hs => ?_) fun s hs => ?_
  · have := (Node.forall_iff.1 (h' s hs)).1
    cases s <;> first | rfl | exact this.elim
  · have := tidyNode_bare (.stmt s) (h' s hs)
    simpa [tidyNode, bareNode] using this

end
end Ratel
