import Verif.Lemmas.TidyBare
/-! Without generators the code is read as the tree itself. -/
namespace Ratel
open Spec

set_option linter.unusedSectionVars false
set_option linter.unusedSimpArgs false

def rereadNode : Node → Node
  | .expr e => .expr (rereadExpr e)
  | .key k => .key (rereadKey k)
  | .prop p => .prop (rereadProp p)
  | .pat p => .pat (rereadPat p)
  | .func f => .func (rereadFunc f)
  | .cls c => .cls (rereadClass c)
  | .member m => .member (rereadMember m)
  | .block b => .block (rereadBlock b)
  | .stmt s => .stmt (rereadStmt s)
  | .declarator d => .declarator (rereadDeclarator d)
  | .forInit i => .forInit (rereadInit i)
  | .case c => .case (rereadCase c)
  | .catch c => .catch (rereadCatch c)
  | .switchBody cs => .switchBody (rereadCases cs)

section
variable [Unicode]

theorem rereadStmts_congr {l : List Stmt} (h : ∀ s ∈ l, rereadStmt s = tidyStmt s) : rereadStmts l = tidyStmts l := by
  induction l with
  | nil => rfl
  | cons s l ih =>
    rw [rereadStmts, tidyStmts, h s List.mem_cons_self, ih fun x hx => h x (List.mem_cons_of_mem _ hx)]

theorem rereadNode_tidy (n : Node) (hn : n.Forall Ordinary) : rereadNode n = tidyNode n := by
  induction n using Node.ind with
  | h n ih =>
  rw [Node.forall_iff] at hn
  have ho := hn.1
  replace hn := hn.2
  have he : ∀ e, Node.expr e ∈ n.children → rereadExpr e = tidyExpr e := fun e h => by simpa [rereadNode, tidyNode] using ih _ h (hn _ h)
  have hs : ∀ e, Node.stmt e ∈ n.children → rereadStmt e = tidyStmt e := fun e h => by simpa [rereadNode, tidyNode] using ih _ h (hn _ h)
  have hp : ∀ e, Node.pat e ∈ n.children → rereadPat e = tidyPat e := fun e h => by simpa [rereadNode, tidyNode] using ih _ h (hn _ h)
  have hk : ∀ e, Node.key e ∈ n.children → rereadKey e = tidyKey e := fun e h => by simpa [rereadNode, tidyNode] using ih _ h (hn _ h)
  have hf : ∀ e, Node.func e ∈ n.children → rereadFunc e = tidyFunc e := fun e h => by simpa [rereadNode, tidyNode] using ih _ h (hn _ h)
  have hc : ∀ e, Node.cls e ∈ n.children → rereadClass e = tidyClass e := fun e h => by simpa [rereadNode, tidyNode] using ih _ h (hn _ h)
  have hb : ∀ e, Node.block e ∈ n.children → rereadBlock e = tidyBlock e := fun e h => by simpa [rereadNode, tidyNode] using ih _ h (hn _ h)
  have hd : ∀ e, Node.declarator e ∈ n.children → rereadDeclarator e = tidyDeclarator e := fun e h => by simpa [rereadNode, tidyNode] using ih _ h (hn _ h)
  have hi : ∀ e, Node.forInit e ∈ n.children → rereadInit e = tidyInit e := fun e h => by simpa [rereadNode, tidyNode] using ih _ h (hn _ h)
  have hpr : ∀ e, Node.prop e ∈ n.children → rereadProp e = tidyProp e := fun e h => by simpa [rereadNode, tidyNode] using ih _ h (hn _ h)
  have hm : ∀ e, Node.member e ∈ n.children → rereadMember e = tidyMember e := fun e h => by simpa [rereadNode, tidyNode] using ih _ h (hn _ h)
  have hca : ∀ e, Node.case e ∈ n.children → rereadCase e = tidyCase e := fun e h => by simpa [rereadNode, tidyNode] using ih _ h (hn _ h)
  have hct : ∀ e, Node.catch e ∈ n.children → rereadCatch e = tidyCatch e := fun e h => by simpa [rereadNode, tidyNode] using ih _ h (hn _ h)
  have hsw : ∀ cs, Node.switchBody cs ∈ n.children → rereadCases cs = tidyCases cs := fun e h => by simpa [rereadNode, tidyNode] using ih _ h (hn _ h)
  have hel : ∀ xs : List Expr, (∀ x ∈ xs, Node.expr x ∈ n.children) → xs.map rereadExpr = xs.map tidyExpr := fun xs h => List.map_congr_left fun x hx => he x (h x hx)
  have hsl : ∀ xs : List Stmt, (∀ x ∈ xs, Node.stmt x ∈ n.children) → rereadStmts xs = tidyStmts xs := fun xs h => rereadStmts_congr fun x hx => hs x (h x hx)
  have hpl : ∀ xs : List Pattern, (∀ x ∈ xs, Node.pat x ∈ n.children) → xs.map rereadPat = xs.map tidyPat := fun xs h => List.map_congr_left fun x hx => hp x (h x hx)
  have hdl : ∀ xs : List Declarator, (∀ x ∈ xs, Node.declarator x ∈ n.children) → xs.map rereadDeclarator = xs.map tidyDeclarator := fun xs h => List.map_congr_left fun x hx => hd x (h x hx)
  have hprl : ∀ xs : List Property, (∀ x ∈ xs, Node.prop x ∈ n.children) → xs.map rereadProp = xs.map tidyProp := fun xs h => List.map_congr_left fun x hx => hpr x (h x hx)
  have hml : ∀ xs : List ClassMember, (∀ x ∈ xs, Node.member x ∈ n.children) → xs.map rereadMember = xs.map tidyMember := fun xs h => List.map_congr_left fun x hx => hm x (h x hx)
  have hcal : ∀ xs : List SwitchCase, (∀ x ∈ xs, Node.case x ∈ n.children) → xs.map rereadCase = xs.map tidyCase := fun xs h => List.map_congr_left fun x hx => hca x (h x hx)
  clear ih
  rcases n with e | k | p | p | f | c | m | b | s | d | i | c | c | cs
  · cases e with
    | arrowB l ps b =>
      obtain ⟨l', b⟩ := b
      simp only [rereadNode, tidyNode, rereadExpr, tidyExpr, rereadBlock, tidyBlock, tidyPats_eq, rereadPats_eq, hpl ps (fun x hx => by simp [Node.children, hx]), hsl b (fun x hx => by simp [Node.children, hx])]
    | arrowE l ps b =>
      simp only [rereadNode, tidyNode, rereadExpr, tidyExpr, tidyPats_eq, rereadPats_eq, hpl ps (fun x hx => by simp [Node.children, hx]), he b (by simp [Node.children])]
    | seq l es | array l es | template l es qs =>
      simp only [rereadNode, tidyNode, rereadExpr, tidyExpr, tidyExprs_eq, rereadExprs_eq, hel es (fun x hx => by simp [Node.children, hx])]
    | call l c es | tagged l c l' es qs =>
      simp only [rereadNode, tidyNode, rereadExpr, tidyExpr, tidyExprs_eq, rereadExprs_eq, hel es (fun x hx => by simp [Node.children, hx]), he c (by simp [Node.children])]
    | object l ps =>
      simp only [rereadNode, tidyNode, rereadExpr, tidyExpr, tidyProps_eq, rereadProps_eq, hprl ps (fun x hx => by simp [Node.children, hx])]
    | function l f => simp only [rereadNode, tidyNode, rereadExpr, tidyExpr, hf f (by simp [Node.children])]
    | «class» l c => simp only [rereadNode, tidyNode, rereadExpr, tidyExpr, hc c (by simp [Node.children])]
    | member l o p => simp only [rereadNode, tidyNode, rereadExpr, tidyExpr, bareIdent, he o (by simp [Node.children])]
    | cmember l o p => simp only [rereadNode, tidyNode, rereadExpr, tidyExpr, he o (by simp [Node.children]), he p (by simp [Node.children])]
    | binary l op a b => simp only [rereadNode, tidyNode, rereadExpr, tidyExpr, he a (by simp [Node.children]), he b (by simp [Node.children])]
    | «prefix» l op a | «postfix» l op a | spread l a => simp only [rereadNode, tidyNode, rereadExpr, tidyExpr, he a (by simp [Node.children])]
    | cond l a b c => simp only [rereadNode, tidyNode, rereadExpr, tidyExpr, he a (by simp [Node.children]), he b (by simp [Node.children]), he c (by simp [Node.children])]
    | _ => simp only [rereadNode, tidyNode, rereadExpr, tidyExpr, bareIdent]
  · cases k with
    | computed l e => simp only [rereadNode, tidyNode, rereadKey, tidyKey, he e (by simp [Node.children])]
    | _ => simp only [rereadNode, tidyNode, rereadKey, tidyKey]
  · cases p with
    | literal l k v => simp only [rereadNode, tidyNode, rereadProp, tidyProp, he v (by simp [Node.children]), hk k (by simp [Node.children])]
    | method l k l' f => simp only [rereadNode, tidyNode, rereadProp, tidyProp, hf f (by simp [Node.children]), hk k (by simp [Node.children])]
    | spread l e => simp only [rereadNode, tidyNode, rereadProp, tidyProp, he e (by simp [Node.children])]
    | shorthand => simp only [rereadNode, tidyNode, rereadProp, tidyProp]
  · cases p with
    | object l ps =>
      simp only [rereadNode, tidyNode, rereadPat, tidyPat, tidyProps_eq, rereadProps_eq, hprl ps (fun x hx => by simp [Node.children, hx])]
    | array l ps =>
      simp only [rereadNode, tidyNode, rereadPat, tidyPat, tidyPats_eq, rereadPats_eq, hpl ps (fun x hx => by simp [Node.children, hx])]
    | assign l p e => simp only [rereadNode, tidyNode, rereadPat, tidyPat, he e (by simp [Node.children]), hp p (by simp [Node.children])]
    | _ => simp only [rereadNode, tidyNode, rereadPat, tidyPat, bareIdent]
  · obtain ⟨n, g, ps, ⟨l, b⟩⟩ := f
    cases (ho : g = false)
    simp only [rereadNode, tidyNode, rereadFunc, tidyFunc, rereadBlock, tidyBlock, tidyPats_eq, rereadPats_eq, hpl ps (fun x hx => by simp [Node.children, hx]), hsl b (fun x hx => by simp [Node.children, hx])]
  · obtain ⟨n, s, l, ms⟩ := c
    cases s with
    | none => simp only [rereadNode, tidyNode, rereadClass, tidyClass, tidyMembers_eq, rereadMembers_eq, hml ms (fun x hx => by simp [Node.children, hx])]
    | some e => simp only [rereadNode, tidyNode, rereadClass, tidyClass, tidyMembers_eq, rereadMembers_eq, hml ms (fun x hx => by simp [Node.children, hx]), he e (by simp [Node.children])]
  · cases m with
    | error => rfl
    | literal l s k v => simp only [rereadNode, tidyNode, rereadMember, tidyMember, he v (by simp [Node.children]), hk k (by simp [Node.children])]
    | method l s k kd l' f => simp only [rereadNode, tidyNode, rereadMember, tidyMember, hf f (by simp [Node.children]), hk k (by simp [Node.children])]
  · obtain ⟨l, b⟩ := b
    simp only [rereadNode, tidyNode, rereadBlock, tidyBlock, hsl b (fun x hx => by simp [Node.children, hx])]
  · cases s with
    | empty => rfl
    | debugger => rfl
    | expr l e => simp only [rereadNode, tidyNode, rereadStmt, tidyStmt, he e (by simp [Node.children])]
    | decl l k ds =>
      simp only [rereadNode, tidyNode, rereadStmt, tidyStmt, tidyDeclarators_eq, rereadDeclarators_eq, hdl ds (fun x hx => by simp [Node.children, hx])]
    | ret l v => cases v with
      | none => rfl
      | some e => simp only [rereadNode, tidyNode, rereadStmt, tidyStmt, he e (by simp [Node.children])]
    | brk l v => simp only [rereadNode, tidyNode, rereadStmt, tidyStmt]
    | cont l v => simp only [rereadNode, tidyNode, rereadStmt, tidyStmt]
    | throw l e => simp only [rereadNode, tidyNode, rereadStmt, tidyStmt, he e (by simp [Node.children])]
    | ifS l t c a => cases a with
      | none => simp only [rereadNode, tidyNode, rereadStmt, tidyStmt, he t (by simp [Node.children]), hs c (by simp [Node.children])]
      | some a => simp only [rereadNode, tidyNode, rereadStmt, tidyStmt, he t (by simp [Node.children]), hs c (by simp [Node.children]), hs a (by simp [Node.children])]
    | whileS l t b => simp only [rereadNode, tidyNode, rereadStmt, tidyStmt, he t (by simp [Node.children]), hs b (by simp [Node.children])]
    | doS l b t => simp only [rereadNode, tidyNode, rereadStmt, tidyStmt, he t (by simp [Node.children]), hs b (by simp [Node.children])]
    | forS l i t u b =>
      have hb0 := hs b (by simp [Node.children])
      cases i with
      | none => cases t with
        | none => cases u with
          | none => simp only [rereadNode, tidyNode, rereadStmt, tidyStmt, hb0]
          | some u => simp only [rereadNode, tidyNode, rereadStmt, tidyStmt, hb0, he u (by simp [Node.children])]
        | some t => cases u with
          | none => simp only [rereadNode, tidyNode, rereadStmt, tidyStmt, hb0, he t (by simp [Node.children])]
          | some u => simp only [rereadNode, tidyNode, rereadStmt, tidyStmt, hb0, he u (by simp [Node.children]), he t (by simp [Node.children])]
      | some i => cases t with
        | none => cases u with
          | none => simp only [rereadNode, tidyNode, rereadStmt, tidyStmt, hb0, hi i (by simp [Node.children])]
          | some u => simp only [rereadNode, tidyNode, rereadStmt, tidyStmt, hb0, hi i (by simp [Node.children]), he u (by simp [Node.children])]
        | some t => cases u with
          | none => simp only [rereadNode, tidyNode, rereadStmt, tidyStmt, hb0, hi i (by simp [Node.children]), he t (by simp [Node.children])]
          | some u => simp only [rereadNode, tidyNode, rereadStmt, tidyStmt, hb0, hi i (by simp [Node.children]), he u (by simp [Node.children]), he t (by simp [Node.children])]
    | forIn l i r b => simp only [rereadNode, tidyNode, rereadStmt, tidyStmt, hi i (by simp [Node.children]), he r (by simp [Node.children]), hs b (by simp [Node.children])]
    | forOf l i r b => simp only [rereadNode, tidyNode, rereadStmt, tidyStmt, hi i (by simp [Node.children]), he r (by simp [Node.children]), hs b (by simp [Node.children])]
    | tryS l b h f =>
      have hb0 := hb b (by simp [Node.children])
      cases h with
      | none => cases f with
        | none => simp only [rereadNode, tidyNode, rereadStmt, tidyStmt, hb0]
        | some f => simp only [rereadNode, tidyNode, rereadStmt, tidyStmt, hb0, hb f (by simp [Node.children])]
      | some h => cases f with
        | none => simp only [rereadNode, tidyNode, rereadStmt, tidyStmt, hb0, hct h (by simp [Node.children])]
        | some f => simp only [rereadNode, tidyNode, rereadStmt, tidyStmt, hb0, hct h (by simp [Node.children]), hb f (by simp [Node.children])]
    | block l b =>
      simp only [rereadNode, tidyNode, rereadStmt, tidyStmt, hsl b (fun x hx => by simp [Node.children, hx])]
    | labeled l n b => simp only [rereadNode, tidyNode, rereadStmt, tidyStmt, hs b (by simp [Node.children])]
    | function l f => simp only [rereadNode, tidyNode, rereadStmt, tidyStmt, hf f (by simp [Node.children])]
    | «class» l c => simp only [rereadNode, tidyNode, rereadStmt, tidyStmt, hc c (by simp [Node.children])]
    | switch l d l' cs =>
      have := hsw cs (by simp [Node.children])
      simp only [rereadNode, tidyNode, rereadStmt, tidyStmt, he d (by simp [Node.children]), this]
    | «import» l ss src => simp only [rereadNode, tidyNode, rereadStmt, tidyStmt]
  · obtain ⟨l, p, i⟩ := d
    cases i with
    | none => simp only [rereadNode, tidyNode, rereadDeclarator, tidyDeclarator, hp p (by simp [Node.children])]
    | some e => simp only [rereadNode, tidyNode, rereadDeclarator, tidyDeclarator, hp p (by simp [Node.children]), he e (by simp [Node.children])]
  · cases i with
    | decl l k ds =>
      simp only [rereadNode, tidyNode, rereadInit, tidyInit, tidyDeclarators_eq, rereadDeclarators_eq, hdl ds (fun x hx => by simp [Node.children, hx])]
    | expr l e => simp only [rereadNode, tidyNode, rereadInit, tidyInit, he e (by simp [Node.children])]
  · obtain ⟨l, t, b⟩ := c
    cases t with
    | none => simp only [rereadNode, tidyNode, rereadCase, tidyCase, hsl b (fun x hx => by simp [Node.children, hx])]
    | some e => simp only [rereadNode, tidyNode, rereadCase, tidyCase, hsl b (fun x hx => by simp [Node.children, hx]), he e (by simp [Node.children])]
  · obtain ⟨l, p, b⟩ := c
    simp only [rereadNode, tidyNode, rereadCatch, tidyCatch, hp p (by simp [Node.children]), hb b (by simp [Node.children])]
  · simp only [Node.children] at hca
    simp only [rereadNode, tidyNode, tidyCases_eq, rereadCases_eq, hcal cs (fun x hx => by simp [Node.children, hx])]

theorem rereadStmts_tidy {m : List Stmt} (h : ∀ n ∈ moduleNodes m, Ordinary n) : rereadStmts m = tidyStmts m := by
  have h' : ∀ s ∈ m, (Node.stmt s).Forall Ordinary := fun s hs n hn => h n (List.mem_flatMap.2 ⟨s, hs, hn⟩)
  exact rereadStmts_congr fun s hs => by simpa [rereadNode, tidyNode] using rereadNode_tidy (.stmt s) (h' s hs)

theorem rereadStmts_iff {l : List Stmt} : rereadStmts l = tidyStmts l ↔ ∀ s ∈ l, rereadStmt s = tidyStmt s := by
  refine ⟨fun h => ?_, rereadStmts_congr⟩
  induction l with
  | nil => nofun
  | cons s l ih =>
    rw [rereadStmts, tidyStmts] at h
    intro x hx
    by_cases he : isEmptyStmt s = true
    · rw [if_pos he, if_pos he] at h
      rcases List.mem_cons.1 hx with rfl | hx
      · cases x <;> simp [isEmptyStmt] at he
        rfl
      · exact ih h x hx
    · rw [if_neg he, if_neg he] at h
      injection h with h1 h2
      rcases List.mem_cons.1 hx with rfl | hx
      · exact h1
      · exact ih h2 x hx

/-- Closes a case of `ordinary_of_reread`. -/
macro "same_parts " h:ident : tactic => `(tactic| (
  simp [rereadNode, tidyNode, rereadExpr, tidyExpr, rereadKey, tidyKey, rereadProp, tidyProp, rereadPat, tidyPat, rereadFunc, tidyFunc,
    rereadClass, tidyClass, rereadMember, tidyMember, rereadBlock, tidyBlock, rereadStmt, tidyStmt, rereadDeclarator, tidyDeclarator,
    rereadInit, tidyInit, rereadCase, tidyCase, rereadCatch, tidyCatch, rereadExprs_eq, tidyExprs_eq, rereadProps_eq, tidyProps_eq,
    rereadPats_eq, tidyPats_eq, rereadMembers_eq, tidyMembers_eq, rereadDeclarators_eq, tidyDeclarators_eq, rereadCases_eq, tidyCases_eq,
    rereadStmts_iff, -List.map_map] at $h:ident
  simp [Node.children, rereadNode, tidyNode, Ordinary, or_imp, forall_and, $h:ident, rereadCases_eq, tidyCases_eq]
  try assumption
  try simp_all))

theorem ordinary_of_reread (n : Node) (h : rereadNode n = tidyNode n) : n.Forall Ordinary := by
  induction n using Node.ind with
  | h n ih =>
  rw [Node.forall_iff]
  suffices hh : Ordinary n ∧ ∀ c ∈ n.children, rereadNode c = tidyNode c from ⟨hh.1, fun c hc => ih c hc (hh.2 c hc)⟩
  clear ih
  rcases n with e | k | p | p | ⟨n, g, ps, ⟨l, b⟩⟩ | ⟨n, s, l, ms⟩ | m | ⟨l, b⟩ | s | ⟨l, p, i⟩ | i | ⟨l, t, b⟩ | ⟨l, p, b⟩ | cs
  · cases e with
    | arrowB l ps b =>
      obtain ⟨l', b⟩ := b
      same_parts h
    | _ => same_parts h
  · cases k <;> same_parts h
  · cases p <;> same_parts h
  · cases p <;> same_parts h
  · same_parts h
  · cases s <;> same_parts h
  · cases m <;> same_parts h
  · same_parts h
  · cases s with
    | ifS l t c a => cases a <;> same_parts h
    | ret l v => cases v <;> same_parts h
    | forS l i t u b => cases i <;> cases t <;> cases u <;> same_parts h
    | tryS l b h' f => cases h' <;> cases f <;> same_parts h
    | _ => same_parts h
  · cases i <;> same_parts h
  · cases i <;> same_parts h
  · cases t <;> same_parts h
  · same_parts h
  · same_parts h

theorem ordinary_iff {m : List Stmt} : rereadStmts m = tidyStmts m ↔ ∀ n ∈ moduleNodes m, Ordinary n := by
  refine ⟨fun h n hn => ?_, rereadStmts_tidy⟩
  obtain ⟨s, hs, hn⟩ := List.mem_flatMap.1 hn
  exact ordinary_of_reread (.stmt s) (by rw [rereadNode, tidyNode, rereadStmts_iff.1 h s hs]) n hn

end
end Ratel
