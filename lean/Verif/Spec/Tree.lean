import Verif.Ast
/-! Specification vocabulary: the nodes of a tree.

`Node.children` lists the direct children of a node in source order and `Node.all` the node itself
and all nodes below it, in preorder. The statements of a function body are direct children of the
function; `Node.block` is a block of `try`, `catch` or `finally`, `Node.switchBody` the part of a
`switch` between its braces. Nothing here depends on the parser, the code generator or the
visitor. -/
namespace Ratel.Spec
open Ratel

/-- A node of the syntax tree, of any kind. -/
inductive Node where
  | expr (e : Expr)
  | key (k : PropKey)
  | prop (p : Property)
  | pat (p : Pattern)
  | func (f : Func)
  | cls (c : Class)
  | member (m : ClassMember)
  | block (b : Block)
  | stmt (s : Stmt)
  | declarator (d : Declarator)
  | forInit (i : ForInit)
  | case (c : SwitchCase)
  | catch (c : Catch)
  | switchBody (cs : List SwitchCase)

/-- The direct children of a node, in source order. -/
def Node.children : Node → List Node
  | .expr (.void _) => []
  | .expr (.this _) => []
  | .expr (.ident _ _) => []
  | .expr (.lit _ _) => []
  | .expr (.seq _ body) => body.map .expr
  | .expr (.array _ body) => body.map .expr
  | .expr (.member _ o _) => [.expr o]
  | .expr (.cmember _ o p) => [.expr o, .expr p]
  | .expr (.metaProp _ _ _) => []
  | .expr (.call _ c args) => .expr c :: args.map .expr
  | .expr (.binary _ _ a b) => [.expr a, .expr b]
  | .expr (.prefix _ _ a) => [.expr a]
  | .expr (.postfix _ _ a) => [.expr a]
  | .expr (.cond _ t c a) => [.expr t, .expr c, .expr a]
  | .expr (.template _ es _) => es.map .expr
  | .expr (.tagged _ t _ es _) => .expr t :: es.map .expr
  | .expr (.spread _ a) => [.expr a]
  | .expr (.arrowE _ ps b) => ps.map .pat ++ [.expr b]
  | .expr (.arrowB _ ps (.mk _ body)) => ps.map .pat ++ body.map .stmt
  | .expr (.object _ ps) => ps.map .prop
  | .expr (.function _ f) => [.func f]
  | .expr (.class _ c) => [.cls c]
  | .key (.computed _ e) => [.expr e]
  | .key (.literal _ _) => []
  | .key (.binary _ _) => []
  | .prop (.shorthand _ _) => []
  | .prop (.literal _ k v) => [.key k, .expr v]
  | .prop (.method _ k _ f) => [.key k, .func f]
  | .prop (.spread _ e) => [.expr e]
  | .pat (.void _) => []
  | .pat (.ident _ _) => []
  | .pat (.object _ ps) => ps.map .prop
  | .pat (.array _ es) => es.map .pat
  | .pat (.rest _ _) => []
  | .pat (.assign _ l r) => [.pat l, .expr r]
  | .func (.mk _ _ ps (.mk _ body)) => ps.map .pat ++ body.map .stmt
  | .cls (.mk _ super _ ms) => super.toList.map .expr ++ ms.map .member
  | .member (.error _) => []
  | .member (.method _ _ k _ _ f) => [.key k, .func f]
  | .member (.literal _ _ k v) => [.key k, .expr v]
  | .block (.mk _ body) => body.map .stmt
  | .stmt (.empty _) => []
  | .stmt (.debugger _) => []
  | .stmt (.expr _ e) => [.expr e]
  | .stmt (.decl _ _ ds) => ds.map .declarator
  | .stmt (.ret _ v) => v.toList.map .expr
  | .stmt (.brk _ _) => []
  | .stmt (.cont _ _) => []
  | .stmt (.throw _ e) => [.expr e]
  | .stmt (.ifS _ t c a) => [.expr t, .stmt c] ++ a.toList.map .stmt
  | .stmt (.whileS _ t b) => [.expr t, .stmt b]
  | .stmt (.doS _ b t) => [.stmt b, .expr t]
  | .stmt (.forS _ i t u b) =>
    i.toList.map .forInit ++ t.toList.map .expr ++ u.toList.map .expr ++ [.stmt b]
  | .stmt (.forIn _ i r b) => [.forInit i, .expr r, .stmt b]
  | .stmt (.forOf _ i r b) => [.forInit i, .expr r, .stmt b]
  | .stmt (.tryS _ b h f) => [.block b] ++ h.toList.map .catch ++ f.toList.map .block
  | .stmt (.block _ body) => body.map .stmt
  | .stmt (.labeled _ _ b) => [.stmt b]
  | .stmt (.function _ f) => [.func f]
  | .stmt (.class _ c) => [.cls c]
  | .stmt (.switch _ d _ cs) => [.expr d, .switchBody cs]
  | .stmt (.import _ _ _) => []
  | .declarator (.mk _ p i) => .pat p :: i.toList.map .expr
  | .forInit (.decl _ _ ds) => ds.map .declarator
  | .forInit (.expr _ e) => [.expr e]
  | .case (.mk _ t body) => t.toList.map .expr ++ body.map .stmt
  | .catch (.mk _ p b) => [.pat p, .block b]
  | .switchBody cs => cs.map .case

/-- Size of a node, for recursion. -/
noncomputable def Node.size : Node → Nat
  | .expr e => sizeOf e
  | .key k => sizeOf k
  | .prop p => sizeOf p
  | .pat p => sizeOf p
  | .func f => sizeOf f
  | .cls c => sizeOf c
  | .member m => sizeOf m
  | .block b => sizeOf b
  | .stmt s => sizeOf s
  | .declarator d => sizeOf d
  | .forInit i => sizeOf i
  | .case c => sizeOf c
  | .catch c => sizeOf c
  | .switchBody cs => sizeOf cs

/-- A child is smaller than its parent. -/
theorem Node.child_lt {n c : Node} (h : c ∈ n.children) : c.size < n.size := by
  rcases n with e | k | p | p | f | c' | m | b | s | d | i | c' | c' | cs
  all_goals first | cases e | cases k | cases p | cases f | cases c' | cases m | cases b | cases s | cases d | cases i | skip
  all_goals try (rename_i b; have hb : Block := b; clear hb; cases b)
  all_goals simp only [Node.children, List.mem_map, List.mem_append, List.mem_cons, List.not_mem_nil,
      or_false, Option.mem_toList] at h
  all_goals
    (try exact h.elim)
  all_goals
    repeat' (first
      | subst h
      | (refine Or.elim h ?_ ?_ <;> clear h <;> intro h)
      | (obtain ⟨x, hx, rfl⟩ := h
         first
         | have := List.sizeOf_lt_of_mem hx
         | subst hx))
  all_goals simp only [Node.size]
  all_goals simp
  all_goals omega

/-- The node and all nodes below it, in preorder. -/
def Node.all (n : Node) : List Node :=
  n :: n.children.attach.flatMap fun c => Node.all c.1
termination_by n.size
decreasing_by exact Node.child_lt c.2

/-- All nodes of a module, in source order. -/
def moduleNodes (m : List Stmt) : List Node := m.flatMap fun s => (Node.stmt s).all

/-- The placeholder for a class member that could not be parsed. -/
def Node.isErrorMember : Node → Bool
  | .member (.error _) => true
  | _ => false

/-! ### Reasoning principles -/

theorem Node.all_eq (n : Node) : n.all = n :: n.children.flatMap Node.all := by
  rw [Node.all]
  congr 1
  generalize n.children = l
  rw [List.flatMap_subtype (g := Node.all) (by simp), List.unattach_attach]

/-- Induction over nodes: a property holds of all nodes if it holds of a node whenever it holds of
its children. -/
theorem Node.ind {P : Node → Prop} (h : ∀ n, (∀ c ∈ n.children, P c) → P n) (n : Node) : P n :=
  h n fun c _ => Node.ind h c
termination_by n.size
decreasing_by exact Node.child_lt (by assumption)

/-- `P` holds of the node and of all nodes below it. -/
def Node.Forall (P : Node → Prop) (n : Node) : Prop := ∀ m ∈ n.all, P m

theorem Node.forall_iff {P : Node → Prop} {n : Node} :
    n.Forall P ↔ P n ∧ ∀ c ∈ n.children, c.Forall P := by
  unfold Node.Forall
  rw [Node.all_eq]
  constructor
  · intro h
    exact ⟨h n (by simp), fun c hc m hm => h m (by simp; exact Or.inr ⟨c, hc, hm⟩)⟩
  · rintro ⟨h1, h2⟩ m hm
    simp at hm
    rcases hm with rfl | ⟨c, hc, hm⟩
    · exact h1
    · exact h2 c hc m hm

end Ratel.Spec
