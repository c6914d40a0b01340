import Verif.Spec.Memory
/-! Trees in memory: every tree can be stored, memory determines the tree, allocation keeps it. -/
namespace Ratel
open Spec

section
variable {a b : List Node}
theorem exprs_append : exprs (a ++ b) = exprs a ++ exprs b := List.filterMap_append ..
theorem props_append : props (a ++ b) = props a ++ props b := List.filterMap_append ..
theorem pats_append : pats (a ++ b) = pats a ++ pats b := List.filterMap_append ..
theorem stmts_append : stmts (a ++ b) = stmts a ++ stmts b := List.filterMap_append ..
theorem members_append : members (a ++ b) = members a ++ members b := List.filterMap_append ..
theorem blocks_append : blocks (a ++ b) = blocks a ++ blocks b := List.filterMap_append ..
theorem catches_append : catches (a ++ b) = catches a ++ catches b := List.filterMap_append ..
theorem inits_append : inits (a ++ b) = inits a ++ inits b := List.filterMap_append ..

theorem exprs_cons (e : Expr) : exprs (.expr e :: a) = e :: exprs a := rfl
theorem exprs_nil : exprs [] = [] := rfl
theorem members_cons (e : Expr) : members (.expr e :: a) = members a := rfl
theorem stmts_cons (e : Expr) : stmts (.expr e :: a) = stmts a := rfl

theorem filterMap_none' {f : α → Option β} {g : γ → α} (h : ∀ x, f (g x) = none) (l : List γ) : (l.map g).filterMap f = [] := by
  induction l with
  | nil => rfl
  | cons x l ih => simp [h, ih]

theorem exprs_map (l : List Expr) : exprs (l.map .expr) = l := by
  induction l with
  | nil => rfl
  | cons x l ih => exact congrArg (x :: ·) ih
theorem props_map (l : List Property) : props (l.map .prop) = l := by
  induction l with
  | nil => rfl
  | cons x l ih => exact congrArg (x :: ·) ih
theorem pats_map (l : List Pattern) : pats (l.map .pat) = l := by
  induction l with
  | nil => rfl
  | cons x l ih => exact congrArg (x :: ·) ih
theorem stmts_map (l : List Stmt) : stmts (l.map .stmt) = l := by
  induction l with
  | nil => rfl
  | cons x l ih => exact congrArg (x :: ·) ih
theorem members_map (l : List ClassMember) : members (l.map .member) = l := by
  induction l with
  | nil => rfl
  | cons x l ih => exact congrArg (x :: ·) ih
theorem declarators_map (l : List Declarator) : declarators (l.map .declarator) = l := by
  induction l with
  | nil => rfl
  | cons x l ih => exact congrArg (x :: ·) ih
theorem switchCases_map (l : List SwitchCase) : switchCases (l.map .case) = l := by
  induction l with
  | nil => rfl
  | cons x l ih => exact congrArg (x :: ·) ih
theorem exprs_pats (l : List Pattern) : exprs (l.map .pat) = [] := filterMap_none' (fun _ => rfl) l
theorem exprs_stmts (l : List Stmt) : exprs (l.map .stmt) = [] := filterMap_none' (fun _ => rfl) l
theorem exprs_members (l : List ClassMember) : exprs (l.map .member) = [] := filterMap_none' (fun _ => rfl) l
theorem stmts_pats (l : List Pattern) : stmts (l.map .pat) = [] := filterMap_none' (fun _ => rfl) l
theorem stmts_exprs (l : List Expr) : stmts (l.map .expr) = [] := filterMap_none' (fun _ => rfl) l
theorem pats_stmts (l : List Stmt) : pats (l.map .stmt) = [] := filterMap_none' (fun _ => rfl) l
theorem pats_exprs (l : List Expr) : pats (l.map .expr) = [] := filterMap_none' (fun _ => rfl) l
theorem members_exprs (l : List Expr) : members (l.map .expr) = [] := filterMap_none' (fun _ => rfl) l
end

set_option linter.unusedSimpArgs false in
set_option maxHeartbeats 1000000 in
/-- A node with its own children is that node. -/
theorem rebuild_children (n : Node) : n.rebuild n.children = n := by
  rcases n with e | k | p | p | f | c' | m | b | s | d | i | c' | c' | cs
  all_goals first | cases e | cases k | cases p | cases f | cases c' | cases m | cases b | cases s | cases d | cases i | skip
  all_goals try (rename_i b; have hb : Block := b; clear hb; cases b)
  case cls.mk e _ _ => cases e <;> simp [Node.rebuild, Node.children, exprs_append, members_append, exprs_members, members_map, exprs_cons, members_cons, exprs_nil]
  case stmt.forS i t u _ =>
    cases i <;> cases t <;> cases u <;> simp [Node.rebuild, Node.children, exprs, stmts, inits]
  case stmt.ret e => cases e <;> simp [Node.rebuild, Node.children, exprs]
  case stmt.ifS e => cases e <;> simp [Node.rebuild, Node.children, exprs, stmts]
  case stmt.tryS h f => cases h <;> cases f <;> simp [Node.rebuild, Node.children, blocks, catches]
  case declarator.mk h => cases h <;> simp [Node.rebuild, Node.children, exprs, pats]
  case case.mk h _ => cases h <;> simp [Node.rebuild, Node.children, exprs_append, stmts_append, exprs_stmts, stmts_map, exprs_cons, stmts_cons, exprs_nil]
  all_goals first
    | rfl
    | simp [Node.rebuild, Node.children, exprs_map, props_map, pats_map, stmts_map, declarators_map, switchCases_map]; done
    | simp [Node.rebuild, Node.children, exprs_append, pats_append, stmts_append, pats_map, stmts_map, exprs_pats, stmts_pats, pats_stmts]; done
    | simp [Node.rebuild, Node.children, exprs_append, pats_append, pats_map, exprs_pats]; simp [exprs, pats]; done
    | simp [Node.rebuild, Node.children, exprs_cons, exprs_map]; done
    | skip

/-- Memory determines the tree. -/
theorem Spec.Holds.unique {objs : List Obj} {i : Nat} {n n' : Node} (h : Holds objs i n) (h' : Holds objs i n') : n = n' := by
  induction h generalizing n' with
  | mk ho hn hl hk ih =>
    cases h' with
    | mk ho' hn' hl' hk' =>
      rw [ho] at ho'
      cases ho'
      rw [← hn, ← hn']
      congr 1
      refine List.ext_getElem (hl.trans hl'.symm) fun j h1 h2 => ih j h1 (hk' j h2)

/-- Allocation keeps the trees in memory. -/
theorem Spec.Holds.mono {objs new : List Obj} {i : Nat} {n : Node} (h : Holds objs i n) : Holds (objs ++ new) i n := by
  induction h with
  | mk ho hn hl hk ih =>
    refine .mk ?_ hn hl ih
    rw [List.getElem?_append_left ?_, ho]
    exact (List.getElem?_eq_some_iff.1 ho).1

theorem Spec.HoldsModule.unique {mem : Mem} {m m' : List Stmt} (h : HoldsModule mem m) (h' : HoldsModule mem m') : m = m' := by
  obtain ⟨h1, h2⟩ := h
  obtain ⟨h3, h4⟩ := h'
  refine List.ext_getElem (h1.trans h3.symm) fun j g1 g2 => ?_
  exact Node.stmt.inj ((h2 j g1).unique (h4 j g2))

/-- A list of trees can be stored if each can. -/
theorem store_list {l : List Node} (h : ∀ n ∈ l, ∀ objs, ∃ new i, Holds (objs ++ new) i n) (objs : List Obj) :
    ∃ new, ∃ is : List Nat, ∃ hl : l.length = is.length, ∀ j (h : j < l.length), Holds (objs ++ new) (is[j]'(hl ▸ h)) l[j] := by
  induction l generalizing objs with
  | nil => exact ⟨[], [], rfl, by simp⟩
  | cons n l ih =>
    obtain ⟨new, i, h1⟩ := h n (by simp) objs
    obtain ⟨new', is, hl, h2⟩ := ih (fun k hk => h k (by simp [hk])) (objs ++ new)
    refine ⟨new ++ new', i :: is, by simp [hl], fun j hj => ?_⟩
    rw [← List.append_assoc]
    cases j with
    | zero => exact h1.mono
    | succ j => exact h2 j (by simpa using hj)

/-- Every tree can be stored behind whatever is in memory. -/
theorem store (n : Node) : ∀ objs, ∃ new i, Holds (objs ++ new) i n := by
  induction n using Node.ind with
  | h n ih =>
    intro objs
    obtain ⟨new, is, hl, h⟩ := store_list ih objs
    refine ⟨new ++ [⟨n, is⟩], (objs ++ new).length, ?_⟩
    rw [← List.append_assoc]
    exact .mk (o := ⟨n, is⟩) (by simp) (rebuild_children n) hl fun j hj => (h j hj).mono

/-- Every module can be stored. -/
theorem store_module (m : List Stmt) : ∃ mem, HoldsModule mem m := by
  obtain ⟨new, is, hl, h⟩ := store_list (l := m.map .stmt) (fun n _ => store n) []
  refine ⟨⟨new, is, []⟩, by simpa using hl, fun j hj => ?_⟩
  have := h j (by simpa using hj)
  simpa using this


theorem Spec.HoldsAll.mono {objs new : List Obj} {is : List Nat} {ns : List Node} (h : HoldsAll objs is ns) :
    HoldsAll (objs ++ new) is ns := by
  induction h with
  | nil => exact .nil
  | cons h _ ih => exact .cons h.mono ih

theorem Spec.HoldsAll.append {objs : List Obj} {is js : List Nat} {ns ms : List Node} (h : HoldsAll objs is ns)
    (h' : HoldsAll objs js ms) : HoldsAll objs (is ++ js) (ns ++ ms) := by
  induction h with
  | nil => exact h'
  | cons h _ ih => exact .cons h ih

/-- The children as a list. -/
theorem Spec.Holds.all {objs : List Obj} {is : List Nat} {ns : List Node} (hl : ns.length = is.length)
    (h : ∀ j (h : j < ns.length), Holds objs (is[j]'(hl ▸ h)) ns[j]) : HoldsAll objs is ns := by
  induction ns generalizing is with
  | nil =>
    cases is
    · exact .nil
    · simp at hl
  | cons n ns ih =>
    cases is with
    | nil => simp at hl
    | cons i is =>
      refine .cons (h 0 (by simp)) (ih (by simpa using hl) fun j hj => ?_)
      have := h (j + 1) (by simpa using hj)
      simpa using this

theorem Spec.HoldsAll.holds {objs : List Obj} {i : Nat} {o : Obj} {n : Node} (ho : objs[i]? = some o)
    (h : HoldsAll objs o.kids n.children) (hn : o.shape.rebuild n.children = n) : Holds objs i n := by
  have key : ∀ {is : List Nat} {ns : List Node}, HoldsAll objs is ns →
      ∃ hl : ns.length = is.length, ∀ j (h : j < ns.length), Holds objs (is[j]'(hl ▸ h)) ns[j] := by
    intro is ns h
    induction h with
    | nil => exact ⟨rfl, by simp⟩
    | cons h _ ih =>
      obtain ⟨hl, ih⟩ := ih
      refine ⟨by simp [hl], fun j hj => ?_⟩
      cases j with
      | zero => exact h
      | succ j => exact ih j (by simpa using hj)
  obtain ⟨hl, h⟩ := key h
  exact .mk ho hn hl h

theorem Spec.HoldsAll.split {objs : List Obj} {is : List Nat} {ns ms : List Node} (h : HoldsAll objs is (ns ++ ms)) :
    ∃ js ks, is = js ++ ks ∧ HoldsAll objs js ns ∧ HoldsAll objs ks ms := by
  induction ns generalizing is with
  | nil => exact ⟨[], is, rfl, .nil, h⟩
  | cons n ns ih =>
    cases h with
    | cons h h' =>
      obtain ⟨js, ks, rfl, h1, h2⟩ := ih h'
      exact ⟨_ :: js, ks, rfl, .cons h h1, h2⟩

/-- Own data do not depend on the children. -/
theorem rebuild_loc (n : Node) (cs : List Node) : nodeLoc (n.rebuild cs) = nodeLoc n := by
  unfold Node.rebuild
  split <;> first | rfl | (split <;> rfl)

theorem rebuild_arrowE {n : Node} {cs : List Node} {l : Loc} {ps : List Pattern} {e : Expr}
    (h : n.rebuild cs = .expr (.arrowE l ps e)) : ∃ ps' e', n = .expr (.arrowE l ps' e') := by
  unfold Node.rebuild at h
  split at h <;> first | (cases h; done) | (split at h <;> cases h <;> exact ⟨_, _, rfl⟩) | (split at h <;> cases h)

theorem rebuild_arrowB {n : Node} {cs : List Node} {l bl : Loc} {ps : List Pattern} {b : List Stmt}
    (h : n.rebuild cs = .expr (.arrowB l ps (.mk bl b))) : ∃ ps' b', n = .expr (.arrowB l ps' (.mk bl b')) := by
  unfold Node.rebuild at h
  split at h <;> first | (cases h; done) | (cases h; exact ⟨_, _, rfl⟩) | (split at h <;> cases h)

theorem rebuild_isArrow (n : Node) (cs : List Node) : (n.rebuild cs).isArrow = n.isArrow := by
  unfold Node.rebuild
  split <;> first | rfl | (split <;> rfl)

end Ratel
