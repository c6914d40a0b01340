import Verif.Props.Visitor
import Verif.Props.Accepted
/-! C55, C56: what a visitor is told: every node, and every statement list. -/
namespace Ratel
open Spec

theorem called_append (a b : List Event) : called (a ++ b) = called a ++ called b := by
  induction a with
  | nil => rfl
  | cons x a ih => cases x <;> simp [called, ih]

theorem called_flatMap (f : α → List Event) (l : List α) : called (l.flatMap f) = l.flatMap fun x => called (f x) := by
  induction l with
  | nil => rfl
  | cons x l ih => simp [called_append, ih]

theorem called_filter (a : List Event) : called (a.filter Event.notList) = called a := by
  induction a with
  | nil => rfl
  | cons x a ih => cases x <;> simp [called, List.filter_cons, ih]

/-- The node with its method. -/
def withMethod (n : Node) : Option ((ExprCb ⊕ StmtCb) × Node) := (nodeMethod n).map fun cb => (cb, n)

theorem called_visitNode (n : Node) : called (visitNode n) = n.all.filterMap withMethod := by
  rw [← called_filter]
  show called (visitBare n) = _
  induction n using Node.ind with
  | h n ih =>
    rw [visitBare_eq, Node.all_eq, List.filterMap_cons, List.filterMap_flatMap, called_append, called_append,
      called_flatMap, flatMap_congr' ih]
    generalize n.children.flatMap _ = k
    have hn : ∀ s : Name, called (visitName s) = [] := by intro s; cases s <;> rfl
    have hs : ∀ s : ImportSpec, called (visitImportSpec s) = [] := by intro s; cases s <;> rfl
    node_cases n
    all_goals simp [preEvents, postEvents, called, withMethod, nodeMethod, exprMethod, stmtMethod, exprCb, stmtCb, called_append, hn, hs, called_flatMap]

/-- C55: a visitor is called exactly once for every node of a module that has a callback method, with the method of its kind, parents
before their children and in source order. -/
theorem C55_every_node_once (m : List Stmt) : called (visitModule m) = (moduleNodes m).filterMap withMethod := by
  rw [visitModule, visitStmts_eq, called_flatMap, moduleNodes, List.filterMap_flatMap]
  congr 1
  funext s
  exact called_visitNode (.stmt s)

theorem panic_visitNode (n : Node) : Event.panic ∈ visitNode n ↔ ∃ k ∈ n.all, k.isErrorMember = true := by
  have : Event.panic ∈ visitNode n ↔ Event.panic ∈ visitBare n := by simp [visitBare]
  rw [this]
  induction n using Node.ind with
  | h n ih =>
    rw [visitBare_eq, Node.all_eq]
    have hk : Event.panic ∈ n.children.flatMap visitBare ↔ ∃ k ∈ n.children.flatMap Node.all, k.isErrorMember = true := by
      simp only [List.mem_flatMap]
      constructor
      · rintro ⟨c, hc, h⟩
        obtain ⟨k, h1, h2⟩ := (ih c hc (by simp [visitBare])).1 h
        exact ⟨k, ⟨c, hc, h1⟩, h2⟩
      · rintro ⟨k, ⟨c, hc, h1⟩, h2⟩
        exact ⟨c, hc, (ih c hc (by simp [visitBare])).2 ⟨k, h1, h2⟩⟩
    have hn : ∀ s : Name, Event.panic ∉ visitName s := by intro s; cases s <;> simp [visitName]
    have hs : ∀ s : ImportSpec, Event.panic ∉ visitImportSpec s := by intro s; cases s <;> simp [visitImportSpec]
    have own : Event.panic ∈ preEvents n ++ postEvents n ↔ n.isErrorMember = true := by
      clear hk ih this
      node_cases n
      all_goals simp [preEvents, postEvents, Node.isErrorMember, exprCb, stmtCb, hn, hs]
    simp only [List.mem_append, List.mem_cons, exists_eq_or_imp, hk] at own ⊢
    rw [← own]
    grind

/-- C55: visiting panics exactly if the module has a placeholder for a class member with an error. -/
theorem C55_panics_iff (m : List Stmt) : Event.panic ∈ visitModule m ↔ ∃ n ∈ moduleNodes m, n.isErrorMember = true := by
  rw [visitModule, visitStmts_eq, moduleNodes]
  simp only [List.mem_flatMap]
  constructor
  · rintro ⟨s, hs, h⟩
    obtain ⟨k, h1, h2⟩ := (panic_visitNode (.stmt s)).1 h
    exact ⟨k, ⟨s, hs, h1⟩, h2⟩
  · rintro ⟨k, ⟨s, hs, h1⟩, h2⟩
    exact ⟨s, hs, (panic_visitNode (.stmt s)).2 ⟨k, h1, h2⟩⟩

/-- C55: visiting an accepted module does not panic. -/
theorem C55_accepted_no_panic [Unicode] {fuel : Nat} {src : Bytes} {m : List Stmt} (h : parse fuel src = .ok (.ok m)) :
    Event.panic ∉ visitModule m := by
  rw [C55_panics_iff]
  rintro ⟨n, h1, h2⟩
  rw [(C13_no_placeholders h h1).1] at h2
  cases h2

theorem listed_append (a b : List Event) : listed (a ++ b) = listed a ++ listed b := by
  induction a with
  | nil => rfl
  | cons x a ih => cases x <;> simp [listed, ih]

theorem listed_flatMap (f : α → List Event) (l : List α) : listed (l.flatMap f) = l.flatMap fun x => listed (f x) := by
  induction l with
  | nil => rfl
  | cons x l ih => simp [listed_append, ih]

/-- The lists announced for a node are its own and those of its children. -/
theorem listed_node (n : Node) : (listed (visitNode n)).Perm (ownList n ++ n.children.flatMap fun c => listed (visitNode c)) := by
  have spec : ∀ s : ImportSpec, listed (visitImportSpec s) = [] := by intro s; cases s <;> rfl
  have nm : ∀ s : Name, listed (visitName s) = [] := by intro s; cases s <;> rfl
  rcases n with e | k | p | p | f | c' | m | b | s | d | i | c' | c' | cs
  all_goals first | cases e | cases k | cases p | cases f | cases c' | cases m | cases b | cases s | cases d | cases i | skip
  all_goals try (rename_i b; have hb : Block := b; clear hb; cases b)
  case cls.mk e _ _ => cases e <;> simp [visitNode, visitClass, ownList, nm, visitMembers_eq, Node.children, List.flatMap_map, listed_append, listed_flatMap]
  case stmt.forS i t u _ =>
    cases i <;> cases t <;> cases u <;> simp [visitNode, visitStmt, stmtEvents, Node.children, ownList, listed_append, listed]
  case stmt.ret e => cases e <;> simp [visitNode, visitStmt, stmtEvents, Node.children, ownList, listed_append, listed]
  case stmt.ifS e => cases e <;> simp [visitNode, visitStmt, stmtEvents, Node.children, ownList, listed_append, listed]
  case stmt.tryS h f => cases h <;> cases f <;> simp [visitNode, visitStmt, stmtEvents, Node.children, ownList, listed_append, listed]
  case declarator.mk h => cases h <;> simp [visitNode, visitDeclarator, Node.children, ownList, listed_append]
  case case.mk h _ => cases h <;> simp [visitNode, visitCase, Node.children, visitStmts_eq, List.flatMap_map, ownList, listed_append, listed, listed_flatMap]
  all_goals
    simp [visitNode, visitExpr, visitKey, visitProperty, visitPattern, visitFunc,
      visitMember, visitBlock, visitStmt, visitForInit,
      visitCatch, visitExprs_eq, visitProperties_eq, visitPatterns_eq,
      visitStmts_eq, visitDeclarators_eq, visitCases_eq, Node.children,
      visitBlockBody, exprEvents, stmtEvents,
      List.flatMap_map, spec, nm, ownList, listed_append, listed, listed_flatMap]

theorem perm_flatMap {f g : α → List β} {l : List α} (h : ∀ a ∈ l, (f a).Perm (g a)) : (l.flatMap f).Perm (l.flatMap g) := by
  induction l with
  | nil => exact .nil
  | cons a l ih =>
    rw [List.flatMap_cons, List.flatMap_cons]
    exact (h a (by simp)).append (ih fun b hb => h b (by simp [hb]))

theorem listed_visitNode (n : Node) : (listed (visitNode n)).Perm (n.all.flatMap ownList) := by
  induction n using Node.ind with
  | h n ih =>
    refine (listed_node n).trans ?_
    rw [Node.all_eq, List.flatMap_cons, List.flatMap_assoc]
    exact (List.Perm.refl _).append (perm_flatMap ih)

/-- C56 without the list of the program: each statement list inside a module is announced exactly once. (The full statement
would add the list `m` itself, and is false: `C56_program_not_announced`.) -/
theorem C56_lists_once_partial (m : List Stmt) : (listed (visitModule m)).Perm ((moduleNodes m).flatMap ownList) := by
  rw [visitModule, visitStmts_eq, listed_flatMap, moduleNodes, List.flatMap_assoc]
  exact perm_flatMap fun s _ => listed_visitNode (.stmt s)

/-- The events `k` occur as one piece of the events `l`. -/
def Within (k l : List Event) : Prop := ∃ a b, l = a ++ (k ++ b)

theorem Within.trans {a b c : List Event} (h : Within a b) (h' : Within b c) : Within a c := by
  obtain ⟨x, y, rfl⟩ := h
  obtain ⟨z, w, rfl⟩ := h'
  exact ⟨z ++ x, y ++ w, by simp⟩

theorem Within.flatMap {f : α → List Event} {l : List α} {a : α} (h : a ∈ l) : Within (f a) (l.flatMap f) := by
  obtain ⟨x, y, rfl⟩ := List.append_of_mem h
  exact ⟨x.flatMap f, y.flatMap f, by simp⟩

theorem Within.left {a b c : List Event} (h : Within a b) : Within a (b ++ c) := by
  obtain ⟨x, y, rfl⟩ := h
  exact ⟨x, y ++ c, by simp⟩

theorem Within.right {a b c : List Event} (h : Within a b) : Within a (c ++ b) := by
  obtain ⟨x, y, rfl⟩ := h
  exact ⟨c ++ x, y, by simp⟩

theorem Within.refl {a : List Event} : Within a a := ⟨[], [], by simp⟩

theorem Within.cons {a b : List Event} {x : Event} (h : Within a b) : Within a (x :: b) := .right (c := [x]) h


/-- The children visited in front of the statement list of a node. -/
def kidsBefore : Node → List Node
  | .expr (.arrowB _ ps _) => ps.map .pat
  | .func (.mk _ _ ps _) => ps.map .pat
  | .block _ => []
  | .stmt (.block _ _) => []
  | .case (.mk _ t _) => t.toList.map .expr
  | n => n.children

/-- The statements of the statement list of a node. -/
def kidsListed (n : Node) : List Node := (ownList n).flatten.map .stmt

theorem children_split (n : Node) : n.children = kidsBefore n ++ kidsListed n := by
  rcases n with e | k | p | p | f | c' | m | b | s | d | i | c' | c' | cs
  all_goals first | cases e | cases k | cases p | cases f | cases c' | cases m | cases b | cases s | cases d | cases i | skip
  all_goals try (rename_i b; have hb : Block := b; clear hb; cases b)
  all_goals simp [kidsBefore, kidsListed, ownList, Node.children]

set_option maxHeartbeats 1000000 in
/-- A traversal emits the own events of a node around those of its children, and announces the statement list in front of its
statements. -/
theorem visitNode_eq (n : Node) : visitNode n = preEvents n ++ (kidsBefore n).flatMap visitNode ++
    (ownList n).map .statementList ++ (kidsListed n).flatMap visitNode ++ postEvents n := by
  rcases n with e | k | p | p | f | c' | m | b | s | d | i | c' | c' | cs
  all_goals first | cases e | cases k | cases p | cases f | cases c' | cases m | cases b | cases s | cases d | cases i | skip
  all_goals try (rename_i b; have hb : Block := b; clear hb; cases b)
  case cls.mk e _ _ => cases e <;> simp [visitNode, visitClass, preEvents, postEvents, visitMembers_eq, Node.children, List.flatMap_map, kidsBefore, kidsListed, ownList]
  case stmt.forS i t u _ =>
    cases i <;> cases t <;> cases u <;> simp [visitNode, visitStmt, stmtEvents, preEvents, postEvents, Node.children, stmtCb, kidsBefore, kidsListed, ownList]
  case stmt.ret e => cases e <;> simp [visitNode, visitStmt, stmtEvents, preEvents, postEvents, Node.children, stmtCb, kidsBefore, kidsListed, ownList]
  case stmt.ifS e => cases e <;> simp [visitNode, visitStmt, stmtEvents, preEvents, postEvents, Node.children, stmtCb, kidsBefore, kidsListed, ownList]
  case stmt.tryS h f => cases h <;> cases f <;> simp [visitNode, visitStmt, stmtEvents, preEvents, postEvents, Node.children, stmtCb, kidsBefore, kidsListed, ownList]
  case declarator.mk h => cases h <;> simp [visitNode, visitDeclarator, preEvents, postEvents, Node.children, kidsBefore, kidsListed, ownList]
  case case.mk h _ => cases h <;> simp [visitNode, visitCase, preEvents, postEvents, visitStmts_eq, List.flatMap_map, kidsBefore, kidsListed, ownList]
  all_goals
    simp [visitNode, visitExpr, visitKey, visitProperty, visitPattern, visitFunc,
      visitMember, visitBlock, visitStmt, visitForInit,
      visitCatch, visitExprs_eq, visitProperties_eq, visitPatterns_eq,
      visitStmts_eq, visitDeclarators_eq, visitCases_eq, preEvents, postEvents, Node.children,
      visitBlockBody, exprEvents, stmtEvents, exprCb, stmtCb,
      List.flatMap_map, kidsBefore, kidsListed, ownList]

theorem within_child {n c : Node} (h : c ∈ n.children) : Within (visitNode c) (visitNode n) := by
  rw [visitNode_eq n]
  rw [children_split, List.mem_append] at h
  rcases h with h | h
  · exact .left (.left (.left (.right (.flatMap h))))
  · exact .left (.right (.flatMap h))

theorem within_node {n c : Node} (h : c ∈ n.all) : Within (visitNode c) (visitNode n) := by
  induction n using Node.ind with
  | h n ih =>
    rw [Node.all_eq, List.mem_cons, List.mem_flatMap] at h
    rcases h with rfl | ⟨k, hk, h⟩
    · exact .refl
    · exact (ih k hk h).trans (within_child hk)

/-- C56 without the list of the program: a statement list is announced immediately before its statements are visited, and these are
visited like a module. -/
theorem C56_list_first_partial {m : List Stmt} {n : Node} (hn : n ∈ moduleNodes m) {body : List Stmt} (hb : body ∈ ownList n) :
    ∃ before after, visitModule m = before ++ .statementList body :: visitModule body ++ after := by
  have h1 : Within (.statementList body :: visitModule body) (visitNode n) := by
    have hl : ownList n = [body] := by
      revert hb
      unfold ownList
      split <;> simp <;> rintro rfl <;> rfl
    rw [visitNode_eq n, hl]
    refine ⟨preEvents n ++ (kidsBefore n).flatMap visitNode, postEvents n, ?_⟩
    simp [kidsListed, hl, visitModule, visitStmts_eq, List.flatMap_map, visitNode]
  have h2 : Within (visitNode n) (visitModule m) := by
    rw [moduleNodes, List.mem_flatMap] at hn
    obtain ⟨s, hs, hn⟩ := hn
    rw [visitModule, visitStmts_eq]
    exact (within_node hn).trans (.flatMap (f := visitStmt) hs)
  obtain ⟨a, b, h3⟩ := h1.trans h2
  exact ⟨a, b, by rw [h3]; simp⟩

/-- C56 is false for the list of the program: it is announced for no module of which it is not also a list inside. In a module
without blocks, functions and cases nothing is announced at all. -/
theorem C56_program_not_announced (m : List Stmt) (h : ∀ n ∈ moduleNodes m, ownList n = []) (body : List Stmt) :
    Event.statementList body ∉ visitModule m := by
  intro hb
  have h1 : body ∈ listed (visitModule m) := by
    generalize visitModule m = l at hb
    induction l with
    | nil => simp at hb
    | cons x l ih =>
      rcases List.mem_cons.1 hb with h | h
      · subst h; simp [listed]
      · cases x <;> simp [listed, ih h]
  have h2 := (C56_lists_once_partial m).mem_iff.1 h1
  rw [List.mem_flatMap] at h2
  obtain ⟨n, hn, hb⟩ := h2
  rw [h n hn] at hb
  cases hb

/-! ### Concrete cases -/

/-- `f(() => { a })`: five nodes in order. -/
example : (called (visitModule [.expr ⟨0, 14⟩ (.call ⟨1, 14⟩ (.ident ⟨0, 1⟩ bs!"f")
    [.arrowB ⟨2, 13⟩ [] (.mk ⟨8, 13⟩ [.expr ⟨10, 11⟩ (.ident ⟨10, 11⟩ bs!"a")])])])).map (·.1) =
    [.inr .expression, .inl .call, .inl .identifier, .inl .arrow, .inr .expression, .inl .identifier] := by decide +kernel

/-- … and one statement list. -/
example : (listed (visitModule [.expr ⟨0, 14⟩ (.call ⟨1, 14⟩ (.ident ⟨0, 1⟩ bs!"f")
    [.arrowB ⟨2, 13⟩ [] (.mk ⟨8, 13⟩ [.expr ⟨10, 11⟩ (.ident ⟨10, 11⟩ bs!"a")])])])).map List.length = [1] := by decide +kernel

/-- The program `a` is not announced. -/
example : listed (visitModule [.expr ⟨0, 1⟩ (.ident ⟨0, 1⟩ bs!"a")]) = [] := by decide +kernel

/-- A class member with an error makes visiting panic. -/
example : Event.panic ∈ visitModule [.class ⟨0, 10⟩ (.mk (.mandatory ⟨⟨6, 7⟩, bs!"A"⟩) none ⟨8, 10⟩ [.error ⟨9, 9⟩])] := by
  simp [visitModule, visitStmts, visitStmt, stmtEvents, visitClass, visitName, visitMembers, visitMember]

end Ratel
