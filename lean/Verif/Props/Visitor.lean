import Verif.Spec.Visit
import Verif.Lemmas.Visit
/-! Properties of the visitor: C27, C28, C29, C30. -/
namespace Ratel
open Spec

/-! ### Event lists -/

theorem enters_append (a b : List Event) : enters (a ++ b) = enters a + enters b := by
  induction a with
  | nil => simp [enters]
  | cons x a ih => cases x <;> simp [enters, ih]; omega

theorem leaves_append (a b : List Event) : leaves (a ++ b) = leaves a + leaves b := by
  induction a with
  | nil => simp [leaves]
  | cons x a ih => cases x <;> simp [leaves, ih]; omega

theorem uses_append (a b : List Event) : uses (a ++ b) = uses a ++ uses b := by
  induction a with
  | nil => simp [uses]
  | cons x a ih => cases x <;> simp [uses, ih]

theorem declares_append (a b : List Event) : declares (a ++ b) = declares a ++ declares b := by
  induction a with
  | nil => simp [declares]
  | cons x a ih => cases x <;> simp [declares, ih]

theorem uses_filter (a : List Event) : uses (a.filter Event.notList) = uses a := by
  induction a with
  | nil => simp [uses]
  | cons x a ih => cases x <;> simp [uses, ih, List.filter_cons]

theorem declares_filter (a : List Event) : declares (a.filter Event.notList) = declares a := by
  induction a with
  | nil => simp [declares]
  | cons x a ih => cases x <;> simp [declares, ih, List.filter_cons]

theorem stackRun_filter (a : List Event) (st : List Node) :
    stackRun (a.filter Event.notList) st = stackRun a st := by
  induction a generalizing st with
  | nil => simp
  | cons x a ih =>
    cases x <;> simp [stackRun, ih, List.filter_cons]
    cases st <;> simp [stackRun, ih]

theorem uses_flatMap (f : α → List Event) (l : List α) :
    uses (l.flatMap f) = l.flatMap fun a => uses (f a) := by
  induction l <;> simp [uses, uses_append, *]

theorem declares_flatMap (f : α → List Event) (l : List α) :
    declares (l.flatMap f) = l.flatMap fun a => declares (f a) := by
  induction l <;> simp [declares, declares_append, *]

theorem flatMap_congr' {f g : α → List β} {l : List α} (h : ∀ a ∈ l, f a = g a) :
    l.flatMap f = l.flatMap g := by
  induction l <;> simp_all

/-- Split a goal about a node into its constructors. -/
macro "node_cases " n:ident : tactic => `(tactic| (
  rcases $n:ident with e | k | p | p | f | c' | m | b | s | d | i | c' | c' | cs
  all_goals first | cases e | cases k | cases p | cases f | cases c' | cases m | cases b | cases s | cases d | cases i | skip))

/-! ### C27 -/

/-- A balanced bracket sequence: equally many enters and leaves, and no prefix has more leaves. -/
def Spec.Balanced (l : List Event) : Prop :=
  enters l = leaves l ∧ ∀ p, p <+: l → leaves p ≤ enters p

/-- Depth after the events, `none` if it would become negative. -/
def depthRun : List Event → Nat → Option Nat
  | [], d => some d
  | .enter _ :: r, d => depthRun r (d + 1)
  | .leave :: _, 0 => none
  | .leave :: r, d + 1 => depthRun r d
  | _ :: r, d => depthRun r d

theorem depthRun_append (a b : List Event) (d : Nat) :
    depthRun (a ++ b) d = (depthRun a d).bind (depthRun b) := by
  induction a generalizing d with
  | nil => simp [depthRun]
  | cons x a ih =>
    cases x <;> simp [depthRun, ih]
    cases d <;> simp [depthRun, ih]

theorem depthRun_filter (a : List Event) (d : Nat) :
    depthRun (a.filter Event.notList) d = depthRun a d := by
  induction a generalizing d with
  | nil => simp
  | cons x a ih =>
    cases x <;> simp [depthRun, ih, List.filter_cons]
    cases d <;> simp [depthRun, ih]

theorem depthRun_sound {a : List Event} {d d' : Nat} (h : depthRun a d = some d') :
    d + enters a = d' + leaves a := by
  induction a generalizing d with
  | nil => simp [depthRun] at h; simp [h, enters, leaves]
  | cons x a ih =>
    cases x
    case leave =>
      cases d
      · simp [depthRun] at h
      · have := ih (by simpa [depthRun] using h); simp [enters, leaves]; omega
    all_goals have := ih (by simpa [depthRun] using h); simp [enters, leaves]; omega

theorem balanced_of_depthRun {a : List Event} (h : depthRun a 0 = some 0) : Balanced a := by
  refine ⟨by have := depthRun_sound h; omega, ?_⟩
  rintro p ⟨q, rfl⟩
  rw [depthRun_append] at h
  cases hp : depthRun p 0 with
  | none => simp [hp] at h
  | some d => have := depthRun_sound hp; omega

theorem depthRun_flatMap {f : α → List Event} {l : List α}
    (h : ∀ a ∈ l, ∀ d, depthRun (f a) d = some d) (d : Nat) : depthRun (l.flatMap f) d = some d := by
  induction l with
  | nil => rfl
  | cons x l ih => simp_all [depthRun_append]

theorem depthRun_names (s : Name) (d : Nat) : depthRun (visitName s) d = some d := by
  cases s <;> rfl

theorem depthRun_visitBare (n : Node) : ∀ d, depthRun (visitBare n) d = some d := by
  induction n using Node.ind with
  | h n ih =>
    intro d
    rw [visitBare_eq]
    have hk := depthRun_flatMap (f := visitBare) ih
    rw [depthRun_append, depthRun_append]
    generalize n.children.flatMap visitBare = k at hk
    node_cases n
    all_goals simp [preEvents, postEvents, depthRun, hk, exprCb, stmtCb, depthRun_append, depthRun_names]
    rw [depthRun_flatMap (fun s _ d => by cases s <;> rfl)]
    simp [hk]

/-- C27: visiting any module emits a balanced sequence of scope entries and exits. -/
theorem C27_scopes_balanced (m : List Stmt) : Balanced (visitModule m) := by
  apply balanced_of_depthRun
  rw [visitModule, visitStmts_eq]
  apply depthRun_flatMap
  intro s _ d
  rw [← depthRun_filter]
  exact depthRun_visitBare (.stmt s) d

/-- Not vacuous: `{ a; }` enters and leaves a scope. -/
example : enters (visitModule [.block ⟨0, 6⟩ [.expr ⟨2, 3⟩ (.ident ⟨2, 3⟩ bs!"a")]]) = 1 := by
  decide +kernel

/-! ### C29, C30 -/

theorem uses_visitNode (n : Node) : uses (visitNode n) = n.all.flatMap usedNames := by
  rw [← uses_filter]
  show uses (visitBare n) = _
  induction n using Node.ind with
  | h n ih =>
    rw [visitBare_eq, Node.all_eq, List.flatMap_cons, List.flatMap_assoc, uses_append, uses_append,
      uses_flatMap, flatMap_congr' ih]
    generalize n.children.flatMap _ = k
    have hn : ∀ s : Name, uses (visitName s) = [] := by intro s; cases s <;> rfl
    have hs : ∀ s : ImportSpec, uses (visitImportSpec s) = importNames s := by intro s; cases s <;> rfl
    node_cases n
    all_goals simp [preEvents, postEvents, uses, usedNames, exprCb, stmtCb, uses_append, hn, hs, uses_flatMap]

theorem declares_visitNode (n : Node) : declares (visitNode n) = n.all.flatMap declaredNames := by
  rw [← declares_filter]
  show declares (visitBare n) = _
  induction n using Node.ind with
  | h n ih =>
    rw [visitBare_eq, Node.all_eq, List.flatMap_cons, List.flatMap_assoc, declares_append, declares_append,
      declares_flatMap, flatMap_congr' ih]
    generalize n.children.flatMap _ = k
    have hn : ∀ s : Name, declares (visitName s) = nameDeclared s := by intro s; cases s <;> rfl
    have hs : ∀ s : ImportSpec, declares (visitImportSpec s) = [] := by intro s; cases s <;> rfl
    node_cases n
    all_goals simp [preEvents, postEvents, declares, declaredNames, exprCb, stmtCb, declares_append, hn, hs, declares_flatMap]

/-- C29: the use events of a module are the names used by its nodes, once each, in source order. -/
theorem C29_uses (m : List Stmt) : uses (visitModule m) = (moduleNodes m).flatMap usedNames := by
  rw [visitModule, visitStmts_eq, uses_flatMap, moduleNodes, List.flatMap_assoc]
  congr 1
  funext s
  exact uses_visitNode (.stmt s)

/-- Not vacuous: `x(y, x)` uses `x`, `y`, `x`. -/
example : uses (visitModule [.expr ⟨0, 7⟩ (.call ⟨1, 7⟩ (.ident ⟨0, 1⟩ bs!"x")
    [.ident ⟨2, 3⟩ bs!"y", .ident ⟨5, 6⟩ bs!"x"])]) = [bs!"x", bs!"y", bs!"x"] := by decide +kernel

/-- What the declare events of a module are: identifier patterns and the names of function and class
declarations, in source order. -/
theorem C30_declares (m : List Stmt) :
    declares (visitModule m) = (moduleNodes m).flatMap declaredNames := by
  rw [visitModule, visitStmts_eq, declares_flatMap, moduleNodes, List.flatMap_assoc]
  congr 1
  funext s
  exact declares_visitNode (.stmt s)

/-- C30 for modules without rest elements, object patterns and imports: every bound name is declared
once, in source order. (The full statement, without the hypothesis, is false: see the witnesses
below.) -/
theorem C30_bindings_declared_partial (m : List Stmt)
    (h : ∀ n ∈ moduleNodes m, n.missesBinding = false) :
    declares (visitModule m) = (moduleNodes m).flatMap boundNames := by
  rw [C30_declares]
  apply flatMap_congr'
  intro n hn
  have := h n hn
  node_cases n
  all_goals first | rfl | simp [Node.missesBinding] at this

/-- Not vacuous: `function f(a) { var b; }` declares `f`, `a` and `b`. -/
example :
    let m : List Stmt := [.function ⟨0, 24⟩ (.mk (.mandatory ⟨⟨9, 10⟩, bs!"f"⟩) false
      [.ident ⟨11, 12⟩ bs!"a"]
      (.mk ⟨14, 24⟩ [.decl ⟨16, 21⟩ .Var [.mk ⟨20, 21⟩ (.ident ⟨20, 21⟩ bs!"b") none]]))]
    (∀ n ∈ moduleNodes m, n.missesBinding = false) ∧
    declares (visitModule m) = [bs!"f", bs!"a", bs!"b"] := by
  refine ⟨?_, by decide +kernel⟩
  simp [moduleNodes, Node.all_eq, Node.children, Node.missesBinding]

/-- The full statement of C30 is false: `function f(...r) {}` binds `r` but does not declare it. -/
theorem C30_rest_not_declared :
    let m : List Stmt := [.function ⟨0, 18⟩ (.mk (.mandatory ⟨⟨9, 10⟩, bs!"f"⟩) false
      [.rest ⟨11, 15⟩ ⟨⟨14, 15⟩, bs!"r"⟩] (.mk ⟨16, 18⟩ []))]
    declares (visitModule m) = [bs!"f"] ∧ (moduleNodes m).flatMap boundNames = [bs!"f", bs!"r"] := by
  refine ⟨by decide +kernel, ?_⟩
  simp [moduleNodes, Node.all_eq, Node.children, boundNames, nameDeclared]

/-- The full statement of C30 is false: `var {a} = b` binds `a` but does not declare it. -/
theorem C30_shorthand_not_declared :
    let m : List Stmt := [.decl ⟨0, 11⟩ .Var [.mk ⟨4, 11⟩ (.object ⟨4, 7⟩ [.shorthand ⟨5, 6⟩ bs!"a"])
      (some (.ident ⟨10, 11⟩ bs!"b"))]]
    declares (visitModule m) = [] ∧ (moduleNodes m).flatMap boundNames = [bs!"a"] := by
  refine ⟨by decide +kernel, ?_⟩
  simp [moduleNodes, Node.all_eq, Node.children, boundNames, propBinds]

/-- The full statement of C30 is false: `import a from 'b'` binds `a` but does not declare it. -/
theorem C30_import_not_declared :
    let m : List Stmt := [.import ⟨0, 17⟩ [.default ⟨7, 8⟩ ⟨⟨7, 8⟩, bs!"a"⟩] bs!"b"]
    declares (visitModule m) = [] ∧ (moduleNodes m).flatMap boundNames = [bs!"a"] := by
  refine ⟨by decide +kernel, ?_⟩
  simp [moduleNodes, Node.all_eq, Node.children, boundNames, importBinds]

/-- C30: what the code misses, node by node: nothing, or everything the node binds. -/
theorem declaredNames_or (n : Node) :
    declaredNames n = boundNames n ∨ (declaredNames n = [] ∧ n.missesBinding = true) := by
  node_cases n
  all_goals first | exact .inl rfl | exact .inr ⟨rfl, rfl⟩

/-- C30, exactly: the names declared are the names bound, in source order, if and only if no rest element, object pattern or
import binds a name. -/
theorem C30_exactly_partial (m : List Stmt) :
    declares (visitModule m) = (moduleNodes m).flatMap boundNames ↔
      ∀ n ∈ moduleNodes m, n.missesBinding = true → boundNames n = [] := by
  rw [C30_declares]
  generalize moduleNodes m = l
  constructor
  · have key : ∀ l : List Node, (l.flatMap declaredNames).length ≤ (l.flatMap boundNames).length ∧
        ((l.flatMap declaredNames).length = (l.flatMap boundNames).length →
          ∀ n ∈ l, n.missesBinding = true → boundNames n = []) := by
      intro l
      induction l with
      | nil => simp
      | cons n l ih =>
        obtain ⟨h1, h2⟩ := ih
        simp only [List.flatMap_cons, List.length_append, List.mem_cons, forall_eq_or_imp]
        have hm : n.missesBinding = true → declaredNames n = [] := by
          node_cases n
          all_goals first | exact fun _ => rfl | (intro h; simp [Node.missesBinding] at h)
        rcases declaredNames_or n with h | ⟨h, hx⟩
        · rw [h]
          refine ⟨by omega, fun hl => ⟨fun hb => ?_, h2 (by omega)⟩⟩
          rw [← h, hm hb]
        · rw [h, List.length_nil]
          refine ⟨by omega, fun hl => ⟨fun _ => List.length_eq_zero_iff.1 (by omega), h2 (by omega)⟩⟩
    exact fun h => (key l).2 (by rw [h])
  · intro h
    apply flatMap_congr'
    intro n hn
    rcases declaredNames_or n with h' | ⟨h1, h2⟩
    · exact h'
    · rw [h1, h n hn h2]

/-- C30: nothing is declared that is not bound, and the names declared are bound in the same order. -/
theorem C30_declared_bound (m : List Stmt) :
    (declares (visitModule m)).Sublist ((moduleNodes m).flatMap boundNames) := by
  rw [C30_declares]
  generalize moduleNodes m = l
  induction l with
  | nil => exact List.Sublist.refl _
  | cons n l ih =>
    rw [List.flatMap_cons, List.flatMap_cons]
    refine List.Sublist.append ?_ ih
    rcases declaredNames_or n with h | ⟨h, -⟩
    · rw [h]; exact List.Sublist.refl _
    · rw [h]; exact List.nil_sublist _

/-! ### C28 -/

theorem map_some_cons (x : Option (List α × β)) (a : List α) :
    (x.map fun y => (a ++ y.1, y.2)) = x.bind fun y => some (a ++ y.1, y.2) := by
  cases x <;> rfl

theorem stackRun_flatMap {l : List Node} {st : List Node}
    (h : ∀ n ∈ l, ∀ r, stackRun (visitBare n ++ r) st =
      (stackRun r st).map fun x => (calls st n ++ x.1, x.2)) (r : List Event) :
    stackRun (l.flatMap visitBare ++ r) st =
      (stackRun r st).map fun x => (l.flatMap (calls st) ++ x.1, x.2) := by
  induction l with
  | nil => simp
  | cons n l ih =>
    rw [List.flatMap_cons, List.append_assoc, h n (by simp), ih fun n hn => h n (by simp [hn])]
    cases stackRun r st <;> simp

theorem stackRun_names (s : Name) (r : List Event) (st : List Node) :
    stackRun (visitName s ++ r) st = stackRun r st := by cases s <;> rfl

theorem stackRun_visitBare (n : Node) (h : ∀ k ∈ n.all, k.isImport = false) (st : List Node)
    (r : List Event) : stackRun (visitBare n ++ r) st =
      (stackRun r st).map fun x => (calls st n ++ x.1, x.2) := by
  induction n using Node.ind generalizing st r with
  | h n ih =>
    rw [Node.all_eq] at h
    simp only [List.mem_cons, List.mem_flatMap] at h
    have hn := h n (Or.inl rfl)
    have hk := fun st => stackRun_flatMap (st := st) fun c hc =>
      ih c hc (fun k hk => h k (Or.inr ⟨c, hc, hk⟩)) st
    rw [visitBare_eq, calls_eq]
    clear ih h
    have hc : ∀ l, (Node.expr (.this l)).children = [] := fun _ => rfl
    have hc3 : ∀ e l, (Node.expr (.lit l e)).children = [] := fun _ _ => rfl
    have hc' : ∀ e l, (Node.expr (.ident l e)).children = [] := fun _ _ => rfl
    have hc2 : ∀ l e m, (Node.expr (.metaProp l e m)).children = [] := fun _ _ _ => rfl
    node_cases n
    case stmt.import => simp [Node.isImport] at hn
    all_goals
      simp only [preEvents, postEvents, nodeMethod, exprMethod, stmtMethod, exprCb, stmtCb, below,
        Option.map_some, Option.map_none, Option.isSome_some, Option.isSome_none, List.append_assoc,
        if_true, Option.toList_some, Option.toList_none, List.map_nil, List.map_cons, hc, hc', hc2, hc3,
        List.cons_append, List.nil_append, stackRun, stackRun_names, hk, Option.map_map, Function.comp_def,
        List.flatMap_nil, List.append_nil]
      try simp

/-- C28 for modules without import declarations: the visitor never pops an empty stack and leaves the
stack as it found it; its callbacks are exactly the expressions and statements of the module, once
each, in source order, and at each callback the stack of parents is the chain of the ancestors of
that node. (Import declarations pop without a push, see `C28_import_unbalanced`.) -/
theorem C28_parents_partial (m : List Stmt) (h : ∀ n ∈ moduleNodes m, n.isImport = false)
    (st : List Node) :
    stackRun (visitModule m) st = some (m.flatMap fun s => calls st (.stmt s), st) := by
  have := stackRun_flatMap (l := m.map .stmt) (st := st) (fun n hn r => by
    simp only [List.mem_map] at hn
    obtain ⟨s, hs, rfl⟩ := hn
    exact stackRun_visitBare _ (fun k hk => h k (by
      simp only [moduleNodes, List.mem_flatMap]; exact ⟨s, hs, hk⟩)) st r) []
  rw [List.append_nil, List.flatMap_map, List.flatMap_map] at this
  rw [← stackRun_filter, visitModule, visitStmts_eq, List.filter_flatMap]
  simp only [stackRun, Option.map_some, List.append_nil] at this
  exact this

/-- Not vacuous: in `f(1);` the literal is reported below the call below the statement. -/
example :
    let lit : Expr := .lit ⟨2, 3⟩ (.Number bs!"1")
    let f : Expr := .ident ⟨0, 1⟩ bs!"f"
    let call : Expr := .call ⟨1, 4⟩ f [lit]
    let s : Stmt := .expr ⟨1, 4⟩ call
    (∀ n ∈ moduleNodes [s], n.isImport = false) ∧
    calls [] (.stmt s) = [⟨.inr .expression, .stmt s, []⟩, ⟨.inl .call, .expr call, [.stmt s]⟩,
      ⟨.inl .identifier, .expr f, [.expr call, .stmt s]⟩,
      ⟨.inl .literal, .expr lit, [.expr call, .stmt s]⟩] := by
  simp [moduleNodes, Node.all_eq, Node.children, Node.isImport, calls_eq, nodeMethod, stmtMethod,
    exprMethod, below]

/-- The full statement of C28 is false: `import 'a'` pops a parent that was never pushed, both on an
empty stack and inside another statement. -/
theorem C28_import_unbalanced :
    let s : Stmt := .import ⟨0, 10⟩ [] bs!"a"
    stackRun (visitModule [s]) [] = none ∧
    stackRun (visitModule [.block ⟨0, 14⟩ [s]]) [] = none ∧
    ∀ n st, stackRun (visitModule [s]) (n :: st) ≠ some (calls (n :: st) (.stmt s), n :: st) := by
  refine ⟨rfl, rfl, ?_⟩
  intro n st h
  simp [visitModule, visitStmts, visitStmt, stackRun] at h

/-- The number of pushes minus the number of pops. -/
def rise : List Event → Int
  | [] => 0
  | .pushExpr _ :: r | .pushStmt _ :: r => rise r + 1
  | .pop :: r => rise r - 1
  | _ :: r => rise r

theorem rise_append (a b : List Event) : rise (a ++ b) = rise a + rise b := by
  induction a with
  | nil => simp [rise]
  | cons x a ih => cases x <;> simp [rise, ih] <;> omega

theorem stackRun_height : ∀ {es : List Event} {st st' : List Node} {cs : List Call}, stackRun es st = some (cs, st') →
    (st'.length : Int) = st.length + rise es := by
  intro es
  induction es with
  | nil => intro st st' cs h; cases h; simp [rise]
  | cons x es ih =>
    intro st st' cs h
    cases x with
    | pushExpr e => have := ih h; simp only [List.length_cons] at this; simp only [rise]; omega
    | pushStmt e => have := ih h; simp only [List.length_cons] at this; simp only [rise]; omega
    | pop =>
      cases st with
      | nil => cases h
      | cons n st => have := ih h; simp only [List.length_cons, rise]; omega
    | onExpr cb e =>
      simp only [stackRun, Option.map_eq_some_iff] at h
      obtain ⟨⟨a, b⟩, h1, h2⟩ := h
      cases h2
      exact ih h1
    | onStmt cb e =>
      simp only [stackRun, Option.map_eq_some_iff] at h
      obtain ⟨⟨a, b⟩, h1, h2⟩ := h
      cases h2
      exact ih h1
    | _ => exact ih h

/-- The number of import declarations at and below a node. -/
def importsIn (n : Node) : Int := ((n.all.filter Node.isImport).length : Nat)

theorem rise_visitBare (n : Node) : rise (visitBare n) = - importsIn n := by
  induction n using Node.ind with
  | h n ih =>
    have hl : ∀ l : List Node, (∀ c ∈ l, rise (visitBare c) = - importsIn c) →
        rise (l.flatMap visitBare) = - (((l.flatMap Node.all).filter Node.isImport).length : Nat) := by
      intro l
      induction l with
      | nil => intro _; rfl
      | cons c l ihl =>
        intro h
        have h1 := h c (by simp)
        have h2 := ihl fun c hc => h c (by simp [hc])
        rw [List.flatMap_cons, List.flatMap_cons, rise_append, List.filter_append, List.length_append, h1, h2, importsIn]
        omega
    have hc := hl n.children ih
    have hn : ∀ s : Name, rise (visitName s) = 0 := by intro s; cases s <;> rfl
    have hi : ∀ l : List ImportSpec, rise (l.flatMap visitImportSpec) = 0 := by
      intro l
      induction l with
      | nil => rfl
      | cons x l ihl => rw [List.flatMap_cons, rise_append, ihl]; cases x <;> rfl
    rw [visitBare_eq, importsIn, Node.all_eq, rise_append, rise_append, hc]
    clear hc ih hl
    have hr : rise (preEvents n) + rise (postEvents n) = - ((if n.isImport then 1 else 0 : Nat) : Int) := by
      node_cases n
      all_goals simp [preEvents, postEvents, exprCb, stmtCb, rise, rise_append, hn, hi, Node.isImport]
    rw [List.filter_cons]
    split
    · rename_i h
      rw [h] at hr
      simp only [if_true, List.length_cons] at hr ⊢
      omega
    · rename_i h
      simp only [h, Bool.false_eq_true, if_false] at hr
      omega

/-- C28, exactly: a visitor that keeps a stack of parents finds it as it was, whatever it was, if and only if the module has no
import declaration; otherwise it is shorter, by one for each import declaration, unless the visitor popped an empty stack. -/
theorem C28_balanced_iff_partial (m : List Stmt) (st : List Node) :
    (∃ cs, stackRun (visitModule m) st = some (cs, st)) ↔ ∀ n ∈ moduleNodes m, n.isImport = false := by
  constructor
  · rintro ⟨cs, h⟩ n hn
    rw [← stackRun_filter] at h
    have h1 := stackRun_height h
    have h2 : rise ((visitModule m).filter Event.notList) = - (((moduleNodes m).filter Node.isImport).length : Nat) := by
      rw [visitModule, visitStmts_eq, List.filter_flatMap, moduleNodes]
      clear h h1 hn
      induction m with
      | nil => rfl
      | cons s m ih =>
        have := rise_visitBare (.stmt s)
        rw [importsIn] at this
        rw [List.flatMap_cons, List.flatMap_cons, rise_append, List.filter_append, List.length_append, ih]
        simp only [visitBare, visitNode] at this
        omega
    have h3 : (moduleNodes m).filter Node.isImport = [] := List.length_eq_zero_iff.1 (by omega)
    cases hi : n.isImport with
    | false => rfl
    | true => exact absurd hi (by simpa using List.filter_eq_nil_iff.1 h3 n hn)
  · exact fun h => ⟨_, C28_parents_partial m h st⟩

/-- C28: by how much the stack gets shorter. -/
theorem C28_imports_pop (m : List Stmt) {st st' : List Node} {cs : List Call} (h : stackRun (visitModule m) st = some (cs, st')) :
    st'.length + ((moduleNodes m).filter Node.isImport).length = st.length := by
  rw [← stackRun_filter] at h
  have h1 := stackRun_height h
  have h2 : rise ((visitModule m).filter Event.notList) = - (((moduleNodes m).filter Node.isImport).length : Nat) := by
    rw [visitModule, visitStmts_eq, List.filter_flatMap, moduleNodes]
    clear h h1
    induction m with
    | nil => rfl
    | cons s m ih =>
      have := rise_visitBare (.stmt s)
      rw [importsIn] at this
      rw [List.flatMap_cons, List.flatMap_cons, rise_append, List.filter_append, List.length_append, ih]
      simp only [visitBare, visitNode] at this
      omega
  omega

end Ratel
