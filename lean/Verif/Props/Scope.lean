import Verif.Spec.Scope
import Verif.Props.Visitor
/-! Properties of scope analysis: C31, C32. -/
namespace Ratel
open Spec

namespace Analyzer

theorem run_append (a : Analyzer) (x y : List Event) :
    a.run (x ++ y) = (a.run x >>= fun b => b.run y) := by
  induction x generalizing a with
  | nil => rfl
  | cons e x ih =>
    simp only [List.cons_append, run]
    cases a.step e <;> simp [ih]

theorem run_filter (a : Analyzer) (x : List Event) : a.run (x.filter Event.notList) = a.run x := by
  induction x generalizing a with
  | nil => rfl
  | cons e x ih => cases e <;> simp [run, ih, List.filter_cons, step]

end Analyzer

/-- Record the contents of a region in a scope. -/
def Scope.record (s : Scope) (ns : List Node) : Scope :=
  .mk s.kind (s.usedThis || hasThis ns) (s.used ++ ns.flatMap usedNames)
    (s.declared ++ ns.flatMap declaredNames) (s.children ++ ns.flatMap scopeOf)

theorem Scope.record_nil (s : Scope) : s.record [] = s := by
  cases s; simp [record, hasThis, kind, usedThis, used, declared, children]

theorem Scope.record_append (s : Scope) (a b : List Node) :
    s.record (a ++ b) = (s.record a).record b := by
  cases s; simp [record, hasThis, kind, usedThis, used, declared, children, Bool.or_assoc]

theorem run_flatMap {l : List Node}
    (h : ∀ n ∈ l, ∀ cur ps, Analyzer.run ⟨cur, ps⟩ (visitBare n) = .ok ⟨cur.record n.region, ps⟩)
    (cur : Scope) (ps : List Scope) :
    Analyzer.run ⟨cur, ps⟩ (l.flatMap visitBare) = .ok ⟨cur.record (l.flatMap Node.region), ps⟩ := by
  induction l generalizing cur with
  | nil => simp [Scope.record_nil, Analyzer.run]
  | cons n l ih =>
    rw [List.flatMap_cons, List.flatMap_cons, Analyzer.run_append, h n (by simp), Out.bind_ok,
      ih (fun n hn => h n (by simp [hn])), Scope.record_append]

theorem run_names (s : Name) (cur : Scope) (ps : List Scope) :
    Analyzer.run ⟨cur, ps⟩ (visitName s) =
      .ok ⟨.mk cur.kind cur.usedThis cur.used (cur.declared ++ nameDeclared s) cur.children, ps⟩ := by
  cases cur; cases s <;> simp [visitName, nameDeclared, Analyzer.run, Analyzer.step, Scope.addDeclared, Scope.kind, Scope.usedThis, Scope.used, Scope.declared, Scope.children]

theorem run_imports (l : List ImportSpec) (cur : Scope) (ps : List Scope) :
    Analyzer.run ⟨cur, ps⟩ (l.flatMap visitImportSpec) =
      .ok ⟨.mk cur.kind cur.usedThis (cur.used ++ l.flatMap importNames) cur.declared cur.children, ps⟩ := by
  induction l generalizing cur with
  | nil => cases cur; simp [Analyzer.run, Scope.kind, Scope.usedThis, Scope.used, Scope.declared, Scope.children]
  | cons s l ih =>
    rw [List.flatMap_cons, Analyzer.run_append]
    cases cur
    cases s <;> simp [visitImportSpec, importNames, Analyzer.run, Analyzer.step, Scope.addUse, ih, Scope.kind, Scope.usedThis, Scope.used, Scope.declared, Scope.children]

theorem run_visitBare (n : Node) (h : ∀ k ∈ n.all, k.isErrorMember = false) (cur : Scope)
    (ps : List Scope) :
    Analyzer.run ⟨cur, ps⟩ (visitBare n) = .ok ⟨cur.record n.region, ps⟩ := by
  induction n using Node.ind generalizing cur ps with
  | h n ih =>
    rw [Node.all_eq] at h
    simp only [List.mem_cons, List.mem_flatMap] at h
    have hn := h n (Or.inl rfl)
    have hk := run_flatMap fun c hc => ih c hc (fun k hk => h k (Or.inr ⟨c, hc, hk⟩))
    rw [visitBare_eq, Node.region_eq]
    clear ih h
    have hs := Node.scope_eq
    node_cases n
    case member.error => simp [Node.isErrorMember] at hn
    all_goals
      cases cur
      simp [preEvents, postEvents, exprCb, stmtCb, Analyzer.run_append, Analyzer.run, Analyzer.step,
        opens, hk, Scope.record, Scope.kind, Scope.usedThis, Scope.used, Scope.declared, Scope.children,
        hasThis, usedNames, declaredNames, scopeOf, Scope.addUse, Scope.addDeclared, Scope.setThis,
        Scope.addChild, Scope.new, run_names, run_imports, hs, Node.inside]

theorem analyze_run (m : List Stmt) (h : ∀ n ∈ moduleNodes m, n.isErrorMember = false) :
    Analyzer.run ⟨.new .Function, []⟩ (visitModule m) = .ok ⟨moduleScope m, []⟩ := by
  have := run_flatMap (l := m.map .stmt) (fun n hn cur ps => by
    simp only [List.mem_map] at hn
    obtain ⟨s, hs, rfl⟩ := hn
    exact run_visitBare _ (fun k hk => h k (by
      simp only [moduleNodes, List.mem_flatMap]; exact ⟨s, hs, hk⟩)) cur ps) (.new .Function) []
  rw [List.flatMap_map] at this
  rw [← Analyzer.run_filter, visitModule, visitStmts_eq, List.filter_flatMap]
  have e : (m.flatMap fun a => visitBare (.stmt a)) =
      m.flatMap fun a => (visitStmt a).filter Event.notList := rfl
  rw [e] at this
  rw [this]
  simp [moduleScope, Scope.record, Scope.new, Scope.kind, Scope.usedThis, Scope.used, Scope.declared, Scope.children]

/-- C31 and C32: scope analysis of a module without error members (which no accepted module has)
finishes, and its result is the tree of scopes of the module: every name is recorded in the innermost
scope around the node that mentions it. -/
theorem C31_C32_analyze (m : List Stmt) (h : ∀ n ∈ moduleNodes m, n.isErrorMember = false) :
    analyze m = .ok (moduleScope m) := by
  unfold analyze
  rw [analyze_run m h]
  rfl

/-- Not vacuous: in `{ let a = b; } this;` the block scope declares `a` and uses `b`, the root only
uses `this`. -/
example :
    let m : List Stmt := [.block ⟨0, 14⟩ [.decl ⟨2, 11⟩ .Let [.mk ⟨6, 11⟩ (.ident ⟨6, 7⟩ bs!"a")
      (some (.ident ⟨10, 11⟩ bs!"b"))]], .expr ⟨15, 19⟩ (.this ⟨15, 19⟩)]
    (∀ n ∈ moduleNodes m, n.isErrorMember = false) ∧
    moduleScope m = .mk .Function true [] [] [.mk .Block false [bs!"b"] [bs!"a"] []] := by
  refine ⟨by simp [moduleNodes, Node.all_eq, Node.children, Node.isErrorMember], ?_⟩
  simp [moduleScope, Node.region_eq, Node.children, hasThis, usedNames, declaredNames, scopeOf, opens,
    Node.scope_eq, Node.inside]

end Ratel
