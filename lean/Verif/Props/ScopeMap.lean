import Verif.Lemmas.VisitMap
import Verif.Spec.ScopeMap
import Verif.Props.Rename
import Verif.Props.Brackets
/-! C64: scope analysis neither depends on the layout of the source nor on the choice of names. -/
namespace Ratel
open Spec

/-! ### Positions -/

theorem Analyzer.step_bare (a : Analyzer) (e : Event) : a.step (bareEvent e) = a.step e := by
  cases e with
  | onExpr cb e => cases cb <;> rfl
  | _ => rfl

theorem Analyzer.run_bare (l : List Event) : ∀ a : Analyzer, a.run (l.map bareEvent) = a.run l := by
  induction l with
  | nil => intro a; rfl
  | cons e l ih => intro a; simp only [List.map_cons, Analyzer.run, Analyzer.step_bare, ih]

theorem analyze_bare (m : List Stmt) : analyze (bareStmts m) = analyze m := by
  simp only [analyze, visitModule, visitStmts_bare, Analyzer.run_bare]

theorem ScopeArena.step_bare (a : ScopeArena) (e : Event) : a.step (bareEvent e) = a.step e := by
  cases e with
  | onExpr cb e => cases cb <;> rfl
  | _ => rfl

theorem ScopeArena.run_bare (l : List Event) : ∀ a : ScopeArena, a.run (l.map bareEvent) = a.run l := by
  induction l with
  | nil => intro a; rfl
  | cons e l ih => intro a; simp only [List.map_cons, ScopeArena.run, ScopeArena.step_bare, ih]

theorem analyzeArena_bare (m : List Stmt) : analyzeArena (bareStmts m) = analyzeArena m := by
  simp only [analyzeArena, visitModule, visitStmts_bare, ScopeArena.run_bare]

/-- C64: trees that differ in positions only have the same scopes, as a tree and as they lie in the arena. -/
theorem C64_positions {m m' : List Stmt} (h : bareStmts m = bareStmts m') :
    analyze m = analyze m' ∧ analyzeArena m = analyzeArena m' := by
  rw [← analyze_bare m, ← analyze_bare m', ← analyzeArena_bare m, ← analyzeArena_bare m', h]
  exact ⟨rfl, rfl⟩

/-! ### Names -/

variable {ρ : Bytes → Bytes}

theorem renameScopes_append (a b : List Scope) : renameScopes ρ (a ++ b) = renameScopes ρ a ++ renameScopes ρ b := by
  induction a with
  | nil => rfl
  | cons s a ih => simp only [List.cons_append, renameScopes, ih]

/-- The analyzer with other names. -/
def rnAnalyzer (ρ : Bytes → Bytes) (a : Analyzer) : Analyzer := ⟨renameScope ρ a.current, renameScopes ρ a.parents⟩

theorem Analyzer.step_rename (a : Analyzer) (e : Event) :
    (rnAnalyzer ρ a).step (renameEvent ρ e) = a.step e >>= fun a => .ok (rnAnalyzer ρ a) := by
  rcases a with ⟨⟨k, t, u, d, c⟩, ps⟩
  cases e with
  | onExpr cb e => cases cb <;> rfl
  | leave =>
    cases ps with
    | nil => rfl
    | cons p ps =>
      rcases p with ⟨k', t', u', d', c'⟩
      simp [rnAnalyzer, renameEvent, Analyzer.step, renameScopes, Scope.addChild, renameScope, renameScopes_append]
  | _ => simp [rnAnalyzer, renameEvent, Analyzer.step, Scope.addUse, Scope.addDeclared, renameScope, Scope.new, renameScopes]

theorem Analyzer.run_rename (l : List Event) : ∀ a : Analyzer,
    (rnAnalyzer ρ a).run (l.map (renameEvent ρ)) = a.run l >>= fun a => .ok (rnAnalyzer ρ a) := by
  induction l with
  | nil => intro a; rfl
  | cons e l ih =>
    intro a
    simp only [List.map_cons, Analyzer.run, Analyzer.step_rename]
    cases a.step e with
    | ok b => exact ih b
    | _ => rfl

theorem rnArena_update (a : ScopeArena) (f g : ScopeObj → ScopeObj) (h : ∀ o, g (renameScopeObj ρ o) = renameScopeObj ρ (f o)) :
    (renameArena ρ a).update g = renameArena ρ (a.update f) := by
  simp only [ScopeArena.update, renameArena, ScopeArena.mk.injEq, and_true]
  apply List.ext_getElem?
  intro n
  simp only [List.getElem?_modify, List.getElem?_map]
  cases a.scopes[n]? with
  | none => rfl
  | some o =>
    simp only [Option.map_some]
    split <;> simp [h]

theorem ScopeArena.step_rename (a : ScopeArena) (e : Event) :
    (renameArena ρ a).step (renameEvent ρ e) = a.step e >>= fun a => .ok (renameArena ρ a) := by
  cases e with
  | onExpr cb e =>
    cases cb
    case this => exact congrArg Out.ok (rnArena_update a _ _ fun o => rfl)
    all_goals rfl
  | use n => exact congrArg Out.ok (rnArena_update a _ _ fun o => by simp [renameScopeObj])
  | declare n => exact congrArg Out.ok (rnArena_update a _ _ fun o => by simp [renameScopeObj])
  | enter k => simp [renameEvent, ScopeArena.step, renameArena, ScopeObj.new, renameScopeObj]
  | leave =>
    simp only [renameEvent, ScopeArena.step, renameArena, List.getElem?_map]
    cases h : a.scopes[a.current]? with
    | none => rfl
    | some o =>
      simp only [Option.map_some, renameScopeObj]
      cases h' : o.parent with
      | none => rfl
      | some p => exact congrArg Out.ok (rnArena_update { a with current := p } _ _ fun o => rfl)
  | _ => rfl

theorem ScopeArena.run_rename (l : List Event) : ∀ a : ScopeArena,
    (renameArena ρ a).run (l.map (renameEvent ρ)) = a.run l >>= fun a => .ok (renameArena ρ a) := by
  induction l with
  | nil => intro a; rfl
  | cons e l ih =>
    intro a
    simp only [List.map_cons, ScopeArena.run, ScopeArena.step_rename]
    cases a.step e with
    | ok b => exact ih b
    | _ => rfl

/-- C64: with other names in the tree, the scopes are the same with those names. -/
theorem C64_rename (m : List Stmt) (h : sourcesStay ρ m) :
    (analyze (renameStmts ρ m) = analyze m >>= fun s => .ok (renameScope ρ s)) ∧
    analyzeArena (renameStmts ρ m) = analyzeArena m >>= fun a => .ok (renameArena ρ a) := by
  have hv : visitStmts (renameStmts ρ m) = (visitStmts m).map (renameEvent ρ) := visitStmts_rename m h
  constructor
  · have := Analyzer.run_rename (ρ := ρ) (visitStmts m) { current := .new .Function, parents := [] }
    simp only [analyze, visitModule, hv]
    rw [show rnAnalyzer ρ ⟨.new .Function, []⟩ = ⟨.new .Function, []⟩ from rfl] at this
    rw [this]
    cases Analyzer.run ⟨.new .Function, []⟩ (visitStmts m) <;> rfl
  · simp only [analyzeArena, visitModule, hv]
    exact ScopeArena.run_rename (ρ := ρ) (visitStmts m) ScopeArena.new

set_option linter.unusedSectionVars false
section
variable [Unicode]

/-- C64: other layouts of an accepted source have the same scopes. -/
theorem C64_layout {fuel : Nat} {src : Bytes} {m : List Stmt} (h : parse fuel src = .ok (.ok m)) :
    ∃ i, Spells src i ∧ ∀ src', Spells src' i → ∃ N m', (∀ n, N ≤ n → parse n src' = .ok (.ok m')) ∧
      analyze m' = analyze m ∧ analyzeArena m' = analyzeArena m := by
  obtain ⟨i, h1, h2⟩ := C58_layout h
  refine ⟨i, h1, fun src' hs => ?_⟩
  obtain ⟨N, m', h3, h4, -⟩ := h2 src' hs
  exact ⟨N, m', h3, C64_positions h4⟩

/-- C64: an accepted source with other names has the same scopes with those names. -/
theorem C64_renamed_source (hρ : Renaming ρ) {fuel : Nat} {src : Bytes} {m : List Stmt} (h : parse fuel src = .ok (.ok m))
    (hi : sourcesStay ρ (bareStmts m)) :
    ∃ i, Spells src i ∧ ∀ src', Spells src' (i.map (renameItem ρ)) → ∃ N m', (∀ n, N ≤ n → parse n src' = .ok (.ok m')) ∧
      analyze m' = analyze m >>= fun s => .ok (renameScope ρ s) := by
  obtain ⟨i, h1, h2⟩ := C63_rename hρ h
  refine ⟨i, h1, fun src' hs => ?_⟩
  obtain ⟨N, m', h3, h4⟩ := h2 src' hs
  refine ⟨N, m', h3, ?_⟩
  rw [← analyze_bare m', h4, (C64_rename _ hi).1, analyze_bare]

end

/-! ### Examples -/

/-- `function f(x) { return x + this.y }` -/
def scopeTree (x : Bytes) : List Stmt := [.function z (.mk (.mandatory ⟨z, bs!"f"⟩) false [.ident z x]
  (.mk z [.ret z (some (.binary z .Addition (.ident z x) (.member z (.this z) ⟨z, bs!"y"⟩)))]))]

example : renameStmts (renameOne bs!"x" bs!"total") (scopeTree bs!"x") = scopeTree bs!"total" := rfl
example : sourcesStay (renameOne bs!"x" bs!"total") (scopeTree bs!"x") := by
  intro l ss src h
  simp [visitModule, scopeTree, visitStmts, visitStmt, stmtEvents, visitFunc, visitName, visitPatterns, visitPattern, visitBlockBody,
    visitExpr, exprEvents] at h
example : analyze (scopeTree bs!"x") = .ok (.mk .Function false [] [bs!"f"] [.mk .Function true [bs!"x"] [bs!"x"] []]) := rfl
example : analyze (scopeTree bs!"total") = .ok (.mk .Function false [] [bs!"f"] [.mk .Function true [bs!"total"] [bs!"total"] []]) := rfl

/-- The source of an import is recorded as a used name, and not renamed: without the condition on sources the claim is false. -/
example : analyze (renameStmts (renameOne bs!"x" bs!"total") [.import z [] bs!"x"]) = .ok (.mk .Function false [bs!"x"] [] []) ∧
    renameScope (renameOne bs!"x" bs!"total") (.mk .Function false [bs!"x"] [] []) = .mk .Function false [bs!"total"] [] [] := ⟨rfl, rfl⟩

end Ratel
