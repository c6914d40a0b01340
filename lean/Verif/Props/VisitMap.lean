import Verif.Props.ScopeMap
/-! C73: what a visitor is told neither depends on the layout of the source nor on the choice of names. -/
namespace Ratel
open Spec

variable {ρ : Bytes → Bytes}

/-- C73: for trees that differ in positions only, a visitor is told the same, in the same order, up to the positions in the
nodes it is given. -/
theorem C73_positions {m m' : List Stmt} (h : bareStmts m = bareStmts m') :
    (visitModule m).map bareEvent = (visitModule m').map bareEvent := by
  simp only [visitModule, ← visitStmts_bare, h]

/-- C73: in particular, it is told as many things, enters and leaves the same scopes, and hears of the same uses and declarations. -/
theorem C73_names {m m' : List Stmt} (h : bareStmts m = bareStmts m') :
    (visitModule m).length = (visitModule m').length ∧ uses (visitModule m) = uses (visitModule m') ∧
    declares (visitModule m) = declares (visitModule m') ∧ enters (visitModule m) = enters (visitModule m') ∧
    leaves (visitModule m) = leaves (visitModule m') := by
  have he := C73_positions h
  have hu : ∀ l : List Event, uses (l.map bareEvent) = uses l := by
    intro l
    induction l with
    | nil => rfl
    | cons e l ih => cases e <;> simp [bareEvent, uses, ih]
  have hd : ∀ l : List Event, declares (l.map bareEvent) = declares l := by
    intro l
    induction l with
    | nil => rfl
    | cons e l ih => cases e <;> simp [bareEvent, declares, ih]
  have hn : ∀ l : List Event, enters (l.map bareEvent) = enters l := by
    intro l
    induction l with
    | nil => rfl
    | cons e l ih => cases e <;> simp [bareEvent, enters, ih]
  have hl : ∀ l : List Event, leaves (l.map bareEvent) = leaves l := by
    intro l
    induction l with
    | nil => rfl
    | cons e l ih => cases e <;> simp [bareEvent, leaves, ih]
  refine ⟨?_, ?_, ?_, ?_, ?_⟩
  · simpa using congrArg List.length he
  · rw [← hu, he, hu]
  · rw [← hd, he, hd]
  · rw [← hn, he, hn]
  · rw [← hl, he, hl]

/-- C73: with other names in the tree, a visitor is told the same with those names. -/
theorem C73_rename (m : List Stmt) (h : sourcesStay ρ m) :
    visitModule (renameStmts ρ m) = (visitModule m).map (renameEvent ρ) := visitStmts_rename m h

section
variable [Unicode]

/-- C73: for all layouts of an accepted source a visitor is told the same. -/
theorem C73_layout {fuel : Nat} {src : Bytes} {m : List Stmt} (h : parse fuel src = .ok (.ok m)) :
    ∃ i, Spells src i ∧ ∀ src', Spells src' i → ∃ N m', (∀ n, N ≤ n → parse n src' = .ok (.ok m')) ∧
      (visitModule m').map bareEvent = (visitModule m).map bareEvent := by
  obtain ⟨i, h1, h2⟩ := C58_layout h
  refine ⟨i, h1, fun src' hs => ?_⟩
  obtain ⟨N, m', h3, h4, -⟩ := h2 src' hs
  exact ⟨N, m', h3, C73_positions h4⟩

/-- C73: for an accepted source with other names a visitor is told the same with those names. -/
theorem C73_renamed_source (hρ : Renaming ρ) {fuel : Nat} {src : Bytes} {m : List Stmt} (h : parse fuel src = .ok (.ok m))
    (hi : sourcesStay ρ (bareStmts m)) :
    ∃ i, Spells src i ∧ ∀ src', Spells src' (i.map (renameItem ρ)) → ∃ N m', (∀ n, N ≤ n → parse n src' = .ok (.ok m')) ∧
      (visitModule m').map bareEvent = ((visitModule m).map bareEvent).map (renameEvent ρ) := by
  obtain ⟨i, h1, h2⟩ := C63_rename hρ h
  refine ⟨i, h1, fun src' hs => ?_⟩
  obtain ⟨N, m', h3, h4⟩ := h2 src' hs
  refine ⟨N, m', h3, ?_⟩
  have e1 : ∀ m, (visitModule m).map bareEvent = visitModule (bareStmts m) := fun m => by simp only [visitModule, visitStmts_bare]
  rw [e1 m', h4, C73_rename _ hi, e1]

end

/-! ### Examples -/

/-- Two layouts of a program, and what a visitor hears of it. -/
example : uses (visitModule (scopeTree bs!"x")) = [bs!"x"] ∧ declares (visitModule (scopeTree bs!"x")) = [bs!"f", bs!"x"] ∧
    bareStmts (scopeTree bs!"x") = scopeTree bs!"x" := ⟨rfl, rfl, rfl⟩
example : visitModule (scopeTree bs!"total") = (visitModule (scopeTree bs!"x")).map (renameEvent (renameOne bs!"x" bs!"total")) := rfl
example : bareStmts [.expr ⟨0, 1⟩ (.ident ⟨0, 1⟩ bs!"a")] = bareStmts [.expr ⟨3, 4⟩ (.ident ⟨3, 4⟩ bs!"a")] ∧
    visitModule [.expr ⟨0, 1⟩ (.ident ⟨0, 1⟩ bs!"a")] ≠ visitModule [.expr ⟨3, 4⟩ (.ident ⟨3, 4⟩ bs!"a")] := by
  refine ⟨rfl, ?_⟩
  simp [visitModule, visitStmts, visitStmt, stmtEvents]

end Ratel
