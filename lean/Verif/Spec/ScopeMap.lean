import Verif.Scope
import Verif.ScopeMem
/-! Scopes with other names. -/
namespace Ratel.Spec
open Ratel

mutual
/-- The same scopes with other names. -/
def renameScope (ρ : Bytes → Bytes) : Scope → Scope
  | .mk k t used declared children => .mk k t (used.map ρ) (declared.map ρ) (renameScopes ρ children)
def renameScopes (ρ : Bytes → Bytes) : List Scope → List Scope
  | [] => []
  | s :: ss => renameScope ρ s :: renameScopes ρ ss
end

/-- The same for an allocated scope. -/
def renameScopeObj (ρ : Bytes → Bytes) (o : ScopeObj) : ScopeObj :=
  { o with used := o.used.map ρ, declared := o.declared.map ρ }

/-- The same for all allocated scopes. -/
def renameArena (ρ : Bytes → Bytes) (a : ScopeArena) : ScopeArena := { a with scopes := a.scopes.map (renameScopeObj ρ) }

/-- `ρ` leaves the sources of all imports of the module alone (they are recorded as used names). -/
def sourcesStay (ρ : Bytes → Bytes) (m : List Stmt) : Prop :=
  ∀ l ss src, .onStmt .importDeclaration (.import l ss src) ∈ visitModule m → ρ src = src

end Ratel.Spec
