import Verif.Visitor
import Verif.Spec.Bare
import Verif.Spec.Rename
import Verif.Spec.Tidy
/-! Specification for C64, C73 and C75: what a visitor is told, without positions and with other names. -/
namespace Ratel.Spec
open Ratel

/-- The event without positions. -/
def bareEvent : Event → Event
  | .pushExpr e => .pushExpr (bareExpr e)
  | .pushStmt s => .pushStmt (bareStmt s)
  | .statementList b => .statementList (bareStmts b)
  | .onExpr cb e => .onExpr cb (bareExpr e)
  | .onStmt cb s => .onStmt cb (bareStmt s)
  | e => e

/-- The event without positions and without empty statements in lists of statements. -/
def tidyEvent : Event → Event
  | .pushExpr e => .pushExpr (tidyExpr e)
  | .pushStmt s => .pushStmt (tidyStmt s)
  | .statementList b => .statementList (tidyStmts b)
  | .onExpr cb e => .onExpr cb (tidyExpr e)
  | .onStmt cb s => .onStmt cb (tidyStmt s)
  | e => e

/-- The event with other names. -/
def renameEvent (ρ : Bytes → Bytes) : Event → Event
  | .pushExpr e => .pushExpr (renameExpr ρ e)
  | .pushStmt s => .pushStmt (renameStmt ρ s)
  | .statementList b => .statementList (renameStmts ρ b)
  | .onExpr cb e => .onExpr cb (renameExpr ρ e)
  | .onStmt cb s => .onStmt cb (renameStmt ρ s)
  | .use n => .use (ρ n)
  | .declare n => .declare (ρ n)
  | e => e

end Ratel.Spec
