import Verif.Spec.Grammar
/-! Brackets in a sequence of items. -/
namespace Ratel.Spec
open Ratel

/-- What is open: `(`, `[`, `{` or the `${` of a template. -/
inductive Bracket where
  | paren | bracket | brace | template
deriving DecidableEq, Repr

/-- One item: an opening bracket is put on the stack; a closing bracket must close the one on top of the stack; the `}`
behind an expression in a template must close its `${`, and opens the next one if the template goes on. -/
def bracketStep (stack : List Bracket) : Item → Option (List Bracket)
  | .tok .ParenOpen _ _ => some (.paren :: stack)
  | .tok .BracketOpen _ _ => some (.bracket :: stack)
  | .tok .BraceOpen _ _ => some (.brace :: stack)
  | .tok .TemplateOpen _ _ => some (.template :: stack)
  | .tok .ParenClose _ _ => match stack with | .paren :: s => some s | _ => none
  | .tok .BracketClose _ _ => match stack with | .bracket :: s => some s | _ => none
  | .tok .BraceClose _ _ => match stack with | .brace :: s => some s | _ => none
  | .resume closed _ => match stack with
    | .template :: s => some (if closed then s else .template :: s)
    | _ => none
  | _ => some stack

/-- The brackets that are open after all items, the innermost first, or `none` if a closing bracket does not match. -/
def openAfter : List Bracket → List Item → Option (List Bracket)
  | stack, [] => some stack
  | stack, x :: r => (bracketStep stack x).bind fun s => openAfter s r

/-- All brackets match, except for some `{` that are never closed. -/
def BracketsMatch (i : List Item) : Prop := ∃ n, openAfter [] i = some (List.replicate n .brace)

/-- All brackets match. -/
def AllClosed (i : List Item) : Prop := openAfter [] i = some []

end Ratel.Spec
