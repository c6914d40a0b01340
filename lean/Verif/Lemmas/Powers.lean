import Verif.Spec.Printable
import Verif.Codegen
/-! The generator decides about parentheses and blanks as `Spec.codePower`, `Spec.blankAfter`, … say. -/
namespace Ratel
open Spec

theorem codeOp_eq (op : Op) : codeOp op = op.bindingPower := by cases op <;> rfl

theorem codePower_eq (e : Expr) : codePower e = e.bindingPower := by
  cases e <;> simp only [codePower, Expr.bindingPower, codeOp_eq]

theorem blankAfter_eq (op : Op) (a b : Expr) : blankAfter op b = (binarySpacing op a b).2 := by
  cases op <;> cases b <;> first | rfl | skip
  all_goals
    rename_i o _
    cases o <;> rfl

theorem wrapped_eq (e : Expr) : wrapped e = !e.isAllowedAsBareStatement := by cases e <;> rfl

theorem singleName_eq (ps : List Pattern) : singleName ps = (onlyIdent ps).isSome := by
  match ps with
  | [] => rfl
  | [p] => cases p <;> rfl
  | p :: q :: ps => cases p <;> rfl

theorem named_eq (s : ImportSpec) : Spec.isNamed s = s.isNamed := by cases s <;> rfl

end Ratel
