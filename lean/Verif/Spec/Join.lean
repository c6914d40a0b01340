import Verif.Spec.Spelling
import Verif.Spec.Brackets
/-! Scripts put one behind the other. -/
namespace Ratel.Spec
open Ratel

/-- `src` is a program with the tree `ss` in which every bracket is closed, and its tokens are `i`. -/
structure Complete [Unicode] (src : Bytes) (i : List Item) (ss : List Stmt) : Prop where
  spells : Spells src i
  program : G i (.program ss) []
  closed : AllClosed i

/-- The last token is a semicolon. -/
def EndsWithSemicolon (i : List Item) : Prop := ∃ c w a, i = c ++ [.tok .Semicolon w a]

/-- The tokens that can continue a statement in the next line. -/
def continuing : List Token := [.Semicolon, .Colon, .Comma, .ParenOpen, .BracketOpen, .Accessor, .TemplateOpen, .TemplateClosed,
  .OperatorFatArrow, .OperatorConditional, .Else, .Finally,
  .OperatorAssign, .OperatorAddAssign, .OperatorSubtractAssign, .OperatorExponentAssign, .OperatorMultiplyAssign,
  .OperatorDivideAssign, .OperatorRemainderAssign, .OperatorBSLAssign, .OperatorBSRAssign, .OperatorUBSRAssign,
  .OperatorBitAndAssign, .OperatorBitXorAssign, .OperatorBitOrAssign,
  .OperatorLogicalOr, .OperatorLogicalAnd, .OperatorBitwiseOr, .OperatorBitwiseXor, .OperatorBitwiseAnd,
  .OperatorStrictEquality, .OperatorStrictInequality, .OperatorEquality, .OperatorInequality, .OperatorLesser,
  .OperatorLesserEquals, .OperatorGreater, .OperatorGreaterEquals, .OperatorInstanceof, .OperatorIn,
  .OperatorBitShiftLeft, .OperatorBitShiftRight, .OperatorUBitShiftRight, .OperatorAddition, .OperatorSubtraction,
  .OperatorMultiplication, .OperatorDivision, .OperatorRemainder, .OperatorExponent]

end Ratel.Spec
