import Verif.Token
import Verif.Base
/-! Operators: `ratel/src/ast/operator.rs`. -/
namespace Ratel

/-- `ratel/src/ast/operator.rs:5-54`. -/
inductive Op where
  | FatArrow
  | New
  | Increment
  | Decrement
  | LogicalNot
  | BitwiseNot
  | Typeof
  | Void
  | Delete
  | Multiplication
  | Division
  | Remainder
  | Exponent
  | Addition
  | Subtraction
  | BitShiftLeft
  | BitShiftRight
  | UBitShiftRight
  | Lesser
  | LesserEquals
  | Greater
  | GreaterEquals
  | Instanceof
  | In
  | StrictEquality
  | StrictInequality
  | Equality
  | Inequality
  | BitwiseAnd
  | BitwiseXor
  | BitwiseOr
  | LogicalAnd
  | LogicalOr
  | Conditional
  | Assign
  | AddAssign
  | SubtractAssign
  | ExponentAssign
  | MultiplyAssign
  | DivideAssign
  | RemainderAssign
  | BSLAssign
  | BSRAssign
  | UBSRAssign
  | BitAndAssign
  | BitXorAssign
  | BitOrAssign
  | Spread
deriving DecidableEq, Repr, Inhabited

/-- `ratel/src/ast/operator.rs:57-63`. -/
inductive OpCategory where
  | Minus | Plus | Safe | Word
deriving DecidableEq, Repr

namespace Op

/-- All operators (`ratel/src/ast/operator.rs:5-54`). -/
def all : List Op := [
  .FatArrow, .New, .Increment, .Decrement, .LogicalNot, .BitwiseNot,
  .Typeof, .Void, .Delete, .Multiplication, .Division, .Remainder,
  .Exponent, .Addition, .Subtraction, .BitShiftLeft, .BitShiftRight, .UBitShiftRight,
  .Lesser, .LesserEquals, .Greater, .GreaterEquals, .Instanceof, .In,
  .StrictEquality, .StrictInequality, .Equality, .Inequality, .BitwiseAnd, .BitwiseXor,
  .BitwiseOr, .LogicalAnd, .LogicalOr, .Conditional, .Assign, .AddAssign,
  .SubtractAssign, .ExponentAssign, .MultiplyAssign, .DivideAssign, .RemainderAssign, .BSLAssign,
  .BSRAssign, .UBSRAssign, .BitAndAssign, .BitXorAssign, .BitOrAssign, .Spread]

/-- `OperatorKind::from_token`, `ratel/src/ast/operator.rs:69-121`. -/
def fromToken : Token → Option Op
  | .OperatorFatArrow => some .FatArrow
  | .OperatorNew => some .New
  | .OperatorIncrement => some .Increment
  | .OperatorDecrement => some .Decrement
  | .OperatorLogicalNot => some .LogicalNot
  | .OperatorBitwiseNot => some .BitwiseNot
  | .OperatorTypeof => some .Typeof
  | .OperatorVoid => some .Void
  | .OperatorDelete => some .Delete
  | .OperatorMultiplication => some .Multiplication
  | .OperatorDivision => some .Division
  | .OperatorRemainder => some .Remainder
  | .OperatorExponent => some .Exponent
  | .OperatorAddition => some .Addition
  | .OperatorSubtraction => some .Subtraction
  | .OperatorBitShiftLeft => some .BitShiftLeft
  | .OperatorBitShiftRight => some .BitShiftRight
  | .OperatorUBitShiftRight => some .UBitShiftRight
  | .OperatorLesser => some .Lesser
  | .OperatorLesserEquals => some .LesserEquals
  | .OperatorGreater => some .Greater
  | .OperatorGreaterEquals => some .GreaterEquals
  | .OperatorInstanceof => some .Instanceof
  | .OperatorIn => some .In
  | .OperatorStrictEquality => some .StrictEquality
  | .OperatorStrictInequality => some .StrictInequality
  | .OperatorEquality => some .Equality
  | .OperatorInequality => some .Inequality
  | .OperatorBitwiseAnd => some .BitwiseAnd
  | .OperatorBitwiseXor => some .BitwiseXor
  | .OperatorBitwiseOr => some .BitwiseOr
  | .OperatorLogicalAnd => some .LogicalAnd
  | .OperatorLogicalOr => some .LogicalOr
  | .OperatorConditional => some .Conditional
  | .OperatorAssign => some .Assign
  | .OperatorAddAssign => some .AddAssign
  | .OperatorSubtractAssign => some .SubtractAssign
  | .OperatorExponentAssign => some .ExponentAssign
  | .OperatorMultiplyAssign => some .MultiplyAssign
  | .OperatorDivideAssign => some .DivideAssign
  | .OperatorRemainderAssign => some .RemainderAssign
  | .OperatorBSLAssign => some .BSLAssign
  | .OperatorBSRAssign => some .BSRAssign
  | .OperatorUBSRAssign => some .UBSRAssign
  | .OperatorBitAndAssign => some .BitAndAssign
  | .OperatorBitXorAssign => some .BitXorAssign
  | .OperatorBitOrAssign => some .BitOrAssign
  | .OperatorSpread => some .Spread
  | _ => none

/-- `OperatorKind::as_str`, `ratel/src/ast/operator.rs:124-175`. -/
def asStr : Op → Bytes
  | .FatArrow => bs!"=>"
  | .New => bs!"new"
  | .Increment => bs!"++"
  | .Decrement => bs!"--"
  | .LogicalNot => bs!"!"
  | .BitwiseNot => bs!"~"
  | .Typeof => bs!"typeof"
  | .Void => bs!"void"
  | .Delete => bs!"delete"
  | .Multiplication => bs!"*"
  | .Division => bs!"/"
  | .Remainder => bs!"%"
  | .Exponent => bs!"**"
  | .Addition => bs!"+"
  | .Subtraction => bs!"-"
  | .BitShiftLeft => bs!"<<"
  | .BitShiftRight => bs!">>"
  | .UBitShiftRight => bs!">>>"
  | .Lesser => bs!"<"
  | .LesserEquals => bs!"<="
  | .Greater => bs!">"
  | .GreaterEquals => bs!">="
  | .Instanceof => bs!"instanceof"
  | .In => bs!"in"
  | .StrictEquality => bs!"==="
  | .StrictInequality => bs!"!=="
  | .Equality => bs!"=="
  | .Inequality => bs!"!="
  | .BitwiseAnd => bs!"&"
  | .BitwiseXor => bs!"^"
  | .BitwiseOr => bs!"|"
  | .LogicalAnd => bs!"&&"
  | .LogicalOr => bs!"||"
  | .Conditional => bs!"?"
  | .Assign => bs!"="
  | .AddAssign => bs!"+="
  | .SubtractAssign => bs!"-="
  | .ExponentAssign => bs!"**="
  | .MultiplyAssign => bs!"*="
  | .DivideAssign => bs!"/="
  | .RemainderAssign => bs!"%="
  | .BSLAssign => bs!"<<="
  | .BSRAssign => bs!">>="
  | .UBSRAssign => bs!">>>="
  | .BitAndAssign => bs!"&="
  | .BitXorAssign => bs!"^="
  | .BitOrAssign => bs!"|="
  | .Spread => bs!"..."

/-- `OperatorKind::binding_power`, `ratel/src/ast/operator.rs:180-242`. -/
def bindingPower : Op → Nat
  | .FatArrow => 18
  | .New => 17
  | .Increment
  | .Decrement => 16
  | .LogicalNot
  | .BitwiseNot
  | .Typeof
  | .Void
  | .Delete => 15
  | .Multiplication
  | .Division
  | .Remainder
  | .Exponent => 14
  | .Addition
  | .Subtraction => 13
  | .BitShiftLeft
  | .BitShiftRight
  | .UBitShiftRight => 12
  | .Lesser
  | .LesserEquals
  | .Greater
  | .GreaterEquals
  | .Instanceof
  | .In => 11
  | .StrictEquality
  | .StrictInequality
  | .Equality
  | .Inequality => 10
  | .BitwiseAnd => 9
  | .BitwiseXor => 8
  | .BitwiseOr => 7
  | .LogicalAnd => 6
  | .LogicalOr => 5
  | .Conditional => 4
  | .Assign
  | .AddAssign
  | .SubtractAssign
  | .ExponentAssign
  | .MultiplyAssign
  | .DivideAssign
  | .RemainderAssign
  | .BSLAssign
  | .BSRAssign
  | .UBSRAssign
  | .BitAndAssign
  | .BitXorAssign
  | .BitOrAssign => 3
  | .Spread => 1

/-- `OperatorKind::prefix`, `ratel/src/ast/operator.rs:245-261`. -/
def isPrefix : Op → Bool
  | .LogicalNot
  | .BitwiseNot
  | .Typeof
  | .Void
  | .Delete
  | .New
  | .Spread
  | .Increment
  | .Decrement
  | .Addition
  | .Subtraction => true
  | _ => false

/-- `OperatorKind::infix`, `ratel/src/ast/operator.rs:264-308`. -/
def isInfix : Op → Bool
  | .FatArrow
  | .Multiplication
  | .Division
  | .Remainder
  | .Exponent
  | .StrictEquality
  | .StrictInequality
  | .Equality
  | .Inequality
  | .Lesser
  | .LesserEquals
  | .Greater
  | .GreaterEquals
  | .Instanceof
  | .In
  | .BitShiftLeft
  | .BitShiftRight
  | .UBitShiftRight
  | .BitwiseAnd
  | .BitwiseXor
  | .BitwiseOr
  | .LogicalAnd
  | .LogicalOr
  | .Conditional
  | .Addition
  | .Subtraction
  | .Assign
  | .AddAssign
  | .SubtractAssign
  | .ExponentAssign
  | .MultiplyAssign
  | .DivideAssign
  | .RemainderAssign
  | .BSLAssign
  | .BSRAssign
  | .UBSRAssign
  | .BitAndAssign
  | .BitXorAssign
  | .BitOrAssign => true
  | _ => false

/-- `OperatorKind::assignment`, `ratel/src/ast/operator.rs:311-329`. -/
def assignment : Op → Bool
  | .Assign
  | .AddAssign
  | .SubtractAssign
  | .ExponentAssign
  | .MultiplyAssign
  | .DivideAssign
  | .RemainderAssign
  | .BSLAssign
  | .BSRAssign
  | .UBSRAssign
  | .BitAndAssign
  | .BitXorAssign
  | .BitOrAssign => true
  | _ => false

/-- `OperatorKind::category`, `ratel/src/ast/operator.rs:332-347`. -/
def category : Op → OpCategory
  | .In
  | .New
  | .Typeof
  | .Void
  | .Delete
  | .Instanceof => .Word
  | .Addition
  | .Increment => .Plus
  | .Subtraction
  | .Decrement => .Minus
  | _ => .Safe

end Op
end Ratel
