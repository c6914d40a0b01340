/-! Tokens of the lexer: `ratel/src/lexer/token.rs`. -/
namespace Ratel

/-- `ratel/src/lexer/token.rs:15-124`, same constructors in the same order (the order is the
index `token as usize` used by the parser tables). -/
inductive Token where
  | EndOfProgram
  | Semicolon
  | Colon
  | Comma
  | ParenOpen
  | ParenClose
  | BracketOpen
  | BracketClose
  | BraceOpen
  | BraceClose
  | OperatorFatArrow
  | OperatorNew
  | OperatorIncrement
  | OperatorDecrement
  | OperatorLogicalNot
  | OperatorBitwiseNot
  | OperatorTypeof
  | OperatorVoid
  | OperatorDelete
  | OperatorMultiplication
  | OperatorDivision
  | OperatorRemainder
  | OperatorExponent
  | OperatorAddition
  | OperatorSubtraction
  | OperatorBitShiftLeft
  | OperatorBitShiftRight
  | OperatorUBitShiftRight
  | OperatorLesser
  | OperatorLesserEquals
  | OperatorGreater
  | OperatorGreaterEquals
  | OperatorInstanceof
  | OperatorIn
  | OperatorStrictEquality
  | OperatorStrictInequality
  | OperatorEquality
  | OperatorInequality
  | OperatorBitwiseAnd
  | OperatorBitwiseXor
  | OperatorBitwiseOr
  | OperatorLogicalAnd
  | OperatorLogicalOr
  | OperatorConditional
  | OperatorAssign
  | OperatorAddAssign
  | OperatorSubtractAssign
  | OperatorExponentAssign
  | OperatorMultiplyAssign
  | OperatorDivideAssign
  | OperatorRemainderAssign
  | OperatorBSLAssign
  | OperatorBSRAssign
  | OperatorUBSRAssign
  | OperatorBitAndAssign
  | OperatorBitXorAssign
  | OperatorBitOrAssign
  | OperatorSpread
  | DeclarationVar
  | DeclarationLet
  | DeclarationConst
  | Break
  | Do
  | Case
  | Else
  | Catch
  | Export
  | Class
  | Extends
  | Return
  | While
  | Finally
  | Super
  | With
  | Continue
  | For
  | Switch
  | Yield
  | Debugger
  | Function
  | This
  | Default
  | If
  | Throw
  | Import
  | Try
  | Static
  | LiteralTrue
  | LiteralFalse
  | LiteralNull
  | LiteralUndefined
  | LiteralString
  | LiteralNumber
  | LiteralBinary
  | LiteralRegEx
  | ReservedEnum
  | ReservedImplements
  | ReservedPackage
  | ReservedProtected
  | ReservedInterface
  | ReservedPrivate
  | ReservedPublic
  | Identifier
  | Accessor
  | TemplateOpen
  | TemplateClosed
  | UnexpectedToken
  | UnexpectedEndOfProgram
deriving DecidableEq, Repr, Inhabited

namespace Token

/-- All tokens, in the order of the Rust enum (`ratel/src/lexer/token.rs:15-124`). -/
def all : List Token := [
  .EndOfProgram, .Semicolon, .Colon, .Comma, .ParenOpen, .ParenClose,
  .BracketOpen, .BracketClose, .BraceOpen, .BraceClose, .OperatorFatArrow, .OperatorNew,
  .OperatorIncrement, .OperatorDecrement, .OperatorLogicalNot, .OperatorBitwiseNot, .OperatorTypeof, .OperatorVoid,
  .OperatorDelete, .OperatorMultiplication, .OperatorDivision, .OperatorRemainder, .OperatorExponent, .OperatorAddition,
  .OperatorSubtraction, .OperatorBitShiftLeft, .OperatorBitShiftRight, .OperatorUBitShiftRight, .OperatorLesser, .OperatorLesserEquals,
  .OperatorGreater, .OperatorGreaterEquals, .OperatorInstanceof, .OperatorIn, .OperatorStrictEquality, .OperatorStrictInequality,
  .OperatorEquality, .OperatorInequality, .OperatorBitwiseAnd, .OperatorBitwiseXor, .OperatorBitwiseOr, .OperatorLogicalAnd,
  .OperatorLogicalOr, .OperatorConditional, .OperatorAssign, .OperatorAddAssign, .OperatorSubtractAssign, .OperatorExponentAssign,
  .OperatorMultiplyAssign, .OperatorDivideAssign, .OperatorRemainderAssign, .OperatorBSLAssign, .OperatorBSRAssign, .OperatorUBSRAssign,
  .OperatorBitAndAssign, .OperatorBitXorAssign, .OperatorBitOrAssign, .OperatorSpread, .DeclarationVar, .DeclarationLet,
  .DeclarationConst, .Break, .Do, .Case, .Else, .Catch,
  .Export, .Class, .Extends, .Return, .While, .Finally,
  .Super, .With, .Continue, .For, .Switch, .Yield,
  .Debugger, .Function, .This, .Default, .If, .Throw,
  .Import, .Try, .Static, .LiteralTrue, .LiteralFalse, .LiteralNull,
  .LiteralUndefined, .LiteralString, .LiteralNumber, .LiteralBinary, .LiteralRegEx, .ReservedEnum,
  .ReservedImplements, .ReservedPackage, .ReservedProtected, .ReservedInterface, .ReservedPrivate, .ReservedPublic,
  .Identifier, .Accessor, .TemplateOpen, .TemplateClosed, .UnexpectedToken, .UnexpectedEndOfProgram]

/-- `token as usize` (`ratel/src/parser/nested.rs:27`). -/
def idx (t : Token) : Nat := t.ctorIdx

/-- `Token::is_word`, `ratel/src/lexer/token.rs:126-172`. -/
def isWord : Token → Bool
  | .Identifier
  | .Break
  | .Do
  | .Case
  | .Else
  | .Catch
  | .Export
  | .Class
  | .Extends
  | .Return
  | .While
  | .Finally
  | .Super
  | .With
  | .Continue
  | .For
  | .Switch
  | .Yield
  | .Debugger
  | .Function
  | .This
  | .Default
  | .If
  | .Throw
  | .Import
  | .Try
  | .Static
  | .OperatorNew
  | .OperatorTypeof
  | .OperatorVoid
  | .OperatorDelete
  | .OperatorInstanceof
  | .LiteralTrue
  | .LiteralFalse
  | .LiteralNull
  | .LiteralUndefined
    => true
  | _ => false

end Token
end Ratel
