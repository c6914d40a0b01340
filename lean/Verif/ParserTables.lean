import Verif.Ast
import Verif.Lexer
/-! Dispatch tables of the parser: `ratel/src/parser/nested.rs`, `expression.rs`, `statement.rs`.
The tables are copied entry by entry; `none` is the empty entry `____`. -/
namespace Ratel

/-- The binding power markers `ANY`, `B0`, … `B15`, `ratel/src/parser/nested.rs:42-225`. -/
inductive Lvl where
  | ANY | B0 | B1 | B5 | B6 | B7 | B8 | B9 | B10 | B11 | B12 | B13 | B14 | B15
deriving DecidableEq, Repr

/-- Handlers of `ratel/src/parser/nested.rs:229-429`: what to do with a token that follows an
expression. `assign op` and `binary lvl op` are the instances of the macros `assign!` and
`binary!`, `postfix op` those of `postfix!`. -/
inductive NH where
  | SEQ | COND | ARRW | ACCS | CALL | CMEM | TPLS | TPLE
  | postfix (op : Op)
  | assign (op : Op)
  | binary (lvl : Lvl) (op : Op)
deriving DecidableEq, Repr

namespace NH

/-- `ratel/src/parser/nested.rs:389` -/
abbrev INC : NH := .postfix .Increment
/-- `ratel/src/parser/nested.rs:390` -/
abbrev DEC : NH := .postfix .Decrement
/-- `ratel/src/parser/nested.rs:392` -/
abbrev ASGN : NH := .assign .Assign
/-- `ratel/src/parser/nested.rs:393` -/
abbrev ADDA : NH := .assign .AddAssign
/-- `ratel/src/parser/nested.rs:394` -/
abbrev SUBA : NH := .assign .SubtractAssign
/-- `ratel/src/parser/nested.rs:395` -/
abbrev EXPA : NH := .assign .ExponentAssign
/-- `ratel/src/parser/nested.rs:396` -/
abbrev MULA : NH := .assign .MultiplyAssign
/-- `ratel/src/parser/nested.rs:397` -/
abbrev DIVA : NH := .assign .DivideAssign
/-- `ratel/src/parser/nested.rs:398` -/
abbrev REMA : NH := .assign .RemainderAssign
/-- `ratel/src/parser/nested.rs:399` -/
abbrev BSLA : NH := .assign .BSLAssign
/-- `ratel/src/parser/nested.rs:400` -/
abbrev BSRA : NH := .assign .BSRAssign
/-- `ratel/src/parser/nested.rs:401` -/
abbrev UBSA : NH := .assign .UBSRAssign
/-- `ratel/src/parser/nested.rs:402` -/
abbrev BWAA : NH := .assign .BitAndAssign
/-- `ratel/src/parser/nested.rs:403` -/
abbrev XORA : NH := .assign .BitXorAssign
/-- `ratel/src/parser/nested.rs:404` -/
abbrev BORA : NH := .assign .BitOrAssign
/-- `ratel/src/parser/nested.rs:406` -/
abbrev OR : NH := .binary .B5 .LogicalOr
/-- `ratel/src/parser/nested.rs:407` -/
abbrev AND : NH := .binary .B6 .LogicalAnd
/-- `ratel/src/parser/nested.rs:408` -/
abbrev BWOR : NH := .binary .B7 .BitwiseOr
/-- `ratel/src/parser/nested.rs:409` -/
abbrev BWXO : NH := .binary .B8 .BitwiseXor
/-- `ratel/src/parser/nested.rs:410` -/
abbrev BWAN : NH := .binary .B9 .BitwiseAnd
/-- `ratel/src/parser/nested.rs:411` -/
abbrev STEQ : NH := .binary .B10 .StrictEquality
/-- `ratel/src/parser/nested.rs:412` -/
abbrev SIEQ : NH := .binary .B10 .StrictInequality
/-- `ratel/src/parser/nested.rs:413` -/
abbrev EQ : NH := .binary .B10 .Equality
/-- `ratel/src/parser/nested.rs:414` -/
abbrev INEQ : NH := .binary .B10 .Inequality
/-- `ratel/src/parser/nested.rs:415` -/
abbrev LESS : NH := .binary .B11 .Lesser
/-- `ratel/src/parser/nested.rs:416` -/
abbrev LSEQ : NH := .binary .B11 .LesserEquals
/-- `ratel/src/parser/nested.rs:417` -/
abbrev GRTR : NH := .binary .B11 .Greater
/-- `ratel/src/parser/nested.rs:418` -/
abbrev GREQ : NH := .binary .B11 .GreaterEquals
/-- `ratel/src/parser/nested.rs:419` -/
abbrev INOF : NH := .binary .B11 .Instanceof
/-- `ratel/src/parser/nested.rs:420` -/
abbrev IN : NH := .binary .B11 .In
/-- `ratel/src/parser/nested.rs:421` -/
abbrev BSL : NH := .binary .B12 .BitShiftLeft
/-- `ratel/src/parser/nested.rs:422` -/
abbrev BSR : NH := .binary .B12 .BitShiftRight
/-- `ratel/src/parser/nested.rs:423` -/
abbrev UBSR : NH := .binary .B12 .UBitShiftRight
/-- `ratel/src/parser/nested.rs:424` -/
abbrev ADD : NH := .binary .B13 .Addition
/-- `ratel/src/parser/nested.rs:425` -/
abbrev SUB : NH := .binary .B13 .Subtraction
/-- `ratel/src/parser/nested.rs:426` -/
abbrev MUL : NH := .binary .B14 .Multiplication
/-- `ratel/src/parser/nested.rs:427` -/
abbrev DIV : NH := .binary .B14 .Division
/-- `ratel/src/parser/nested.rs:428` -/
abbrev REM : NH := .binary .B14 .Remainder
/-- `ratel/src/parser/nested.rs:429` -/
abbrev EXPN : NH := .binary .B15 .Exponent

end NH


open NH in
/-- The tables `LUT`, `ratel/src/parser/nested.rs:42-225`. -/
def lut : Lvl → List (Option NH)
  | .ANY => [
      none, none, none, some SEQ, some CALL, none, some CMEM, none, none, none, some ARRW, none,
      some INC, some DEC, none, none, none, none, none, some MUL, some DIV, some REM, some EXPN, some ADD,
      some SUB, some BSL, some BSR, some UBSR, some LESS, some LSEQ, some GRTR, some GREQ, some INOF, some IN, some STEQ, some SIEQ,
      some EQ, some INEQ, some BWAN, some BWXO, some BWOR, some AND, some OR, some COND, some ASGN, some ADDA, some SUBA, some EXPA,
      some MULA, some DIVA, some REMA, some BSLA, some BSRA, some UBSA, some BWAA, some XORA, some BORA, none, none, none,
      none, none, none, none, none, none, none, none, none, none, none, none,
      none, none, none, none, none, none, none, none, none, none, none, none,
      none, none, none, none, none, none, none, none, none, none, none, none,
      none, none, none, none, none, none, none, some ACCS, some TPLE, some TPLS, none, none]
  | .B0 => [
      none, none, none, none, some CALL, none, some CMEM, none, none, none, some ARRW, none,
      some INC, some DEC, none, none, none, none, none, some MUL, some DIV, some REM, some EXPN, some ADD,
      some SUB, some BSL, some BSR, some UBSR, some LESS, some LSEQ, some GRTR, some GREQ, some INOF, some IN, some STEQ, some SIEQ,
      some EQ, some INEQ, some BWAN, some BWXO, some BWOR, some AND, some OR, some COND, some ASGN, some ADDA, some SUBA, some EXPA,
      some MULA, some DIVA, some REMA, some BSLA, some BSRA, some UBSA, some BWAA, some XORA, some BORA, none, none, none,
      none, none, none, none, none, none, none, none, none, none, none, none,
      none, none, none, none, none, none, none, none, none, none, none, none,
      none, none, none, none, none, none, none, none, none, none, none, none,
      none, none, none, none, none, none, none, some ACCS, some TPLE, some TPLS, none, none]
  | .B1 => [
      none, none, none, none, some CALL, none, some CMEM, none, none, none, some ARRW, none,
      some INC, some DEC, none, none, none, none, none, some MUL, some DIV, some REM, some EXPN, some ADD,
      some SUB, some BSL, some BSR, some UBSR, some LESS, some LSEQ, some GRTR, some GREQ, some INOF, some IN, some STEQ, some SIEQ,
      some EQ, some INEQ, some BWAN, some BWXO, some BWOR, some AND, some OR, some COND, some ASGN, some ADDA, some SUBA, some EXPA,
      some MULA, some DIVA, some REMA, some BSLA, some BSRA, some UBSA, some BWAA, some XORA, some BORA, none, none, none,
      none, none, none, none, none, none, none, none, none, none, none, none,
      none, none, none, none, none, none, none, none, none, none, none, none,
      none, none, none, none, none, none, none, none, none, none, none, none,
      none, none, none, none, none, none, none, some ACCS, some TPLE, some TPLS, none, none]
  | .B5 => [
      none, none, none, none, some CALL, none, some CMEM, none, none, none, some ARRW, none,
      some INC, some DEC, none, none, none, none, none, some MUL, some DIV, some REM, some EXPN, some ADD,
      some SUB, some BSL, some BSR, some UBSR, some LESS, some LSEQ, some GRTR, some GREQ, some INOF, some IN, some STEQ, some SIEQ,
      some EQ, some INEQ, some BWAN, some BWXO, some BWOR, some AND, none, none, none, none, none, none,
      none, none, none, none, none, none, none, none, none, none, none, none,
      none, none, none, none, none, none, none, none, none, none, none, none,
      none, none, none, none, none, none, none, none, none, none, none, none,
      none, none, none, none, none, none, none, none, none, none, none, none,
      none, none, none, none, none, none, none, some ACCS, some TPLE, some TPLS, none, none]
  | .B6 => [
      none, none, none, none, some CALL, none, some CMEM, none, none, none, some ARRW, none,
      some INC, some DEC, none, none, none, none, none, some MUL, some DIV, some REM, some EXPN, some ADD,
      some SUB, some BSL, some BSR, some UBSR, some LESS, some LSEQ, some GRTR, some GREQ, some INOF, some IN, some STEQ, some SIEQ,
      some EQ, some INEQ, some BWAN, some BWXO, some BWOR, none, none, none, none, none, none, none,
      none, none, none, none, none, none, none, none, none, none, none, none,
      none, none, none, none, none, none, none, none, none, none, none, none,
      none, none, none, none, none, none, none, none, none, none, none, none,
      none, none, none, none, none, none, none, none, none, none, none, none,
      none, none, none, none, none, none, none, some ACCS, some TPLE, some TPLS, none, none]
  | .B7 => [
      none, none, none, none, some CALL, none, some CMEM, none, none, none, some ARRW, none,
      some INC, some DEC, none, none, none, none, none, some MUL, some DIV, some REM, some EXPN, some ADD,
      some SUB, some BSL, some BSR, some UBSR, some LESS, some LSEQ, some GRTR, some GREQ, some INOF, some IN, some STEQ, some SIEQ,
      some EQ, some INEQ, some BWAN, some BWXO, none, none, none, none, none, none, none, none,
      none, none, none, none, none, none, none, none, none, none, none, none,
      none, none, none, none, none, none, none, none, none, none, none, none,
      none, none, none, none, none, none, none, none, none, none, none, none,
      none, none, none, none, none, none, none, none, none, none, none, none,
      none, none, none, none, none, none, none, some ACCS, some TPLE, some TPLS, none, none]
  | .B8 => [
      none, none, none, none, some CALL, none, some CMEM, none, none, none, some ARRW, none,
      some INC, some DEC, none, none, none, none, none, some MUL, some DIV, some REM, some EXPN, some ADD,
      some SUB, some BSL, some BSR, some UBSR, some LESS, some LSEQ, some GRTR, some GREQ, some INOF, some IN, some STEQ, some SIEQ,
      some EQ, some INEQ, some BWAN, none, none, none, none, none, none, none, none, none,
      none, none, none, none, none, none, none, none, none, none, none, none,
      none, none, none, none, none, none, none, none, none, none, none, none,
      none, none, none, none, none, none, none, none, none, none, none, none,
      none, none, none, none, none, none, none, none, none, none, none, none,
      none, none, none, none, none, none, none, some ACCS, some TPLE, some TPLS, none, none]
  | .B9 => [
      none, none, none, none, some CALL, none, some CMEM, none, none, none, some ARRW, none,
      some INC, some DEC, none, none, none, none, none, some MUL, some DIV, some REM, some EXPN, some ADD,
      some SUB, some BSL, some BSR, some UBSR, some LESS, some LSEQ, some GRTR, some GREQ, some INOF, some IN, some STEQ, some SIEQ,
      some EQ, some INEQ, none, none, none, none, none, none, none, none, none, none,
      none, none, none, none, none, none, none, none, none, none, none, none,
      none, none, none, none, none, none, none, none, none, none, none, none,
      none, none, none, none, none, none, none, none, none, none, none, none,
      none, none, none, none, none, none, none, none, none, none, none, none,
      none, none, none, none, none, none, none, some ACCS, some TPLE, some TPLS, none, none]
  | .B10 => [
      none, none, none, none, some CALL, none, some CMEM, none, none, none, some ARRW, none,
      some INC, some DEC, none, none, none, none, none, some MUL, some DIV, some REM, some EXPN, some ADD,
      some SUB, some BSL, some BSR, some UBSR, some LESS, some LSEQ, some GRTR, some GREQ, some INOF, some IN, none, none,
      none, none, none, none, none, none, none, none, none, none, none, none,
      none, none, none, none, none, none, none, none, none, none, none, none,
      none, none, none, none, none, none, none, none, none, none, none, none,
      none, none, none, none, none, none, none, none, none, none, none, none,
      none, none, none, none, none, none, none, none, none, none, none, none,
      none, none, none, none, none, none, none, some ACCS, some TPLE, some TPLS, none, none]
  | .B11 => [
      none, none, none, none, some CALL, none, some CMEM, none, none, none, some ARRW, none,
      some INC, some DEC, none, none, none, none, none, some MUL, some DIV, some REM, some EXPN, some ADD,
      some SUB, some BSL, some BSR, some UBSR, none, none, none, none, none, none, none, none,
      none, none, none, none, none, none, none, none, none, none, none, none,
      none, none, none, none, none, none, none, none, none, none, none, none,
      none, none, none, none, none, none, none, none, none, none, none, none,
      none, none, none, none, none, none, none, none, none, none, none, none,
      none, none, none, none, none, none, none, none, none, none, none, none,
      none, none, none, none, none, none, none, some ACCS, some TPLE, some TPLS, none, none]
  | .B12 => [
      none, none, none, none, some CALL, none, some CMEM, none, none, none, some ARRW, none,
      some INC, some DEC, none, none, none, none, none, some MUL, some DIV, some REM, some EXPN, some ADD,
      some SUB, none, none, none, none, none, none, none, none, none, none, none,
      none, none, none, none, none, none, none, none, none, none, none, none,
      none, none, none, none, none, none, none, none, none, none, none, none,
      none, none, none, none, none, none, none, none, none, none, none, none,
      none, none, none, none, none, none, none, none, none, none, none, none,
      none, none, none, none, none, none, none, none, none, none, none, none,
      none, none, none, none, none, none, none, some ACCS, some TPLE, some TPLS, none, none]
  | .B13 => [
      none, none, none, none, some CALL, none, some CMEM, none, none, none, some ARRW, none,
      some INC, some DEC, none, none, none, none, none, some MUL, some DIV, some REM, some EXPN, none,
      none, none, none, none, none, none, none, none, none, none, none, none,
      none, none, none, none, none, none, none, none, none, none, none, none,
      none, none, none, none, none, none, none, none, none, none, none, none,
      none, none, none, none, none, none, none, none, none, none, none, none,
      none, none, none, none, none, none, none, none, none, none, none, none,
      none, none, none, none, none, none, none, none, none, none, none, none,
      none, none, none, none, none, none, none, some ACCS, some TPLE, some TPLS, none, none]
  | .B14 => [
      none, none, none, none, some CALL, none, some CMEM, none, none, none, some ARRW, none,
      some INC, some DEC, none, none, none, none, none, none, none, none, some EXPN, none,
      none, none, none, none, none, none, none, none, none, none, none, none,
      none, none, none, none, none, none, none, none, none, none, none, none,
      none, none, none, none, none, none, none, none, none, none, none, none,
      none, none, none, none, none, none, none, none, none, none, none, none,
      none, none, none, none, none, none, none, none, none, none, none, none,
      none, none, none, none, none, none, none, none, none, none, none, none,
      none, none, none, none, none, none, none, some ACCS, some TPLE, some TPLS, none, none]
  | .B15 => [
      none, none, none, none, some CALL, none, some CMEM, none, none, none, some ARRW, none,
      some INC, some DEC, none, none, none, none, none, none, none, none, none, none,
      none, none, none, none, none, none, none, none, none, none, none, none,
      none, none, none, none, none, none, none, none, none, none, none, none,
      none, none, none, none, none, none, none, none, none, none, none, none,
      none, none, none, none, none, none, none, none, none, none, none, none,
      none, none, none, none, none, none, none, none, none, none, none, none,
      none, none, none, none, none, none, none, none, none, none, none, none,
      none, none, none, none, none, none, none, some ACCS, some TPLE, some TPLS, none, none]

/-- `BindingPower::handler`, `ratel/src/parser/nested.rs:17-28`. -/
def nestedHandler (lvl : Lvl) (asi : Asi) (t : Token) : Option NH :=
  if asi = .ImplicitSemicolon ∧ (t = .OperatorIncrement ∨ t = .OperatorDecrement) then none
  else ((lut lvl)[t.idx]?).join

/-- Names of the expression handlers, `ratel/src/parser/expression.rs:98-235`. `ERR` is `____`. -/
inductive EH where
  | ERR | VOID | OBJ | CLAS | FUNC | IDEN | SPRD | THIS | OP | NEW | PRN | ARR | REG
  | TRUE | FALS | NULL | UNDE | STR | NUM | BIN | TPLS | TPLE
deriving DecidableEq, Repr

/-- The three contexts of expressions, `ratel/src/parser/expression.rs:13-70`. -/
inductive Ctx where
  | DEF | ARRAY | CALL
deriving DecidableEq, Repr

open EH in
/-- `DEF_CONTEXT`, `ARRAY_CONTEXT`, `CALL_CONTEXT`, `ratel/src/parser/expression.rs:13-70`. -/
def exprTable : Ctx → List EH
  | .DEF => [
      ERR, ERR, ERR, ERR, PRN, ERR, ARR, ERR, OBJ, ERR, ERR, NEW,
      OP, OP, OP, OP, OP, OP, OP, ERR, REG, ERR, ERR, OP,
      OP, ERR, ERR, ERR, ERR, ERR, ERR, ERR, ERR, ERR, ERR, ERR,
      ERR, ERR, ERR, ERR, ERR, ERR, ERR, ERR, ERR, ERR, ERR, ERR,
      ERR, ERR, ERR, ERR, ERR, ERR, ERR, ERR, ERR, ERR, ERR, ERR,
      ERR, ERR, ERR, ERR, ERR, ERR, ERR, CLAS, ERR, ERR, ERR, ERR,
      ERR, ERR, ERR, ERR, ERR, ERR, ERR, FUNC, THIS, ERR, ERR, ERR,
      ERR, ERR, ERR, TRUE, FALS, NULL, UNDE, STR, NUM, BIN, ERR, ERR,
      ERR, ERR, ERR, ERR, ERR, ERR, IDEN, ERR, TPLE, TPLS, ERR, ERR]
  | .ARRAY => [
      ERR, ERR, ERR, VOID, PRN, ERR, ARR, VOID, OBJ, ERR, ERR, NEW,
      OP, OP, OP, OP, OP, OP, OP, ERR, REG, ERR, ERR, OP,
      OP, ERR, ERR, ERR, ERR, ERR, ERR, ERR, ERR, ERR, ERR, ERR,
      ERR, ERR, ERR, ERR, ERR, ERR, ERR, ERR, ERR, ERR, ERR, ERR,
      ERR, ERR, ERR, ERR, ERR, ERR, ERR, ERR, ERR, SPRD, ERR, ERR,
      ERR, ERR, ERR, ERR, ERR, ERR, ERR, CLAS, ERR, ERR, ERR, ERR,
      ERR, ERR, ERR, ERR, ERR, ERR, ERR, FUNC, THIS, ERR, ERR, ERR,
      ERR, ERR, ERR, TRUE, FALS, NULL, UNDE, STR, NUM, BIN, ERR, ERR,
      ERR, ERR, ERR, ERR, ERR, ERR, IDEN, ERR, TPLE, TPLS, ERR, ERR]
  | .CALL => [
      ERR, ERR, ERR, ERR, PRN, ERR, ARR, ERR, OBJ, ERR, ERR, NEW,
      OP, OP, OP, OP, OP, OP, OP, ERR, REG, ERR, ERR, OP,
      OP, ERR, ERR, ERR, ERR, ERR, ERR, ERR, ERR, ERR, ERR, ERR,
      ERR, ERR, ERR, ERR, ERR, ERR, ERR, ERR, ERR, ERR, ERR, ERR,
      ERR, ERR, ERR, ERR, ERR, ERR, ERR, ERR, ERR, SPRD, ERR, ERR,
      ERR, ERR, ERR, ERR, ERR, ERR, ERR, CLAS, ERR, ERR, ERR, ERR,
      ERR, ERR, ERR, ERR, ERR, ERR, ERR, FUNC, THIS, ERR, ERR, ERR,
      ERR, ERR, ERR, TRUE, FALS, NULL, UNDE, STR, NUM, BIN, ERR, ERR,
      ERR, ERR, ERR, ERR, ERR, ERR, IDEN, ERR, TPLE, TPLS, ERR, ERR]

/-- Table lookup in `context_bound_expression` and `bound_expression`,
`ratel/src/parser/expression.rs:237-246`. -/
def exprHandler (c : Ctx) (t : Token) : EH := (exprTable c).getD t.idx .ERR

/-- Names of the statement handlers, `ratel/src/parser/statement.rs:59-100`. `ERR` is `____`;
`E h` is the shared expression handler `h` that produces a statement. -/
inductive SH where
  | ERR | EMPT | DBGGR | BLCK | VAR | LET | CONS | RET | BRK | THRW | CONT | FUNC | CLAS | IF | WHL
  | DO | FOR | TRY | SWCH | LABL | IMPT
  | E (h : EH)
deriving DecidableEq, Repr

open SH in
/-- `STMT_HANDLERS`, `ratel/src/parser/statement.rs:18-46`. -/
def stmtTable : List SH := [
  ERR, EMPT, ERR, ERR, E .PRN, ERR, E .ARR, ERR, BLCK, ERR, ERR, E .NEW,
  E .OP, E .OP, E .OP, E .OP, E .OP, E .OP, E .OP, ERR, E .REG, ERR, ERR, E .OP,
  E .OP, ERR, ERR, ERR, ERR, ERR, ERR, ERR, ERR, ERR, ERR, ERR,
  ERR, ERR, ERR, ERR, ERR, ERR, ERR, ERR, ERR, ERR, ERR, ERR,
  ERR, ERR, ERR, ERR, ERR, ERR, ERR, ERR, ERR, ERR, VAR, LET,
  CONS, BRK, DO, ERR, ERR, ERR, ERR, CLAS, ERR, RET, WHL, ERR,
  ERR, ERR, CONT, FOR, SWCH, ERR, DBGGR, FUNC, E .THIS, ERR, IF, THRW,
  IMPT, TRY, ERR, E .TRUE, E .FALS, E .NULL, E .UNDE, E .STR, E .NUM, E .BIN, ERR, ERR,
  ERR, ERR, ERR, ERR, ERR, ERR, LABL, ERR, E .TPLE, E .TPLS, ERR, ERR]

/-- Table lookup in `Parser::statement`, `ratel/src/parser/statement.rs:159-162`. -/
def stmtHandler (t : Token) : SH := stmtTable.getD t.idx .ERR

end Ratel
