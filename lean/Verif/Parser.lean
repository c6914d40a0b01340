import Verif.ParserTables
/-! The parser: `ratel/src/parser/*.rs`.

The parser mutates its lexer and its list of errors: computations in `P` are functions from a
parser state to an outcome. Mutual recursion goes through a record `Rec` of recursive procedures
and loops carry a bound `n`; `procs` ties the knot `fuel` times. A run that uses up its fuel has
the outcome `timeout`. -/
namespace Ratel

/-- `Parser`, `ratel/src/parser/mod.rs:29-40` (`arena` is not modelled, `body` is returned). -/
structure PState where
  lex : Lex
  errors : List Err
deriving DecidableEq, Repr

/-- A parser method: `&mut self` becomes state passing. -/
def P (α : Type) : Type := PState → Out (α × PState)

namespace P

/-- Return a value without touching the parser. -/
@[inline] protected def pure (a : α) : P α := fun s => .ok (a, s)

/-- Sequencing. -/
@[inline] protected def bind (m : P α) (f : α → P β) : P β := fun s =>
  (m s).bind fun (a, s') => f a s'

instance : Monad P where
  pure := P.pure
  bind := P.bind

end P

/-- Result of one round of a loop: `break` with a result or go on with a new accumulator. -/
inductive Step (σ α : Type) where
  | again (s : σ)
  | done (a : α)

/-- A Rust `loop`/`while`, at most `n` rounds. -/
def loop : Nat → (σ → P (Step σ α)) → σ → P α
  | 0, _, _ => fun _ => .timeout
  | n + 1, body, x => do
    match ← body x with
    | .again y => loop n body y
    | .done a => pure a

/-- A Rust panic. -/
def panic : P α := fun _ => .panic

/-- `self.lexer.token` -/
def tok : P Token := fun s => .ok (s.lex.token, s)

/-- `Parser::asi`, `ratel/src/parser/mod.rs:60-63`. -/
def asi : P Asi := fun s => .ok (s.lex.asi, s)

/-- `Lexer::start`, `ratel/src/lexer/mod.rs:705-708`. -/
def start : P Nat := fun s => .ok (s.lex.tokenStart, s)

/-- `Lexer::end`, `ratel/src/lexer/mod.rs:711-714`. -/
def stop : P Nat := fun s => .ok (s.lex.index, s)

/-- `Lexer::loc`, `ratel/src/lexer/mod.rs:699-702`, as used by `Parser::in_loc`,
`ratel/src/parser/mod.rs:65-75`. -/
def curLoc : P Loc := fun s => .ok (⟨s.lex.tokenStart, s.lex.index⟩, s)

/-- `self.lexer.token_as_str()` -/
def tokStr : P Bytes := fun s => .ok (s.lex.tokenAsStr, s)

/-- `self.lexer.accessor_as_str()` -/
def accStr : P Bytes := fun s => .ok (s.lex.accessorAsStr, s)

/-- `self.lexer.quasi` -/
def quasi : P Bytes := fun s => .ok (s.lex.quasi, s)

section
variable [Unicode]

/-- `self.lexer.consume()` -/
def consume : P Unit := fun s =>
  s.lex.consume.bind fun l => .ok ((), { s with lex := l })

/-- `self.lexer.read_template_kind()` -/
def readTemplateKind : P Unit := fun s =>
  s.lex.readTemplateKind.bind fun l => .ok ((), { s with lex := l })

/-- `self.lexer.read_regular_expression()` -/
def readRegex : P Bytes := fun s =>
  s.lex.readRegularExpression.bind fun (l, v) => .ok (v, { s with lex := l })

/-- `Parser::error`, `ratel/src/parser/mod.rs:52-58`; the placeholder `T::to_error()` is supplied by
the callers. -/
def error : P Unit := fun s =>
  s.lex.invalidToken.bind fun (e, l) => .ok ((), { lex := l, errors := s.errors ++ [e] })

/-- `Lexer::start_then_consume`, `ratel/src/lexer/mod.rs:717-722`. -/
def startThenConsume : P Nat := do
  let s ← start
  consume
  pure s

/-- `Lexer::end_then_consume`, `ratel/src/lexer/mod.rs:725-730`. -/
def endThenConsume : P Nat := do
  let e ← stop
  consume
  pure e

/-- `expect!`, `ratel/src/parser/macros.rs:17-24`. -/
def expect (t : Token) : P Unit := do
  if (← tok) = t then consume else error

/-- Span used by the placeholders of `ToError`, `ratel/src/parser/error.rs:14-101`. -/
def noLoc : Loc := ⟨0, 0⟩

/-- `Expression::is_lvalue`, `ratel/src/ast/expression.rs:223-236`. -/
def Expr.isLvalue : Expr → Bool
  | .ident .. | .member .. | .cmember .. | .object .. | .array .. | .spread .. => true
  | _ => false

/-- The recursive procedures of the parser: `expression_in_context::<B>` (with `expression::<B>`
for the context `DEF`), `statement`, `pattern_array` and `property`. -/
structure Rec where
  expr : Ctx → Lvl → P Expr
  stmt : P Stmt
  patArray : P Pattern
  property : P Property

/-- The kinds of names that `Parse` is implemented for, `ratel/src/parser/function.rs:7-45`. -/
inductive NameKind where
  | empty | optional | mandatory

/-- `N::parse`, `ratel/src/parser/function.rs:7-45`; `MandatoryName` has the placeholder of
`ratel/src/ast/function.rs:24-32`. -/
def parseName : NameKind → P Name
  | .empty => pure .empty
  | .optional => do
    if (← tok) = .Identifier then
      let n ← tokStr
      let l ← curLoc
      consume
      pure (.optional (some ⟨l, n⟩))
    else pure (.optional none)
  | .mandatory => do
    if (← tok) = .Identifier then
      let n ← tokStr
      let l ← curLoc
      consume
      pure (.mandatory ⟨l, n⟩)
    else
      error
      pure (.mandatory ⟨noLoc, []⟩)

/-- `Parser::identifier`, `ratel/src/parser/mod.rs:165-176`. -/
def identifier : P Ident := do
  if (← tok) = .Identifier then
    let n ← tokStr
    let l ← curLoc
    consume
    pure ⟨l, n⟩
  else
    error
    pure ⟨noLoc, []⟩

/-- `Parser::expect_semicolon`, `ratel/src/parser/statement.rs:166-173`. -/
def expectSemicolon : P Unit := do
  match ← asi with
  | .ExplicitSemicolon => consume
  | .ImplicitSemicolon => pure ()
  | .NoSemicolon => error

/-- `Parser::pattern_from_expression`, `ratel/src/parser/mod.rs:178-199`. -/
def patternFromExpression : Expr → P Pattern
  | .binary loc .Assign left right => do
    let l ← patternFromExpression left
    pure (.assign loc l right)
  | .ident loc n => pure (.ident loc n)
  | e => do
    error
    pure (match e.loc with | l => .void l)

/-- `Parser::params_from_expressions`, `ratel/src/parser/mod.rs:201-219`. -/
def paramsFromExpressions : List Expr → P (List Pattern)
  | [] => pure []
  | e :: es => do
    let p ← patternFromExpression e
    let ps ← paramsFromExpressions es
    pure (p :: ps)

variable (n : Nat) (R : Rec)

/-- `Parser::raw_block`, `ratel/src/parser/mod.rs:145-163`, for the items parsed by `item`. -/
def rawBlock (item : P α) : P (List α) := do
  if (← tok) = .BraceClose then pure []
  else
    let first ← item
    loop n (fun acc => do
      let t ← tok
      if t ≠ .BraceClose ∧ t ≠ .EndOfProgram then
        let x ← item
        pure (.again (acc ++ [x]))
      else pure (.done acc)) [first]

/-- `Parser::block`, `ratel/src/parser/mod.rs:115-130`: the span and the items. -/
def block (item : P α) : P (Loc × List α) := do
  let s ← start
  expect .BraceOpen
  let b ← rawBlock n item
  let e ← endThenConsume
  pure (⟨s, e⟩, b)

/-- `Parser::unchecked_block`, `ratel/src/parser/mod.rs:133-143`. -/
def uncheckedBlock (item : P α) : P (Loc × List α) := do
  let s ← startThenConsume
  let b ← rawBlock n item
  let e ← endThenConsume
  pure (⟨s, e⟩, b)

/-- A block of statements. -/
def stmtBlock : P Block := do
  let (l, b) ← block n R.stmt
  pure (.mk l b)

/-- `Parser::array_elements`, `ratel/src/parser/expression.rs:498-526`. -/
def arrayElements (get : P α) : P (List α) := do
  if (← tok) = .BracketClose then pure []
  else
    let first ← get
    loop n (fun acc => do
      match ← tok with
      | .Comma => do
        consume
        let x ← get
        pure (.again (acc ++ [x]))
      | .BracketClose => pure (.done acc)
      | _ => do
        error
        pure (.done acc)) [first]

/-- `Parser::property_list`, `ratel/src/parser/expression.rs:374-399`. -/
def propertyList : P (List Property) := do
  if (← tok) = .BraceClose then pure []
  else
    let first ← R.property
    loop n (fun acc => do
      match ← tok with
      | .BraceClose => pure (.done acc)
      | .Comma => do
        consume
        if (← tok) = .BraceClose then pure (.done acc)
        else
          let x ← R.property
          pure (.again (acc ++ [x]))
      | _ => do
        error
        pure (.done acc)) [first]

/-- `Parser::pattern_identifier`, `ratel/src/parser/function.rs:224-231`. -/
def patternIdentifier : P Pattern := do
  let v ← tokStr
  let l ← curLoc
  consume
  pure (.ident l v)

/-- `Parser::pattern_assign`, `ratel/src/parser/function.rs:255-271`. -/
def patternAssign (left : Pattern) : P Pattern := do
  if (← tok) = .OperatorAssign then
    consume
    let right ← R.expr .DEF .B0
    pure (.assign ⟨left.loc.start, right.loc.stop⟩ left right)
  else pure left

/-- `Parser::pattern_object`, `ratel/src/parser/function.rs:244-253`. -/
def patternObject : P Pattern := do
  let s ← startThenConsume
  let ps ← propertyList n R
  let e ← endThenConsume
  pure (.object ⟨s, e⟩ ps)

/-- `Parser::pattern_param`, `ratel/src/parser/function.rs:286-296`. -/
def patternParam : P Pattern := do
  let left ← (do match ← tok with
    | .Identifier => patternIdentifier
    | .BracketOpen => R.patArray
    | .BraceOpen => patternObject n R
    | _ => do
      error
      pure (.void noLoc))
  patternAssign R left

/-- `Parser::pattern_array_element`, `ratel/src/parser/function.rs:273-284`; `pattern_void` is
`ratel/src/parser/function.rs:218-222`. -/
def patternArrayElement : P Pattern := do
  match ← tok with
  | .Comma | .BracketClose => do
    let s ← start
    pure (.void ⟨s, s⟩)
  | _ => patternParam n R

/-- `Parser::pattern_array`, `ratel/src/parser/function.rs:233-242`. -/
def patternArray : P Pattern := do
  let s ← startThenConsume
  let es ← arrayElements n (patternArrayElement n R)
  let e ← endThenConsume
  pure (.array ⟨s, e⟩ es)

/-- `Pattern::parse`, `ratel/src/parser/function.rs:47-59`. -/
def patternParse : P Pattern := do
  match ← tok with
  | .Identifier => patternIdentifier
  | .BracketOpen => R.patArray
  | .BraceOpen => patternObject n R
  | _ => do
    error
    pure (.void noLoc)

/-- `Parser::rest_element`, `ratel/src/parser/function.rs:298-319`. -/
def restElement : P Pattern := do
  let s ← startThenConsume
  let argument ← identifier
  expect .ParenClose
  pure (.rest ⟨s, argument.loc.stop⟩ argument)

/-- `Parser::params`, `ratel/src/parser/function.rs:321-382`. -/
def params : P (List Pattern) := do
  expect .ParenOpen
  match ← tok with
  | .ParenClose => do
    consume
    pure []
  | .OperatorSpread => do
    let r ← restElement
    pure [r]
  | _ => do
    let first ← patternParam n R
    loop n (fun acc => do
      match ← tok with
      | .Comma => do
        consume
        match ← tok with
        | .ParenClose => do
          consume
          pure (.done acc)
        | .OperatorSpread => do
          let r ← restElement
          pure (.done (acc ++ [r]))
        | _ => do
          let p ← patternParam n R
          pure (.again (acc ++ [p]))
      | .ParenClose => do
        consume
        pure (.done acc)
      | _ => do
        error
        pure (.done acc)) [first]

/-- `Function::parse`, `ratel/src/parser/function.rs:61-84`. -/
def functionParse (k : NameKind) : P Func := do
  let generator ← (do
    if (← tok) = .OperatorMultiplication then
      consume
      pure true
    else pure false)
  let name ← parseName k
  let ps ← params n R
  let body ← stmtBlock n R
  pure (.mk name generator ps body)

/-- `Node<Function>::parse` for methods, `ratel/src/parser/function.rs:86-98`. -/
def methodParse : P (Loc × Func) := do
  let s ← start
  let f ← functionParse n R .empty
  pure (⟨s, f.bodyStop⟩, f)

/-- The second half of `Parser::property`, `ratel/src/parser/expression.rs:455-476`. -/
def propertyValue (s : Nat) (key : PropKey) : P Property := do
  match ← tok with
  | .Colon => do
    consume
    let value ← R.expr .DEF .B0
    pure (.literal ⟨s, value.loc.stop⟩ key value)
  | .ParenOpen => do
    let (vloc, value) ← methodParse n R
    pure (.method ⟨s, vloc.stop⟩ key vloc value)
  | _ => do
    error
    pure (.shorthand noLoc [])

/-- `Parser::property`, `ratel/src/parser/expression.rs:401-477`. -/
def property : P Property := do
  let s ← start
  let t ← tok
  if t.isWord then
    let l ← curLoc
    let label ← tokStr
    consume
    match ← tok with
    | .Colon | .ParenOpen => propertyValue n R s (.literal l label)
    | _ => pure (.shorthand l label)
  else match t with
    | .OperatorSpread => do
      let s ← startThenConsume
      let argument ← R.expr .DEF .B0
      let e ← stop
      pure (.spread ⟨s, e⟩ argument)
    | .LiteralString | .LiteralNumber => do
      let v ← tokStr
      let l ← curLoc
      consume
      propertyValue n R s (.literal l v)
    | .LiteralBinary => do
      let v ← tokStr
      let l ← curLoc
      consume
      propertyValue n R s (.binary l v)
    | .BracketOpen => do
      let s' ← startThenConsume
      let e ← R.expr .DEF .ANY
      let stop' ← stop
      expect .BracketClose
      propertyValue n R s (.computed ⟨s', stop'⟩ e)
    | _ => do
      error
      pure (.shorthand noLoc [])


/-! ### Expressions -/

/-- `Parser::call_arguments`, `ratel/src/parser/expression.rs:283-315`. -/
def callArguments : P (List Expr) := do
  if (← tok) = .ParenClose then pure []
  else
    let first ← R.expr .CALL .B0
    loop n (fun acc => do
      match ← tok with
      | .ParenClose => pure (.done acc)
      | .Comma => do
        consume
        if (← tok) = .ParenClose then pure (.done acc)
        else
          let x ← R.expr .CALL .B0
          pure (.again (acc ++ [x]))
      | _ => do
        error
        pure (.done acc)) [first]

/-- `Parser::arrow_function_expression`, `ratel/src/parser/expression.rs:268-281`; `mkLoc` gives the
span allocated by the caller afterwards. -/
def arrowFunctionExpression (start : Nat) (ps : List Expr) : P Expr := do
  let params ← paramsFromExpressions ps
  if (← tok) = .BraceOpen then
    let (l, b) ← uncheckedBlock n R.stmt
    let e ← stop
    pure (.arrowB ⟨start, e⟩ params (.mk l b))
  else
    let body ← R.expr .DEF .B0
    let e ← stop
    pure (.arrowE ⟨start, e⟩ params body)

/-- `Parser::paren_expression`, `ratel/src/parser/expression.rs:317-336`. -/
def parenExpression : P Expr := do
  let s ← startThenConsume
  if (← tok) = .ParenClose then
    consume
    expect .OperatorFatArrow
    arrowFunctionExpression n R s []
  else
    let e ← R.expr .DEF .ANY
    expect .ParenClose
    pure e

/-- `Parser::object_expression`, `ratel/src/parser/expression.rs:348-357`. -/
def objectExpression : P Expr := do
  let s ← startThenConsume
  let body ← propertyList n R
  let e ← endThenConsume
  pure (.object ⟨s, e⟩ body)

/-- `Parser::array_expression`, `ratel/src/parser/expression.rs:479-486`. -/
def arrayExpression : P Expr := do
  let s ← startThenConsume
  let body ← arrayElements n (R.expr .ARRAY .B0)
  let e ← endThenConsume
  pure (.array ⟨s, e⟩ body)

/-- `Parser::regular_expression`, `ratel/src/parser/expression.rs:528-537`. -/
def regularExpression : P Expr := do
  let s ← start
  let v ← readRegex
  let e ← stop
  expect .LiteralRegEx
  pure (.lit ⟨s, e⟩ (.RegEx v))

/-- `Parser::template_string`, `ratel/src/parser/expression.rs:539-553`, also `TPLS`,
`ratel/src/parser/expression.rs:222-232`: the span of the node and its only quasi. -/
def templateString : P (Loc × List Expr × List Ident) := do
  let q ← quasi
  let l ← curLoc
  consume
  pure (l, [], [⟨l, q⟩])

/-- `Parser::template_literal`, `ratel/src/parser/expression.rs:555-611`. -/
def templateLiteral : P (Loc × List Expr × List Ident) := do
  let q ← quasi
  let l ← curLoc
  let s ← startThenConsume
  let e ← R.expr .DEF .ANY
  if (← tok) = .BraceClose then readTemplateKind else error
  loop n (fun (es, qs) => do
    match ← tok with
    | .TemplateOpen => do
      let q ← quasi
      let l ← curLoc
      consume
      let e ← R.expr .DEF .ANY
      let es := es ++ [e]
      let qs := qs ++ [⟨l, q⟩]
      if (← tok) = .BraceClose then
        readTemplateKind
        pure (.again (es, qs))
      else
        let stop' ← stop
        error
        pure (.done (⟨s, stop'⟩, es, qs))
    | .TemplateClosed => do
      let q ← quasi
      let l ← curLoc
      let stop' ← endThenConsume
      pure (.done (⟨s, stop'⟩, es, qs ++ [⟨l, q⟩]))
    | _ => do
      let stop' ← stop
      error
      pure (.done (⟨s, stop'⟩, es, qs))) ([e], [⟨l, q⟩])

/-- `ClassMember::parse`, second half, `ratel/src/parser/function.rs:158-193`. -/
def classMemberValue (s : Nat) (isStatic : Bool) (kind : MethodKind) (key : PropKey) :
    P ClassMember := do
  match ← tok with
  | .ParenOpen => do
    let (vloc, value) ← methodParse n R
    if (← tok) = .Semicolon then consume
    pure (.method ⟨s, vloc.stop⟩ isStatic key kind vloc value)
  | .OperatorAssign => do
    consume
    let value ← R.expr .DEF .B0
    if (← tok) = .Semicolon then consume
    pure (.literal ⟨s, value.loc.stop⟩ isStatic key value)
  | _ => do
    error
    pure (.error noLoc)

/-- `ClassMember::parse`, `ratel/src/parser/function.rs:100-194`. -/
def classMember : P ClassMember := do
  let s ← start
  let isStatic ← (do
    if (← tok) = .Static then
      consume
      pure true
    else pure false)
  let ts ← start
  let t ← tok
  if t.isWord then
    let label ← tokStr
    let te ← endThenConsume
    if (← tok).isWord then
      if label = bs!"get" then
        let label ← tokStr
        consume
        classMemberValue n R s isStatic .Get (.literal ⟨ts, te⟩ label)
      else if label = bs!"set" then
        let label ← tokStr
        consume
        classMemberValue n R s isStatic .Set (.literal ⟨ts, te⟩ label)
      else
        error
        pure (.error noLoc)
    else if isStatic = false ∧ label = bs!"constructor" then
      classMemberValue n R s isStatic .Constructor (.literal ⟨ts, te⟩ label)
    else classMemberValue n R s isStatic .Method (.literal ⟨ts, te⟩ label)
  else match t with
    | .LiteralNumber => do
      let v ← tokStr
      let te ← endThenConsume
      classMemberValue n R s isStatic .Method (.literal ⟨ts, te⟩ v)
    | .LiteralBinary => do
      let v ← tokStr
      let te ← endThenConsume
      classMemberValue n R s isStatic .Method (.binary ⟨ts, te⟩ v)
    | .BracketOpen => do
      consume
      let e ← R.expr .DEF .ANY
      let te ← stop
      expect .BracketClose
      classMemberValue n R s isStatic .Method (.computed ⟨ts, te⟩ e)
    | _ => do
      error
      pure (.error noLoc)

/-- `Class::parse`, `ratel/src/parser/function.rs:196-218`. -/
def classParse (k : NameKind) : P Class := do
  let name ← parseName k
  let super ← (do
    if (← tok) = .Extends then
      consume
      let e ← R.expr .DEF .B0
      pure (some e)
    else pure none)
  let (l, b) ← block n (classMember n R)
  pure (.mk name super l b)

/-- Literal handlers `TRUE`, `NUM`, … , `ratel/src/parser/expression.rs:164-220`. -/
def literalExpr (v : Bytes → Literal) : P Expr := do
  let s ← tokStr
  let l ← curLoc
  consume
  pure (.lit l (v s))

/-- The expression handlers, `ratel/src/parser/expression.rs:98-235`, with
`Parser::prefix_expression` (338-346), `Parser::meta_property_expression` (359-372),
`Parser::void_expression` (488-493), `Parser::function_expression` (628-634) and
`Parser::class_expression` (636-642). -/
def runEH (h : EH) : P Expr :=
  match h with
  | .ERR => do
    let s ← start
    error
    pure (.void ⟨s, s⟩)
  | .VOID => do
    let s ← start
    pure (.void ⟨s, s⟩)
  | .OBJ => objectExpression n R
  | .CLAS => do
    let s ← startThenConsume
    let c ← classParse n R .optional
    pure (.class ⟨s, c.bodyStop⟩ c)
  | .FUNC => do
    let s ← startThenConsume
    let f ← functionParse n R .optional
    pure (.function ⟨s, f.bodyStop⟩ f)
  | .IDEN => do
    let v ← tokStr
    let l ← curLoc
    consume
    pure (.ident l v)
  | .SPRD => do
    let s ← startThenConsume
    let e ← R.expr .DEF .B0
    pure (.spread ⟨s, e.loc.stop⟩ e)
  | .THIS => do
    let l ← curLoc
    consume
    pure (.this l)
  | .OP => do
    let s ← start
    match Op.fromToken (← tok) with
    | none => panic
    | some op => do
      consume
      let e ← R.expr .DEF .B15
      let stop' ← stop
      pure (.prefix ⟨s, stop'⟩ op e)
  | .NEW => do
    let l ← curLoc
    consume
    if (← tok) = .Accessor then
      let p ← accStr
      if p ≠ bs!"target" then error
      let pl ← curLoc
      let e ← stop
      consume
      pure (.metaProp ⟨l.start, e⟩ ⟨l, bs!"new"⟩ ⟨pl, p⟩)
    else
      let e ← R.expr .DEF .B15
      let stop' ← stop
      pure (.prefix ⟨l.start, stop'⟩ .New e)
  | .PRN => parenExpression n R
  | .ARR => arrayExpression n R
  | .REG => regularExpression
  | .TRUE => literalExpr fun _ => .True
  | .FALS => literalExpr fun _ => .False
  | .NULL => literalExpr fun _ => .Null
  | .UNDE => literalExpr fun _ => .Undefined
  | .STR => literalExpr .String
  | .NUM => literalExpr .Number
  | .BIN => literalExpr .Binary
  | .TPLS => do
    let (l, es, qs) ← templateString
    pure (.template l es qs)
  | .TPLE => do
    let (l, es, qs) ← templateLiteral n R
    pure (.template l es qs)

/-- The handlers for tokens after an expression, `ratel/src/parser/nested.rs:229-389`, and
`Parser::tagged_template_expression`, `ratel/src/parser/expression.rs:618-626`. -/
def runNH (h : NH) (left : Expr) : P Expr :=
  match h with
  | .SEQ => do
    consume
    let x ← R.expr .DEF .B0
    let body ← loop n (fun acc => do
      if (← tok) = .Comma then
        consume
        let x ← R.expr .DEF .B0
        pure (.again (acc ++ [x]))
      else pure (.done acc)) [left, x]
    let e ← stop
    pure (.seq ⟨left.loc.start, e⟩ body)
  | .COND => do
    consume
    let c ← R.expr .DEF .B1
    expect .Colon
    let a ← R.expr .DEF .B1
    pure (.cond ⟨left.loc.start, a.loc.stop⟩ left c a)
  | .ARRW => do
    consume
    let ps := match left with
      | .seq _ body => body
      | e => [e]
    arrowFunctionExpression n R left.loc.start ps
  | .ACCS => do
    let p ← accStr
    consume
    let pl ← curLoc
    pure (.member ⟨left.loc.start, pl.stop⟩ left ⟨pl, p⟩)
  | .CALL => do
    let s ← startThenConsume
    let args ← callArguments n R
    let e ← endThenConsume
    pure (.call ⟨s, e⟩ left args)
  | .CMEM => do
    consume
    let p ← R.expr .DEF .ANY
    expect .BracketClose
    let e ← stop
    pure (.cmember ⟨left.loc.start, e⟩ left p)
  | .TPLS => do
    let (l, es, qs) ← templateString
    pure (.tagged ⟨left.loc.start, l.stop⟩ left l es qs)
  | .TPLE => do
    let (l, es, qs) ← templateLiteral n R
    pure (.tagged ⟨left.loc.start, l.stop⟩ left l es qs)
  | .postfix op => do
    let e ← stop
    consume
    if left.isLvalue = false then error
    pure (.postfix ⟨left.loc.start, e⟩ op left)
  | .assign op => do
    consume
    if left.isLvalue = false then error
    let right ← R.expr .DEF .B1
    pure (.binary ⟨left.loc.start, right.loc.stop⟩ op left right)
  | .binary lvl op => do
    consume
    let right ← R.expr .DEF lvl
    pure (.binary ⟨left.loc.start, right.loc.stop⟩ op left right)

/-- `Parser::nested_expression`, `ratel/src/parser/nested.rs:432-444`. -/
def nestedExpression (lvl : Lvl) (left : Expr) : P Expr :=
  loop n (fun left => do
    match nestedHandler lvl (← asi) (← tok) with
    | some h => do
      let e ← runNH n R h left
      pure (.again e)
    | none => pure (.done left)) left

/-- `Parser::expression` and `Parser::expression_in_context`,
`ratel/src/parser/expression.rs:237-266`. -/
def expression (c : Ctx) (lvl : Lvl) : P Expr := do
  let left ← runEH n R (exprHandler c (← tok))
  nestedExpression n R lvl left

/-! ### Statements -/

/-- `Parser::variable_declarator`, `ratel/src/parser/statement.rs:258-276`. -/
def variableDeclarator : P Declarator := do
  let id ← patternParse n R
  if (← tok) = .OperatorAssign then
    consume
    let init ← R.expr .DEF .B0
    pure (.mk ⟨id.loc.start, init.loc.stop⟩ id (some init))
  else pure (.mk ⟨id.loc.start, id.loc.stop⟩ id none)

/-- `Parser::variable_declarators`, `ratel/src/parser/statement.rs:278-296`. -/
def variableDeclarators : P (List Declarator) := do
  let first ← variableDeclarator n R
  loop n (fun acc => do
    if (← tok) = .Comma then
      consume
      let d ← variableDeclarator n R
      pure (.again (acc ++ [d]))
    else pure (.done acc)) [first]

/-- `Parser::variable_declaration_statement`, `ratel/src/parser/statement.rs:242-256`. -/
def variableDeclarationStatement (kind : DeclKind) : P Stmt := do
  let s ← startThenConsume
  let ds ← variableDeclarators n R
  let e ← stop
  expectSemicolon
  pure (.decl ⟨s, e⟩ kind ds)

/-- `Parser::return_statement`, `ratel/src/parser/statement.rs:298-322`. -/
def returnStatement : P Stmt := do
  let l ← curLoc
  consume
  match ← asi with
  | .NoSemicolon => do
    let e ← R.expr .DEF .ANY
    expectSemicolon
    pure (.ret ⟨l.start, e.loc.stop⟩ (some e))
  | .ImplicitSemicolon => pure (.ret l none)
  | .ExplicitSemicolon => do
    consume
    pure (.ret l none)

/-- `Parser::break_statement` and `Parser::continue_statement`,
`ratel/src/parser/statement.rs:324-370`: span and label. -/
def jumpStatement : P (Loc × Option Ident) := do
  let l ← curLoc
  consume
  match ← asi with
  | .ExplicitSemicolon => do
    consume
    pure (l, none)
  | .ImplicitSemicolon => pure (l, none)
  | .NoSemicolon => do
    let label ← identifier
    expectSemicolon
    pure (⟨l.start, label.loc.stop⟩, some label)

/-- `Parser::throw_statement`, `ratel/src/parser/statement.rs:372-380`. -/
def throwStatement : P Stmt := do
  let s ← startThenConsume
  let e ← R.expr .DEF .ANY
  expectSemicolon
  pure (.throw ⟨s, e.loc.stop⟩ e)

/-- The catch clause in `Parser::try_statement`, `ratel/src/parser/statement.rs:388-398`. -/
def catchClause : P Catch := do
  let s ← startThenConsume
  expect .ParenOpen
  let p ← patternParse n R
  expect .ParenClose
  let body ← stmtBlock n R
  pure (.mk ⟨s, body.loc.stop⟩ p body)

/-- `Parser::try_statement`, `ratel/src/parser/statement.rs:382-430`. -/
def tryStatement : P Stmt := do
  let s ← startThenConsume
  let b ← stmtBlock n R
  match ← tok with
  | .Catch => do
    let h ← catchClause n R
    if (← tok) = .Finally then
      consume
      let f ← stmtBlock n R
      pure (.tryS ⟨s, f.loc.stop⟩ b (some h) (some f))
    else pure (.tryS ⟨s, h.loc.stop⟩ b (some h) none)
  | .Finally => do
    consume
    let f ← stmtBlock n R
    pure (.tryS ⟨s, f.loc.stop⟩ b none (some f))
  | _ => do
    error
    pure (.tryS ⟨s, b.loc.stop⟩ b none none)

/-- `Parser::if_statement`, `ratel/src/parser/statement.rs:432-455`. -/
def ifStatement : P Stmt := do
  let s ← startThenConsume
  expect .ParenOpen
  let test ← R.expr .DEF .ANY
  expect .ParenClose
  let c ← R.stmt
  if (← tok) = .Else then
    consume
    let a ← R.stmt
    pure (.ifS ⟨s, a.loc.stop⟩ test c (some a))
  else pure (.ifS ⟨s, c.loc.stop⟩ test c none)

/-- `Parser::while_statement`, `ratel/src/parser/statement.rs:457-470`. -/
def whileStatement : P Stmt := do
  let s ← startThenConsume
  expect .ParenOpen
  let test ← R.expr .DEF .ANY
  expect .ParenClose
  let body ← R.stmt
  pure (.whileS ⟨s, body.loc.stop⟩ test body)

/-- `Parser::do_statement`, `ratel/src/parser/statement.rs:472-486`. -/
def doStatement : P Stmt := do
  let s ← startThenConsume
  let body ← R.stmt
  expect .While
  expect .ParenOpen
  let test ← R.expr .DEF .ANY
  let e ← stop
  expect .ParenClose
  pure (.doS ⟨s, e⟩ body test)

/-- `Parser::for_init`, `ratel/src/parser/statement.rs:488-498`. -/
def forInit (kind : DeclKind) : P ForInit := do
  let s ← startThenConsume
  let ds ← variableDeclarators n R
  let e ← stop
  pure (.decl ⟨s, e⟩ kind ds)

/-- The tail of `Parser::for_statement`, `ratel/src/parser/statement.rs:545-583`. -/
def forRest (s : Nat) (init : Option ForInit) : P Stmt := do
  let test ← (do
    if (← tok) = .Semicolon then
      consume
      pure none
    else
      let e ← R.expr .DEF .ANY
      expect .Semicolon
      pure (some e))
  let update ← (do
    if (← tok) = .ParenClose then
      consume
      pure none
    else
      let e ← R.expr .DEF .ANY
      expect .ParenClose
      pure (some e))
  let body ← R.stmt
  pure (.forS ⟨s, body.loc.stop⟩ init test update body)

/-- `for_in_statement`, `for_of_statement` (the span, the right side and the body),
`ratel/src/parser/statement.rs:597-623`. -/
def forEachRest (s : Nat) : P (Loc × Expr × Stmt) := do
  let right ← R.expr .DEF .ANY
  expect .ParenClose
  let body ← R.stmt
  pure (⟨s, body.loc.stop⟩, right, body)

/-- The dispatch after the first part of a `for` header,
`ratel/src/parser/statement.rs:530-543`. -/
def forAfterInit (s : Nat) (init : ForInit) : P Stmt := do
  let t ← tok
  if t = .OperatorIn then
    consume
    let (l, right, body) ← forEachRest R s
    pure (.forIn l init right body)
  else if t = .Identifier ∧ (← tokStr) = bs!"of" then
    consume
    let (l, right, body) ← forEachRest R s
    pure (.forOf l init right body)
  else
    expect .Semicolon
    forRest R s (some init)

/-- `Parser::for_statement`, `ratel/src/parser/statement.rs:500-583`, and
`for_in_statement_from_parts`, 585-595. -/
def forStatement : P Stmt := do
  let s ← startThenConsume
  expect .ParenOpen
  match ← tok with
  | .Semicolon => do
    consume
    forRest R s none
  | .DeclarationVar => do
    let i ← forInit n R .Var
    forAfterInit R s i
  | .DeclarationLet => do
    let i ← forInit n R .Let
    forAfterInit R s i
  | .DeclarationConst => do
    let i ← forInit n R .Const
    forAfterInit R s i
  | _ => do
    let init ← R.expr .DEF .ANY
    match init with
    | .binary _ .In left right => do
      expect .ParenClose
      let body ← R.stmt
      pure (.forIn ⟨s, body.loc.stop⟩ (.expr left.loc left) right body)
    | init => forAfterInit R s (.expr init.loc init)

/-- `SwitchCase::parse`, `ratel/src/parser/statement.rs:111-156`. -/
def switchCase : P SwitchCase := do
  let s ← start
  let test ← (do match ← tok with
    | .Case => do
      consume
      let e ← R.expr .DEF .ANY
      pure (some e)
    | .Default => do
      consume
      pure none
    | _ => do
      error
      pure none)
  let e ← stop
  expect .Colon
  let (e, body) ← loop n (fun (e, acc) => do
    match ← tok with
    | .Case | .Default | .BraceClose => pure (.done (e, acc))
    | _ => do
      let st ← R.stmt
      pure (.again (st.loc.stop, acc ++ [st]))) (e, [])
  pure (.mk ⟨s, e⟩ test body)

/-- `Parser::switch_statement`, `ratel/src/parser/statement.rs:625-639`. -/
def switchStatement : P Stmt := do
  let s ← startThenConsume
  expect .ParenOpen
  let d ← R.expr .DEF .ANY
  expect .ParenClose
  let (l, cases) ← block n (switchCase n R)
  pure (.switch ⟨s, l.stop⟩ d l cases)

/-- `Parser::labeled_or_expression_statement`, `ratel/src/parser/statement.rs:198-224`. -/
def labeledOrExpressionStatement : P Stmt := do
  let label ← tokStr
  let l ← curLoc
  consume
  if (← tok) = .Colon then
    consume
    let body ← R.stmt
    pure (.labeled ⟨l.start, body.loc.stop⟩ label body)
  else
    let e ← nestedExpression n R .ANY (.ident l label)
    expectSemicolon
    pure (.expr ⟨l.start, e.loc.stop⟩ e)

/-- `Parser::expression_statement` and `wrap_expression`,
`ratel/src/parser/statement.rs:184-196`. -/
def expressionStatement (e : Expr) : P Stmt := do
  let e ← nestedExpression n R .ANY e
  expectSemicolon
  pure (.expr e.loc e)

/-- The content of a string literal token in `Parser::import_declaration`,
`ratel/src/parser/statement.rs:679,748`: `&str_ltr[1..str_ltr.len() - 1]`. -/
def stringContent (v : Bytes) : P Bytes :=
  if v.length < 2 then panic else pure ((v.drop 1).dropLast)

/-- The loop over `{ a, b as c }` in `Parser::import_declaration`,
`ratel/src/parser/statement.rs:693-729`. -/
def importNamed (acc : List ImportSpec) : P (List ImportSpec) :=
  loop n (fun acc => do
    if (← tok) = .Identifier then
      let s ← start
      let name ← identifier
      let loc' ← (do
        if (← tok) = .Identifier ∧ (← tokStr) = bs!"as" then
          consume
          identifier
        else pure name)
      let e ← stop
      let acc := acc ++ [.named ⟨s, e⟩ name loc']
      match ← tok with
      | .Comma => do
        consume
        pure (.again acc)
      | .BraceClose => do
        consume
        pure (.done acc)
      | _ => do
        error
        pure (.again acc)
    else
      error
      pure (.done acc)) acc

/-- The optional second part of an import clause, `ratel/src/parser/statement.rs:689-751`. -/
def importSecond (acc : List ImportSpec) : P (List ImportSpec) := do
  match ← tok with
  | .BraceOpen => do
    consume
    importNamed n acc
  | .OperatorMultiplication => do
    let s ← startThenConsume
    if (← tok) = .Identifier ∧ (← tokStr) = bs!"as" then consume else error
    let loc' ← identifier
    let e ← stop
    pure (acc ++ [.namespace ⟨s, e⟩ loc'])
  | _ => do
    error
    pure acc

/-- The `from "source"` part of `Parser::import_declaration`,
`ratel/src/parser/statement.rs:753-779`. -/
def importFrom (s : Nat) (specs : List ImportSpec) : P Stmt := do
  if (← tok) = .Identifier ∧ (← tokStr) = bs!"from" then consume else error
  let source ← (do
    if (← tok) = .LiteralString then
      let v ← tokStr
      stringContent v
    else
      error
      pure [])
  let e ← endThenConsume
  pure (.import ⟨s, e⟩ specs source)

/-- `Parser::import_declaration`, `ratel/src/parser/statement.rs:641-780`. -/
def importDeclaration : P Stmt := do
  let imp ← tokStr
  let l ← curLoc
  consume
  match ← tok with
  | .Comma | .ParenOpen => do
    let e ← nestedExpression n R .ANY (.ident l imp)
    expectSemicolon
    pure (.expr ⟨l.start, e.loc.stop⟩ e)
  | .Identifier => do
    let s ← start
    let id ← identifier
    let e ← stop
    let acc := [.default ⟨s, e⟩ id]
    if (← tok) = .Comma then
      consume
      let acc ← importSecond n acc
      importFrom l.start acc
    else importFrom l.start acc
  | .LiteralString => do
    let s ← start
    let v ← tokStr
    let source ← stringContent v
    let e ← endThenConsume
    pure (.import ⟨s, e⟩ [] source)
  | _ => do
    let acc ← importSecond n []
    importFrom l.start acc

/-- The statement handlers, `ratel/src/parser/statement.rs:64-100`, with
`Parser::block_statement` (175-182), `Parser::function_statement` (226-232) and
`Parser::class_statement` (234-240). -/
def runSH (h : SH) : P Stmt :=
  match h with
  | .ERR => do
    let s ← start
    error
    pure (.empty ⟨s, s⟩)
  | .EMPT => do
    let l ← curLoc
    consume
    pure (.empty l)
  | .DBGGR => do
    let l ← curLoc
    consume
    pure (.debugger l)
  | .BLCK => do
    let (l, b) ← uncheckedBlock n R.stmt
    pure (.block l b)
  | .VAR => variableDeclarationStatement n R .Var
  | .LET => variableDeclarationStatement n R .Let
  | .CONS => variableDeclarationStatement n R .Const
  | .RET => returnStatement R
  | .BRK => do
    let (l, label) ← jumpStatement
    pure (.brk l label)
  | .THRW => throwStatement R
  | .CONT => do
    let (l, label) ← jumpStatement
    pure (.cont l label)
  | .FUNC => do
    let s ← startThenConsume
    let f ← functionParse n R .mandatory
    pure (.function ⟨s, f.bodyStop⟩ f)
  | .CLAS => do
    let s ← startThenConsume
    let c ← classParse n R .mandatory
    pure (.class ⟨s, c.bodyStop⟩ c)
  | .IF => ifStatement R
  | .WHL => whileStatement R
  | .DO => doStatement R
  | .FOR => forStatement n R
  | .TRY => tryStatement n R
  | .SWCH => switchStatement n R
  | .LABL => labeledOrExpressionStatement n R
  | .IMPT => importDeclaration n R
  | .E h => do
    let e ← runEH n R h
    expressionStatement n R e

/-- `Parser::statement`, `ratel/src/parser/statement.rs:159-162`. -/
def statement : P Stmt := do
  runSH n R (stmtHandler (← tok))

/-! ### Tying the knot -/

/-- One unfolding of the recursive procedures. -/
def body : Rec where
  expr := expression n R
  stmt := statement n R
  patArray := patternArray n R
  property := property n R

/-- The recursive procedures, unfolded `fuel` times. -/
def procs : Nat → Rec
  | 0 => { expr := fun _ _ _ => .timeout, stmt := fun _ => .timeout,
           patArray := fun _ => .timeout, property := fun _ => .timeout }
  | n + 1 => body n (procs n)

/-- `Parser::parse`, `ratel/src/parser/mod.rs:97-113`. -/
def program : P (List Stmt) := do
  if (← tok) = .EndOfProgram then pure []
  else
    let first ← R.stmt
    loop n (fun acc => do
      if (← tok) = .EndOfProgram then pure (.done acc)
      else
        let s ← R.stmt
        pure (.again (acc ++ [s]))) [first]

/-- The run of the parser inside `parse`: the statements and the final state. -/
def runParser (fuel : Nat) (src : Bytes) : Out (List Stmt × PState) :=
  (Lex.new src).bind fun l => program fuel (procs fuel) { lex := l, errors := [] }

/-- `parse`, `ratel/src/parser/mod.rs:222-237`: the body of the module or the errors. -/
def parse (fuel : Nat) (src : Bytes) : Out (Except (List Err) (List Stmt)) :=
  (runParser fuel src).bind fun (b, s) =>
    .ok (if s.errors.length = 0 then .ok b else .error s.errors)

end
end Ratel
