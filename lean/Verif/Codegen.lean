import Verif.Parser
/-! The code generator: `ratel-codegen/src/*.rs`.

`ToCode::to_code` calls the writing methods of a `Generator`. The model of `to_code` is the list
of these calls; the two generators, `MinifyingGenerator` and `PrettyGenerator`, interpret it. -/
namespace Ratel

/-- A call of a method of `Generator`, `ratel-codegen/src/lib.rs:13-90`: `write_byte` and
`write_bytes` (`text`), `write_pretty`, `new_line`, `indent`, `dedent`; `panic` is the `panic!` of
`ratel-codegen/src/function.rs:77`. -/
inductive Piece where
  | text (bs : Bytes)
  | pretty (b : Byte)
  | newLine
  | indent
  | dedent
  | panic
deriving DecidableEq, Repr

/-- `gen.write_pretty(b' ')` -/
abbrev pSp : Piece := .pretty #b' '

/-- `Expression::binding_power`, `ratel/src/ast/expression.rs:189-209`. -/
def Expr.bindingPower : Expr → Nat
  | .member .. | .metaProp .. | .arrowE .. | .arrowB .. => 18
  | .call .. => 17
  | .prefix .. => 15
  | .binary _ op _ _ => op.bindingPower
  | .postfix _ op _ => op.bindingPower
  | .cond .. => 4
  | .seq .. => 0
  | _ => 100

/-- `Expression::is_allowed_as_bare_statement`, `ratel/src/ast/expression.rs:211-221`. -/
def Expr.isAllowedAsBareStatement : Expr → Bool
  | .object .. | .function .. | .class .. => false
  | _ => true

/-- `Statement::is_block`, `ratel/src/ast/statement.rs:242-250`. -/
def Stmt.isBlock : Stmt → Bool
  | .block .. => true
  | _ => false

/-- `Generator::write_expression`, `ratel-codegen/src/lib.rs:29-38`; `code` is the code of the
item. -/
def writeExpression (item : Expr) (code : List Piece) (bp : Nat) : List Piece :=
  if item.bindingPower < bp then .text bs!"(" :: code ++ [.text bs!")"] else code

/-- `Generator::write_list`, `ratel-codegen/src/lib.rs:40-56`, for items with the given code. -/
def writeList : List (List Piece) → List Piece
  | [] => []
  | [x] => x
  | x :: y :: r => x ++ [.text bs!",", pSp] ++ writeList (y :: r)

/-- The loop over the items of `write_block` and of the pretty printed module,
`ratel-codegen/src/lib.rs:74-77,196-199`. -/
def writeLines : List (List Piece) → List Piece
  | [] => []
  | x :: r => .newLine :: x ++ writeLines r

/-- `Generator::write_block`, `ratel-codegen/src/lib.rs:58-80`. -/
def writeBlock : List (List Piece) → List Piece
  | [] => []
  | x :: r => [.indent, .newLine] ++ x ++ writeLines r ++ [.dedent, .newLine]

/-- `ToCode for Block`, `ratel-codegen/src/lib.rs:269-279`. -/
def writeBraces (items : List (List Piece)) : List Piece :=
  [.text bs!"{"] ++ writeBlock items ++ [.text bs!"}"]

/-- The lines of `ToCode for ObjectExpression` after the first property,
`ratel-codegen/src/expression.rs:343-347`. -/
def writeProps : List (List Piece) → List Piece
  | [] => []
  | x :: r => [.text bs!",", .newLine] ++ x ++ writeProps r

/-- `ToCode for ObjectExpression`, `ratel-codegen/src/expression.rs:325-352`. -/
def writeObject : List (List Piece) → List Piece
  | [] => [.text bs!"{}"]
  | x :: r => [.text bs!"{", .indent, .newLine] ++ x ++ writeProps r ++ [.dedent, .newLine, .text bs!"}"]

/-- `ToCode for Literal`, `ratel-codegen/src/expression.rs:38-54`. -/
def codeLiteral : Literal → List Piece
  | .Undefined => [.text bs!"undefined"]
  | .Null => [.text bs!"null"]
  | .True => [.text bs!"true"]
  | .False => [.text bs!"false"]
  | .Binary v | .Number v | .String v | .RegEx v => [.text v]

/-- `ToCode for DeclarationKind`, `ratel-codegen/src/statement.rs:53-64`. -/
def codeKind : DeclKind → List Piece
  | .Var => [.text bs!"var "]
  | .Let => [.text bs!"let "]
  | .Const => [.text bs!"const "]

/-- `ToCode for EmptyName, OptionalName, MandatoryName`,
`ratel-codegen/src/function.rs:6-30`. -/
def codeName : Name → List Piece
  | .empty => []
  | .optional (some n) => [.text bs!" ", .text n.name]
  | .optional none => [pSp]
  | .mandatory n => [.text bs!" ", .text n.name]

/-- `write_class` and `write_function`, `ratel-codegen/src/function.rs:32-53`: methods have no
keyword. -/
def codeKeyword (kw : Bytes) : Name → List Piece
  | .empty => []
  | _ => [.text kw]

/-- `ToCode for ForImportSpecifier`, `ratel-codegen/src/statement.rs:356-378`. -/
def codeImportSpec : ImportSpec → List Piece
  | .default _ l => [.text l.name]
  | .namespace _ l => [.text bs!"* as ", .text l.name]
  | .named _ i l =>
    if i.name = l.name then [.text i.name] else [.text i.name, .text bs!" as ", .text l.name]

/-- `is_import_specifier`, `ratel-codegen/src/statement.rs:328-334`. -/
def ImportSpec.isNamed : ImportSpec → Bool
  | .named .. => true
  | _ => false

/-- `ToCode for ImportDeclaration`, `ratel-codegen/src/statement.rs:317-355`. -/
def codeImport (specs : List ImportSpec) (source : Bytes) : List Piece :=
  if specs.isEmpty then
    [.text bs!"import ", .text bs!"'", .text source, .text bs!"'"]
  else
    let others := specs.filter fun s => !s.isNamed
    let named := specs.filter fun s => s.isNamed
    [.text bs!"import "] ++ writeList (others.map codeImportSpec) ++
    (if named.isEmpty then [] else
      (if others.isEmpty then [] else [.text bs!","]) ++
      [.text bs!"{"] ++ writeList (named.map codeImportSpec) ++ [.text bs!"}"]) ++
    [.text bs!" from '", .text source, .text bs!"'"]

/-- `ToCode for BreakStatement` and `ContinueStatement`, `ratel-codegen/src/statement.rs:102-114`
and `276-288`. -/
def codeJump (kw : Bytes) : Option Ident → List Piece
  | some l => [.text (kw ++ bs!" "), .text l.name, .text bs!";"]
  | none => [.text (kw ++ bs!";")]

/-- The spacing around the operator in `ToCode for BinaryExpression`,
`ratel-codegen/src/expression.rs:173-193`: is a blank mandatory on the left and on the right. -/
def binarySpacing (op : Op) (left right : Expr) : Bool × Bool :=
  match op.category with
  | .Word => (true, true)
  | .Safe => (false, false)
  | category =>
    (match left with
      | .postfix _ o _ => category = o.category
      | _ => false,
     match right with
      | .prefix _ o _ => category = o.category
      | _ => false)

/-- `gen.write_byte(b' ')` or `gen.write_pretty(b' ')`. -/
def space (mandatory : Bool) : Piece := if mandatory then .text bs!" " else pSp

/-- The prefix of a method, `ratel-codegen/src/function.rs:84-91`. -/
def codeMethodPrefix (isStatic : Bool) (kind : MethodKind) : List Piece :=
  (if isStatic then [.text bs!"static "] else []) ++
  (match kind with
    | .Get => [.text bs!"get "]
    | .Set => [.text bs!"set "]
    | _ => [])

/-- `params.only_element()` matching an identifier in `ToCode for ArrowExpression`,
`ratel-codegen/src/expression.rs:310-311`. -/
def onlyIdent : List Pattern → Option Bytes
  | [.ident _ n] => some n
  | _ => none

/-- `for (quasi, expression) in quasis.zip(&self.expressions)`,
`ratel-codegen/src/expression.rs:266-273`, for expressions with the given code. -/
def writeTemplateRest : List Ident → List (List Piece) → List Piece
  | q :: qs, e :: es =>
    [.text bs!"${", pSp] ++ e ++ [pSp, .text bs!"}", .text q.name] ++ writeTemplateRest qs es
  | _, _ => []

/-- The inside of `ToCode for TemplateLiteral`, `ratel-codegen/src/expression.rs:257-276`: the first
quasi, then pairs of an expression and a quasi. -/
def writeTemplate : List Ident → List (List Piece) → List Piece
  | [], _ => []
  | [q], _ => [.text q.name]
  | q :: q' :: qs, es => .text q.name :: writeTemplateRest (q' :: qs) es

mutual

/-- `ToCode for Expression`, `ratel-codegen/src/expression.rs:7-36`, and the `ToCode`
implementations of the nodes, 113-352. -/
def codeExpr : Expr → List Piece
  | .void _ => []
  | .this _ => [.text bs!"this"]
  | .ident _ n => [.text n]
  | .lit _ v => codeLiteral v
  | .seq _ body => writeList (codeExprs body)
  | .array _ body => [.text bs!"["] ++ writeList (codeExprs body) ++ [.text bs!"]"]
  | .member _ object property =>
    writeExpression object (codeExpr object) 19 ++ [.text bs!".", .text property.name]
  | .cmember _ object property =>
    writeExpression object (codeExpr object) 19 ++ [.text bs!"["] ++ codeExpr property ++ [.text bs!"]"]
  | .metaProp _ m p => [.text m.name, .text bs!".", .text p.name]
  | .call _ callee args =>
    codeExpr callee ++ [.text bs!"("] ++ writeList (codeExprs args) ++ [.text bs!")"]
  | .binary _ op left right =>
    let sp := binarySpacing op left right
    writeExpression left (codeExpr left) op.bindingPower ++ [space sp.1] ++
    [.text op.asStr] ++ [space sp.2] ++
    writeExpression right (codeExpr right) (op.bindingPower + 1)
  | .prefix _ op operand =>
    [.text op.asStr] ++ (if op.category = .Word then [.text bs!" "] else []) ++ codeExpr operand
  | .postfix _ op operand => codeExpr operand ++ [.text op.asStr]
  | .cond _ test c a =>
    codeExpr test ++ [pSp, .text bs!"?", pSp] ++ codeExpr c ++ [pSp, .text bs!":", pSp] ++ codeExpr a
  | .template _ es qs => [.text bs!"`"] ++ writeTemplate qs (codeExprs es) ++ [.text bs!"`"]
  | .tagged _ tag _ es qs => codeExpr tag ++ [.text bs!"`"] ++ writeTemplate qs (codeExprs es) ++ [.text bs!"`"]
  | .spread _ e => [.text bs!"..."] ++ codeExpr e
  | .arrowE _ ps body =>
    (match onlyIdent ps with
      | some n => [.text n]
      | none => [.text bs!"("] ++ writeList (codePatterns ps) ++ [.text bs!")"]) ++
    [pSp, .text bs!"=>", pSp] ++ codeExpr body
  | .arrowB _ ps body =>
    (match onlyIdent ps with
      | some n => [.text n]
      | none => [.text bs!"("] ++ writeList (codePatterns ps) ++ [.text bs!")"]) ++
    [pSp, .text bs!"=>", pSp] ++ codeBlock body
  | .object _ ps => writeObject (codeProperties ps)
  | .function _ f => codeFunc f
  | .class _ c => codeClass c

/-- Code of each expression of a list. -/
def codeExprs : List Expr → List (List Piece)
  | [] => []
  | e :: es => codeExpr e :: codeExprs es

/-- `ToCode for PropertyKey`, `ratel-codegen/src/expression.rs:63-78`. -/
def codeKey : PropKey → List Piece
  | .computed _ e => [.text bs!"["] ++ codeExpr e ++ [.text bs!"]"]
  | .literal _ v => [.text v]
  | .binary _ v => [.text v]

/-- `ToCode for Property`, `ratel-codegen/src/expression.rs:80-111`. -/
def codeProperty : Property → List Piece
  | .shorthand _ n => [.text n]
  | .literal _ key value => codeKey key ++ [.text bs!":", pSp] ++ codeExpr value
  | .method _ key _ value => codeKey key ++ codeFunc value
  | .spread _ e => [.text bs!"..."] ++ codeExpr e

/-- Code of each property of a list. -/
def codeProperties : List Property → List (List Piece)
  | [] => []
  | p :: ps => codeProperty p :: codeProperties ps

/-- `ToCode for Pattern`, `ratel-codegen/src/lib.rs:281-321`. -/
def codePattern : Pattern → List Piece
  | .void _ => []
  | .ident _ n => [.text n]
  | .object _ ps => [.text bs!"{"] ++ writeList (codeProperties ps) ++ [.text bs!"}"]
  | .array _ es => [.text bs!"["] ++ writeList (codePatterns es) ++ [.text bs!"]"]
  | .rest _ a => [.text bs!"...", .text a.name]
  | .assign _ l r => codePattern l ++ [pSp, .text bs!"=", pSp] ++ codeExpr r

/-- Code of each pattern of a list. -/
def codePatterns : List Pattern → List (List Piece)
  | [] => []
  | p :: ps => codePattern p :: codePatterns ps

/-- `ToCode for Function`, `ratel-codegen/src/function.rs:55-69`. -/
def codeFunc : Func → List Piece
  | .mk name _ params body =>
    codeKeyword bs!"function" name ++ codeName name ++ [.text bs!"("] ++
    writeList (codePatterns params) ++ [.text bs!")", pSp] ++ codeBlock body

/-- `ToCode for Class`, `ratel-codegen/src/function.rs:114-129`. -/
def codeClass : Class → List Piece
  | .mk name super _ body =>
    codeKeyword bs!"class" name ++ codeName name ++
    (match super with
      | some e => .text bs!" extends " :: codeExpr e
      | none => []) ++
    [pSp] ++ writeBraces (codeMembers body)

/-- `ToCode for ClassMember`, `ratel-codegen/src/function.rs:71-112`. -/
def codeMember : ClassMember → List Piece
  | .error _ => [.panic]
  | .method _ isStatic key kind _ value =>
    codeMethodPrefix isStatic kind ++ codeKey key ++ codeFunc value
  | .literal _ isStatic key value =>
    (if isStatic then [.text bs!"static "] else []) ++ codeKey key ++
    [pSp, .text bs!"=", pSp] ++ codeExpr value ++ [.text bs!";"]

/-- Code of each member of a list. -/
def codeMembers : List ClassMember → List (List Piece)
  | [] => []
  | m :: ms => codeMember m :: codeMembers ms

/-- `ToCode for Block` at statements, `ratel-codegen/src/lib.rs:269-279`. -/
def codeBlock : Block → List Piece
  | .mk _ body => writeBraces (codeStmts body)

/-- `ToCode for Statement`, `ratel-codegen/src/statement.rs:8-51`, and the `ToCode` implementations
of the statements, 80-355. -/
def codeStmt : Stmt → List Piece
  | .empty _ => []
  | .debugger _ => [.text bs!"debugger"]
  | .expr _ e =>
    (if e.isAllowedAsBareStatement then codeExpr e
     else [.text bs!"("] ++ codeExpr e ++ [.text bs!")"]) ++ [.text bs!";"]
  | .decl _ kind ds => codeKind kind ++ writeList (codeDeclarators ds) ++ [.text bs!";"]
  | .ret _ value =>
    match value with
    | some e => [.text bs!"return "] ++ codeExpr e ++ [.text bs!";"]
    | none => [.text bs!"return;"]
  | .brk _ label => codeJump bs!"break" label
  | .cont _ label => codeJump bs!"continue" label
  | .throw _ e => [.text bs!"throw "] ++ codeExpr e ++ [.text bs!";"]
  | .ifS _ test c a =>
    [.text bs!"if", pSp, .text bs!"("] ++ codeExpr test ++ [.text bs!")", pSp] ++ codeStmt c ++
    (match a with
      | some a =>
        [if c.isBlock then pSp else .text bs!" ", .text bs!"else",
         if a.isBlock then pSp else .text bs!" "] ++ codeStmt a
      | none => [])
  | .whileS _ test body =>
    [.text bs!"while", pSp, .text bs!"("] ++ codeExpr test ++ [.text bs!")", pSp] ++ codeStmt body
  | .doS _ body test =>
    [.text bs!"do", if body.isBlock then pSp else .text bs!" "] ++ codeStmt body ++
    [.text bs!"while", pSp, .text bs!"("] ++ codeExpr test ++ [.text bs!")"]
  | .forS _ init test update body =>
    [.text bs!"for", pSp, .text bs!"("] ++
    (match init with | some i => codeForInit i | none => []) ++ [.text bs!";", pSp] ++
    (match test with | some e => codeExpr e | none => []) ++ [.text bs!";", pSp] ++
    (match update with | some e => codeExpr e | none => []) ++ [.text bs!")", pSp] ++
    codeStmt body
  | .forIn _ left right body =>
    [.text bs!"for", pSp, .text bs!"("] ++ codeForInit left ++ [.text bs!" in "] ++
    codeExpr right ++ [.text bs!")", pSp] ++ codeStmt body
  | .forOf _ left right body =>
    [.text bs!"for", pSp, .text bs!"("] ++ codeForInit left ++ [.text bs!" of "] ++
    codeExpr right ++ [.text bs!")", pSp] ++ codeStmt body
  | .tryS _ block handler finalizer =>
    [.text bs!"try", pSp] ++ codeBlock block ++
    (match handler with | some h => codeCatch h | none => []) ++
    (match finalizer with | some f => pSp :: codeBlock f | none => [])
  | .block _ body => writeBraces (codeStmts body)
  | .labeled _ label body => [.text label, .text bs!":", pSp] ++ codeStmt body
  | .function _ f => codeFunc f
  | .class _ c => codeClass c
  | .switch _ d _ cases =>
    [.text bs!"switch", pSp, .text bs!"("] ++ codeExpr d ++ [.text bs!")"] ++
    writeBraces (codeCases cases)
  | .import _ specs source => codeImport specs source

/-- Code of each statement of a list. -/
def codeStmts : List Stmt → List (List Piece)
  | [] => []
  | s :: ss => codeStmt s :: codeStmts ss

/-- `ToCode for Declarator`, `ratel-codegen/src/statement.rs:66-78`. -/
def codeDeclarator : Declarator → List Piece
  | .mk _ id init =>
    codePattern id ++
    (match init with
      | some e => [pSp, .text bs!"=", pSp] ++ codeExpr e
      | none => [])

/-- Code of each declarator of a list. -/
def codeDeclarators : List Declarator → List (List Piece)
  | [] => []
  | d :: ds => codeDeclarator d :: codeDeclarators ds

/-- `ToCode for ForInit`, `ratel-codegen/src/statement.rs:184-192`. -/
def codeForInit : ForInit → List Piece
  | .decl _ kind ds => codeKind kind ++ writeList (codeDeclarators ds)
  | .expr _ e => codeExpr e

/-- `ToCode for SwitchCase`, `ratel-codegen/src/statement.rs:302-315`. -/
def codeCase : SwitchCase → List Piece
  | .mk _ test body =>
    (match test with
      | some e => [.text bs!"case "] ++ codeExpr e ++ [.text bs!":"]
      | none => [.text bs!"default:"]) ++
    writeBlock (codeStmts body)

/-- Code of each case of a list. -/
def codeCases : List SwitchCase → List (List Piece)
  | [] => []
  | c :: cs => codeCase c :: codeCases cs

/-- The catch clause in `ToCode for TryStatement`, `ratel-codegen/src/statement.rs:249-258`. -/
def codeCatch : Catch → List Piece
  | .mk _ param body =>
    [pSp, .text bs!"catch", pSp, .text bs!"("] ++ codePattern param ++ [.text bs!")", pSp] ++
    codeBlock body

end

/-- `MinifyingGenerator`, `ratel-codegen/src/lib.rs:105-124` with the empty default methods
82-89. -/
def runMin : List Piece → Out Bytes
  | [] => .ok []
  | .text bs :: r => do .ok (bs ++ (← runMin r))
  | .panic :: _ => .panic
  | _ :: r => runMin r

/-- `PrettyGenerator::new_line`, `ratel-codegen/src/lib.rs:162-168`. -/
def newLineText (dent : Nat) : Bytes := #b'\n' :: List.replicate (4 * dent) #b' '

/-- `PrettyGenerator`, `ratel-codegen/src/lib.rs:140-179`: the text and the final depth, starting
with depth `dent`. `self.dent -= 1` at depth 0 is an overflow, a panic in debug builds. -/
def runPretty : Nat → List Piece → Out (Bytes × Nat)
  | d, [] => .ok ([], d)
  | d, .text bs :: r => do let (x, d) ← runPretty d r; .ok (bs ++ x, d)
  | d, .pretty b :: r => do let (x, d) ← runPretty d r; .ok (b :: x, d)
  | d, .newLine :: r => do let (x, d') ← runPretty d r; .ok (newLineText d ++ x, d')
  | d, .indent :: r => runPretty (d + 1) r
  | 0, .dedent :: _ => .panic
  | d + 1, .dedent :: r => runPretty d r
  | _, .panic :: _ => .panic

/-- The calls made by `codegen` with `minify`, `ratel-codegen/src/lib.rs:182-189`. -/
def codeModuleMin (m : List Stmt) : List Piece := (codeStmts m).flatten

/-- The calls made by `codegen` without `minify`, `ratel-codegen/src/lib.rs:190-202`. -/
def codeModulePretty (m : List Stmt) : List Piece :=
  match codeStmts m with
  | [] => []
  | x :: r => x ++ writeLines r

/-- `codegen`, `ratel-codegen/src/lib.rs:181-203`. -/
def codegen (m : List Stmt) (minify : Bool) : Out Bytes :=
  if minify then runMin (codeModuleMin m)
  else do
    let (x, _) ← runPretty 0 (codeModulePretty m)
    .ok x

end Ratel
