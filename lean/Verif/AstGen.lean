import Verif.Parser
/-! Serialisation to ESTree JSON: `ratel/src/astgen/*.rs`. -/
namespace Ratel

/-- The JSON values that are produced. `float` carries the text of the number (`f64` arithmetic is
not modelled). -/
inductive Json where
  | null
  | bool (b : Bool)
  | int (i : Int)
  | float (text : Bytes)
  | str (s : Bytes)
  | sym (s : String)
  | arr (xs : List Json)
  | obj (fields : List (String × Json))

/-- What `SerializeInLoc::serialize` leaves open: the type and the fields so far. -/
abbrev Item := String × List (String × Json)

/-- `Serialize for Loc<T>`, `ratel/src/astgen/mod.rs:12-38`: type first, `start` and `end` last. -/
def withLoc (l : Loc) (x : Out Item) : Out Json := do
  let (ty, fields) ← x
  .ok (.obj ([("type", .sym ty)] ++ fields ++ [("start", .int l.start), ("end", .int l.stop)]))

/-- `serialize_none` or the value. -/
def optional : Option (Out Json) → Out Json
  | none => .ok .null
  | some x => x

/-- Serialisation of a sequence. -/
def sequence : List (Out Json) → Out (List Json)
  | [] => .ok []
  | x :: xs => do
    let j ← x
    let js ← sequence xs
    .ok (j :: js)

/-- A JSON array. -/
def array (xs : List (Out Json)) : Out Json := do
  let js ← sequence xs
  .ok (.arr js)

/-- `SerializeInLoc for &str`, `ratel/src/astgen/value.rs:71-80`. -/
def identItem (n : Bytes) : Item := ("Identifier", [("name", .str n)])

/-- Serialisation of `IdentifierNode`. -/
def genIdent (i : Ident) : Out Json := withLoc i.loc (.ok (identItem i.name))

/-- `expression_type`, `ratel/src/astgen/expression.rs:6-38`. -/
def expressionType (op : Op) (isPrefix : Bool) : String :=
  match op with
  | .Assign | .AddAssign | .ExponentAssign | .MultiplyAssign | .DivideAssign | .RemainderAssign
  | .BSLAssign | .BSRAssign | .UBSRAssign | .BitOrAssign | .BitXorAssign | .SubtractAssign
  | .BitAndAssign => "AssignmentExpression"
  | .LogicalAnd | .LogicalOr => "LogicalExpression"
  | .Increment | .Decrement => "UpdateExpression"
  | .Typeof | .Void | .Delete => "UnaryExpression"
  | .Subtraction | .Addition | .LogicalNot | .BitwiseNot =>
    if isPrefix then "UnaryExpression" else "BinaryExpression"
  | .New => "NewExpression"
  | _ => "BinaryExpression"

/-- Value of a digit, `char::to_digit`. -/
def digitValue (b : Byte) : Option Nat :=
  if #b'0' ≤ b ∧ b ≤ #b'9' then some (b.toNat - 48)
  else if #b'a' ≤ b ∧ b ≤ #b'z' then some (b.toNat - 87)
  else if #b'A' ≤ b ∧ b ≤ #b'Z' then some (b.toNat - 55)
  else none

/-- Digits of a number without sign: the value, or `none` for a wrong digit. -/
def digitsValue (radix : Nat) : Nat → Bytes → Option Nat
  | acc, [] => some acc
  | acc, b :: bs =>
    match digitValue b with
    | some d => if d < radix then digitsValue radix (acc * radix + d) bs else none
    | none => none

/-- `i32::from_str_radix` and `i64::from_str` (with `limit` the largest value) for texts without
sign, as they occur at `ratel/src/astgen/value.rs:210,222,230`; `none` is the `Err` that `expect`
turns into a panic. -/
def parseInt (limit radix : Nat) (s : Bytes) : Option Nat :=
  if s.isEmpty then none
  else match digitsValue radix 0 s with
    | some v => if v ≤ limit then some v else none
    | none => none

/-- Split at the first byte satisfying `p`. -/
def splitAtByte (p : Byte → Bool) : Bytes → Bytes × Option Bytes
  | [] => ([], none)
  | b :: bs => if p b then ([], some bs) else
    let (x, y) := splitAtByte p bs
    (b :: x, y)

/-- Does `f64::from_str` accept the text: `digits [. digits] [e [sign] digits]` with at least one
digit in the mantissa and in the exponent (the texts at `ratel/src/astgen/value.rs:217` have no
sign and are no `inf` or `nan`). -/
def parsesAsFloat (s : Bytes) : Bool :=
  let (mantissa, exponent) := splitAtByte (fun b => b == #b'e' || b == #b'E') s
  let (whole, fraction) := splitAtByte (fun b => b == #b'.') mantissa
  let frac := fraction.getD []
  let digits := fun (t : Bytes) => t.all fun b => #b'0' ≤ b && b ≤ #b'9'
  digits whole && digits frac && !(whole.isEmpty && frac.isEmpty) &&
  match exponent with
  | none => true
  | some (#b'+' :: e) => digits e && !e.isEmpty
  | some (#b'-' :: e) => digits e && !e.isEmpty
  | some e => digits e && !e.isEmpty

/-- `.expect("Invalid number")` -/
def expectNumber (raw : Bytes) : Option Nat → Out (List (String × Json))
  | some v => .ok [("value", .int v), ("raw", .str raw)]
  | none => .panic

/-- The largest `i32`. -/
def maxI32 : Nat := 2147483647
/-- The largest `i64`. -/
def maxI64 : Nat := 9223372036854775807

/-- The `Number` case of `SerializeInLoc for Literal`, `ratel/src/astgen/value.rs:200-225`. -/
def genNumber (v : Bytes) : Out (List (String × Json)) :=
  let pre := v.take 2
  if v.length > 2 ∧ (pre = bs!"0x" ∨ pre = bs!"0X") then
    expectNumber v (parseInt maxI32 16 (v.drop 2))
  else if v.length > 2 ∧ (pre = bs!"0o" ∨ pre = bs!"0O") then
    expectNumber v (parseInt maxI32 8 (v.drop 2))
  else if v.any (fun b => b == #b'.') then
    if parsesAsFloat v then .ok [("value", .float v), ("raw", .str v)] else .panic
  else expectNumber v (parseInt maxI64 10 v)

/-- The part after the last `/` and the part before it, of a text in reverse. -/
def lastSlash : Bytes → Option (Bytes × Bytes)
  | [] => none
  | b :: bs => if b = #b'/' then some ([], bs) else
    match lastSlash bs with
    | some (x, y) => some (b :: x, y)
    | none => none

/-- `parse_regex`, `ratel/src/astgen/value.rs:12-26`: pattern and flags. `value[1..end]` panics for
`end < 1`. -/
def parseRegex (v : Bytes) : Out (Bytes × Bytes) :=
  match v with
  | [] => .panic
  | _ :: t =>
    match lastSlash v.reverse with
    | some (flags, before) =>
      if before.length < 1 then .panic
      else .ok (before.reverse.drop 1, flags.reverse)
    | none => if v.length < 2 then .panic else .ok (t.dropLast, [])

/-- `SerializeInLoc for Literal`, `ratel/src/astgen/value.rs:170-246`. The slices of numbers with a prefix
and of strings are taken with `get_unchecked` (206, 227, 235): a range that ends before it begins is
undefined behaviour, `.oob`. (At 206 the length is known to be at least 3. Cutting a `&str` inside a
character would be undefined behaviour, too; C50 shows that the bytes cut off are ASCII.) -/
def genLiteral : Literal → Out Item
  | .Undefined => .ok ("Literal", [("raw", .str bs!"undefined")])
  | .Null => .ok ("Literal", [("value", .null), ("raw", .str bs!"null")])
  | .True => .ok ("Literal", [("value", .bool true), ("raw", .str bs!"true")])
  | .False => .ok ("Literal", [("value", .bool false), ("raw", .str bs!"false")])
  | .Number v => do
    let fs ← genNumber v
    .ok ("Literal", fs)
  | .Binary v =>
    if v.length < 2 then .oob
    else do
      let fs ← expectNumber v (parseInt maxI32 2 (v.drop 2))
      .ok ("Literal", fs)
  | .String v =>
    if v.length < 2 then .oob
    else .ok ("Literal", [("value", .str ((v.drop 1).dropLast)), ("raw", .str v)])
  | .RegEx v => do
    let (p, f) ← parseRegex v
    .ok ("Literal", [("regex", .obj [("pattern", .str p), ("flags", .str f)]), ("raw", .str v)])

/-- `Serialize for TemplateQuasis` and `SerializeInLoc for TemplateElement`,
`ratel/src/astgen/value.rs:48-69,276-290`; `q.end - 1` overflows at 0. -/
def genQuasis : List Ident → List (Out Json)
  | [] => []
  | q :: qs =>
    (if q.loc.stop = 0 then .panic
     else withLoc ⟨q.loc.start + 1, q.loc.stop - 1⟩ (.ok ("TemplateElement",
       [("tail", .bool qs.isEmpty),
        ("value", .obj [("raw", .str q.name), ("cooked", .str q.name)])]))) :: genQuasis qs

/-- `Serialize for EmptyName, OptionalName, MandatoryName`,
`ratel/src/astgen/function.rs:65-97`. -/
def genName : Name → Out Json
  | .empty => .ok .null
  | .optional none => .ok .null
  | .optional (some n) => genIdent n
  | .mandatory n => genIdent n

/-- `NameType`, `ratel/src/astgen/function.rs:58-88`. -/
def declOrExpr (what : String) : Name → String
  | .mandatory _ => what ++ "Declaration"
  | _ => what ++ "Expression"

/-- `Serialize for MethodKind`, `ratel/src/astgen/function.rs:6-19`. -/
def genMethodKind : MethodKind → Json
  | .Constructor => .sym "constructor"
  | .Method => .sym "method"
  | .Get => .sym "get"
  | .Set => .sym "set"

/-- `Serialize for DeclarationKind`, `ratel/src/astgen/statement.rs:40-52`. -/
def genDeclKind : DeclKind → Json
  | .Const => .sym "const"
  | .Let => .sym "let"
  | .Var => .sym "var"

/-- `SerializeInLoc for ForImportSpecifier`, `ratel/src/astgen/statement.rs:217-241`. -/
def genImportSpec : ImportSpec → Out Json
  | .named l i n => withLoc l (do
      let a ← genIdent i
      let b ← genIdent n
      .ok ("ImportSpecifier", [("imported", a), ("local", b)]))
  | .default l n => withLoc l (do
      let b ← genIdent n
      .ok ("ImportDefaultSpecifier", [("local", b)]))
  | .namespace l n => withLoc l (do
      let b ← genIdent n
      .ok ("ImportNamespaceSpecifier", [("local", b)]))

/-- Removal of the trailing holes in `SerializeInLoc for ArrayExpression`,
`ratel/src/astgen/expression.rs:232-242`. -/
def dropTrailing : List (Option (Out Json)) → List (Option (Out Json))
  | [] => []
  | x :: xs =>
    match x, dropTrailing xs with
    | none, [] => []
    | x, ys => x :: ys

/-- The fields of an item, in order; stops at the first panic. -/
def fields : List (String × Out Json) → Out (List (String × Json))
  | [] => .ok []
  | (k, x) :: r => do
    let j ← x
    let js ← fields r
    .ok ((k, j) :: js)

/-- `in_loc` with fields computed in order, `ratel/src/astgen/mod.rs:13-22`. -/
def inLoc (ty : String) (fs : List (String × Out Json)) : Out Item := do
  let js ← fields fs
  .ok (ty, js)

mutual

/-- `SerializeInLoc for Expression`, `ratel/src/astgen/expression.rs:263-299`, and the
implementations of the expression types, 40-261; `Template` and `TaggedTemplate`:
`ratel/src/astgen/value.rs:82-104`. -/
def genExpr : Expr → Out Item
  | .void _ => .panic
  | .this _ => inLoc "ThisExpression" []
  | .ident _ n => .ok (identItem n)
  | .lit _ v => genLiteral v
  | .seq _ body => inLoc "SequenceExpression" [("expressions", array (genExprs body))]
  | .array _ body =>
    inLoc "ArrayExpression" [("elements", array ((dropTrailing (genElements body)).map optional))]
  | .member _ o p => inLoc "MemberExpression"
      [("object", withLoc o.loc (genExpr o)), ("property", genIdent p),
       ("computed", .ok (.bool false))]
  | .cmember _ o p => inLoc "MemberExpression"
      [("object", withLoc o.loc (genExpr o)), ("property", withLoc p.loc (genExpr p)),
       ("computed", .ok (.bool true))]
  | .metaProp _ m p => inLoc "MetaProperty" [("meta", genIdent m), ("property", genIdent p)]
  | .call _ c args => inLoc "CallExpression"
      [("callee", withLoc c.loc (genExpr c)), ("arguments", array (genExprs args))]
  | .binary _ op a b => inLoc (expressionType op false)
      [("operator", .ok (.str op.asStr)), ("left", withLoc a.loc (genExpr a)),
       ("right", withLoc b.loc (genExpr b))]
  | .prefix _ op a =>
    if op = .New then
      match a with
      | .call _ c args => inLoc (expressionType op true)
          [("callee", withLoc c.loc (genExpr c)), ("arguments", array (genExprs args))]
      | .lit l v => inLoc (expressionType op true)
          [("callee", withLoc l (genLiteral v)), ("arguments", .ok (.arr []))]
      | _ => .panic
    else inLoc (expressionType op true)
      [("operator", .ok (.str op.asStr)), ("argument", withLoc a.loc (genExpr a)),
       ("prefix", .ok (.bool true))]
  | .postfix _ op a => inLoc (expressionType op false)
      [("operator", .ok (.str op.asStr)), ("argument", withLoc a.loc (genExpr a)),
       ("prefix", .ok (.bool false))]
  | .cond _ t c a => inLoc "ConditionalExpression"
      [("test", withLoc t.loc (genExpr t)), ("consequent", withLoc c.loc (genExpr c)),
       ("alternate", withLoc a.loc (genExpr a))]
  | .template _ es qs => inLoc "TemplateLiteral"
      [("quasis", array (genQuasis qs)), ("expressions", array (genExprs es))]
  | .tagged _ tag ql es qs => inLoc "TaggedTemplateExpression"
      [("tag", withLoc tag.loc (genExpr tag)),
       ("quasi", withLoc ql (inLoc "TemplateLiteral"
         [("quasis", array (genQuasis qs)), ("expressions", array (genExprs es))]))]
  | .spread _ a => inLoc "SpreadElement" [("argument", withLoc a.loc (genExpr a))]
  | .arrowE _ ps b => inLoc "ArrowFunctionExpression"
      [("params", array (genPatterns ps)), ("body", withLoc b.loc (genExpr b))]
  | .arrowB _ ps b => inLoc "ArrowFunctionExpression"
      [("params", array (genPatterns ps)), ("body", genBlock b)]
  | .object _ ps => inLoc "ObjectExpression" [("properties", array (genProperties ps))]
  | .function _ f => genFunc f
  | .class _ c => genClass c

/-- Serialisation of a list of expressions. -/
def genExprs : List Expr → List (Out Json)
  | [] => []
  | e :: es => withLoc e.loc (genExpr e) :: genExprs es

/-- The elements of an array literal, `ratel/src/astgen/expression.rs:229-231`: a hole is `None`. -/
def genElements : List Expr → List (Option (Out Json))
  | [] => []
  | e :: es =>
    (match e with
      | .void _ => none
      | e => some (withLoc e.loc (genExpr e))) :: genElements es

/-- `Serialize for Loc<PropertyKey>`, `ratel/src/astgen/value.rs:147-168`. -/
def genKey : PropKey → Out Json
  | .computed _ e => withLoc e.loc (genExpr e)
  | .literal l v => withLoc l (.ok (identItem v))
  | .binary l v => withLoc l (.ok (identItem v))

/-- `SerializeInLoc for Property`, `ratel/src/astgen/value.rs:106-145`. -/
def genProperty : Property → Out Json
  | .shorthand l n => withLoc l (.ok (identItem n))
  | .literal l key value => withLoc l (inLoc "Property"
      [("key", genKey key), ("method", .ok (.bool false)), ("shorthand", .ok (.bool false)),
       ("computed", .ok (.bool (match key with | .computed .. => true | _ => false))),
       ("value", withLoc value.loc (genExpr value)), ("kind", .ok (.sym "init"))])
  | .method l key vl value => withLoc l (inLoc "Property"
      [("key", genKey key), ("method", .ok (.bool true)), ("shorthand", .ok (.bool false)),
       ("computed", .ok (.bool false)), ("value", withLoc vl (genFunc value)),
       ("kind", .ok (.sym "init"))])
  | .spread l e => withLoc l (inLoc "SpreadProperty" [("argument", withLoc e.loc (genExpr e))])

/-- Serialisation of a list of properties. -/
def genProperties : List Property → List (Out Json)
  | [] => []
  | p :: ps => genProperty p :: genProperties ps

/-- `SerializeInLoc for Pattern`, `ratel/src/astgen/value.rs:248-274`. -/
def genPattern : Pattern → Out Json
  | .void _ => .panic
  | .ident l n => withLoc l (.ok (identItem n))
  | .object l ps => withLoc l (inLoc "ObjectPattern" [("keys", array (genProperties ps))])
  | .array l es => withLoc l (inLoc "ArrayPattern" [("elements", array (genPatterns es))])
  | .rest l a => withLoc l (inLoc "RestElement" [("argument", genIdent a)])
  | .assign l a b => withLoc l (inLoc "AssignmentPattern"
      [("left", genPattern a), ("right", withLoc b.loc (genExpr b))])

/-- Serialisation of a list of patterns. -/
def genPatterns : List Pattern → List (Out Json)
  | [] => []
  | p :: ps => genPattern p :: genPatterns ps

/-- `SerializeInLoc for Function`, `ratel/src/astgen/function.rs:115-130`. -/
def genFunc : Func → Out Item
  | .mk name generator params body => inLoc (declOrExpr "Function" name)
      [("generator", .ok (.bool generator)), ("id", genName name),
       ("params", array (genPatterns params)), ("body", genBlock body)]

/-- `SerializeInLoc for Class`, `ratel/src/astgen/function.rs:99-113`, with the class body, 46-56. -/
def genClass : Class → Out Item
  | .mk name super bloc body => inLoc (declOrExpr "Class" name)
      [("id", genName name),
       ("superClass", match super with
         | some e => withLoc e.loc (genExpr e)
         | none => .ok .null),
       ("body", withLoc bloc (inLoc "ClassBody" [("body", array (genMembers body))]))]

/-- `SerializeInLoc for ClassMember`, `ratel/src/astgen/function.rs:21-44`. -/
def genMember : ClassMember → Out Json
  | .error _ => .panic
  | .method l isStatic key kind vl value => withLoc l (inLoc "MethodDefinition"
      [("kind", .ok (genMethodKind kind)), ("static", .ok (.bool isStatic)),
       ("computed", .ok (.bool false)), ("key", genKey key), ("value", withLoc vl (genFunc value))])
  | .literal .. => .panic

/-- Serialisation of a list of class members. -/
def genMembers : List ClassMember → List (Out Json)
  | [] => []
  | m :: ms => genMember m :: genMembers ms

/-- `SerializeInLoc for BlockStatement`, `ratel/src/astgen/statement.rs:96-105`. -/
def genBlock : Block → Out Json
  | .mk l body => withLoc l (inLoc "BlockStatement" [("body", array (genStmts body))])

/-- `SerializeInLoc for Statement`, `ratel/src/astgen/statement.rs:244-305`, and the
implementations of the statement types, 16-215. -/
def genStmt : Stmt → Out Json
  | .empty l => withLoc l (inLoc "EmptyStatement" [])
  | .debugger l => withLoc l (inLoc "DebuggerStatement" [])
  | .expr l e => withLoc l (inLoc "ExpressionStatement" [("expression", withLoc e.loc (genExpr e))])
  | .decl l k ds => withLoc l (inLoc "VariableDeclaration"
      [("kind", .ok (genDeclKind k)), ("declarations", array (genDeclarators ds))])
  | .ret l v => withLoc l (inLoc "ReturnStatement" [("argument", match v with
      | some e => withLoc e.loc (genExpr e)
      | none => .ok .null)])
  | .brk l n => withLoc l (inLoc "BreakStatement" [("label", optional (n.map genIdent))])
  | .cont l n => withLoc l (inLoc "ContinueStatement" [("label", optional (n.map genIdent))])
  | .throw l e => withLoc l (inLoc "ThrowStatement" [("argument", withLoc e.loc (genExpr e))])
  | .ifS l t c a => withLoc l (inLoc "IfStatement"
      [("test", withLoc t.loc (genExpr t)), ("consequent", genStmt c),
       ("alternate", match a with | some a => genStmt a | none => .ok .null)])
  | .whileS l t b => withLoc l (inLoc "WhileStatement"
      [("test", withLoc t.loc (genExpr t)), ("body", genStmt b)])
  | .doS l b t => withLoc l (inLoc "DoWhileStatement"
      [("body", genStmt b), ("test", withLoc t.loc (genExpr t))])
  | .forS l i t u b => withLoc l (inLoc "ForStatement"
      [("init", match i with | some i => genForInit i | none => .ok .null),
       ("test", match t with | some e => withLoc e.loc (genExpr e) | none => .ok .null),
       ("update", match u with | some e => withLoc e.loc (genExpr e) | none => .ok .null),
       ("body", genStmt b)])
  | .forIn l i r b => withLoc l (inLoc "ForInStatement"
      [("left", genForInit i), ("right", withLoc r.loc (genExpr r)), ("body", genStmt b)])
  | .forOf l i r b => withLoc l (inLoc "ForOfStatement"
      [("left", genForInit i), ("right", withLoc r.loc (genExpr r)), ("body", genStmt b)])
  | .tryS l b h f => withLoc l (inLoc "TryStatement"
      [("block", genBlock b),
       ("handler", match h with | some h => genCatch h | none => .ok .null),
       ("finalizer", match f with | some f => genBlock f | none => .ok .null)])
  | .block l body => withLoc l (inLoc "BlockStatement" [("body", array (genStmts body))])
  | .labeled l n b => withLoc l (inLoc "LabeledStatement" [("label", .ok (.str n)), ("body", genStmt b)])
  | .function l f => withLoc l (genFunc f)
  | .class l c => withLoc l (genClass c)
  | .switch l d _ cs => withLoc l (inLoc "SwitchStatement"
      [("discriminant", withLoc d.loc (genExpr d)), ("cases", array (genCases cs))])
  | .import l specs source => withLoc l (inLoc "ImportDeclaration"
      [("specifiers", array (specs.map genImportSpec)), ("source", .ok (.str source))])

/-- Serialisation of a list of statements. -/
def genStmts : List Stmt → List (Out Json)
  | [] => []
  | s :: ss => genStmt s :: genStmts ss

/-- `SerializeInLoc for Declarator`, `ratel/src/astgen/statement.rs:28-38`. -/
def genDeclarator : Declarator → Out Json
  | .mk l id init => withLoc l (inLoc "VariableDeclarator"
      [("id", genPattern id),
       ("init", match init with | some e => withLoc e.loc (genExpr e) | none => .ok .null)])

/-- Serialisation of a list of declarators. -/
def genDeclarators : List Declarator → List (Out Json)
  | [] => []
  | d :: ds => genDeclarator d :: genDeclarators ds

/-- `SerializeInLoc for ForInit`, `ratel/src/astgen/statement.rs:142-152`. -/
def genForInit : ForInit → Out Json
  | .decl l k ds => withLoc l (inLoc "VariableDeclaration"
      [("kind", .ok (genDeclKind k)), ("declarations", array (genDeclarators ds))])
  | .expr l e => withLoc l (genExpr e)

/-- `SerializeInLoc for SwitchCase`, `ratel/src/astgen/statement.rs:131-141`. -/
def genCase : SwitchCase → Out Json
  | .mk l test body => withLoc l (inLoc "SwitchCase"
      [("test", match test with | some e => withLoc e.loc (genExpr e) | none => .ok .null),
       ("consequent", array (genStmts body))])

/-- Serialisation of a list of cases. -/
def genCases : List SwitchCase → List (Out Json)
  | [] => []
  | c :: cs => genCase c :: genCases cs

/-- `SerializeInLoc for CatchClause`, `ratel/src/astgen/statement.rs:84-94`. -/
def genCatch : Catch → Out Json
  | .mk l param body => withLoc l (inLoc "CatchClause"
      [("param", genPattern param), ("body", genBlock body)])

end

/-- Span of a module, `ratel/src/astgen/mod.rs:56-67`: first start and last end. -/
def moduleLoc : List Stmt → Loc
  | [] => ⟨0, 0⟩
  | s :: ss => ⟨s.loc.start, ((s :: ss).getLast (by simp)).loc.stop⟩

/-- `Serialize for Module`, `ratel/src/astgen/mod.rs:49-77`. -/
def genModule (m : List Stmt) : Out Json :=
  withLoc (moduleLoc m) (inLoc "Program" [("body", array (genStmts m))])

end Ratel
