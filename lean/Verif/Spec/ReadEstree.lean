import Verif.AstGen
import Verif.Spec.Bare
import Verif.Spec.Tree
/-! A reader of ESTree documents, written from the side of a consumer: fields are found by their names, nodes are
told apart by their `type`. The reader is strict: it gives up on a document in which something does not fit (a value
that is not the value of its text, a wrong flag, an unknown operator). It is used to state that the serialised
document has all of the tree in it (C51): reading it gives back the tree. -/
namespace Ratel.Spec
open Ratel

/-! ### Access to documents -/

/-- The value of a field, if the document is an object with such a field. -/
def field (k : String) : Json → Option Json
  | .obj fs => fs.lookup k
  | _ => none

/-- Read the value of a field. -/
def look? (k : String) (f : Json → Option α) (j : Json) : Option α := field k j >>= f

def natural : Json → Option Nat
  | .int (.ofNat n) => some n
  | _ => none

def boolean : Json → Option Bool
  | .bool b => some b
  | _ => none

def text : Json → Option Bytes
  | .str s => some s
  | _ => none

/-- A text out of a fixed set. -/
def symbol : Json → Option String
  | .sym s => some s
  | _ => none

/-- An array. -/
def listOf (f : Json → Option α) : Json → Option (List α)
  | .arr xs => xs.mapM f
  | _ => none

/-- `null` or something else. -/
def orNull (f : Json → Option α) : Json → Option (Option α)
  | .null => some none
  | j => (f j).map some

/-- The `type` of a node. -/
def kindOf (j : Json) : Option String := look? "type" symbol j

/-- The span of a node. -/
def place (j : Json) : Option Loc := do
  let a ← look? "start" natural j
  let b ← look? "end" natural j
  some ⟨a, b⟩

/-- Something must be the case. -/
def must (p : Bool) : Option Unit := if p then some () else none

/-- Choice by the type of a node. -/
def choose (ty : String) (cases : List (String × Option α)) : Option α := (cases.lookup ty).join

/-! ### Literals, names, operators -/

/-- Value of a digit. -/
def digit (b : Byte) : Nat :=
  if b ≤ #b'9' then b.toNat - 48 else if #b'a' ≤ b then b.toNat - 87 else b.toNat - 55

/-- Value of a numeral. -/
def numeral (radix : Nat) (s : Bytes) : Nat := s.foldl (fun acc b => acc * radix + digit b) 0

/-- `0b` and `0B`. -/
def binaryPrefix (v : Bytes) : Bool := v.take 2 == bs!"0b" || v.take 2 == bs!"0B"

/-- The value of the text of an integer. -/
def integer (v : Bytes) : Nat :=
  if v.take 2 = bs!"0x" ∨ v.take 2 = bs!"0X" then numeral 16 (v.drop 2)
  else if v.take 2 = bs!"0o" ∨ v.take 2 = bs!"0O" then numeral 8 (v.drop 2)
  else if binaryPrefix v then numeral 2 (v.drop 2)
  else numeral 10 v

/-- A literal: `value` must be the value of `raw`. (Of numbers with a fraction the model only has the text.) -/
def readLiteral (j : Json) : Option Literal := do
  let raw ← look? "raw" text j
  match field "regex" j with
  | some r =>
    let p ← look? "pattern" text r
    let f ← look? "flags" text r
    must (raw == #b'/' :: p ++ #b'/' :: f)
    some (.RegEx raw)
  | none =>
    match field "value" j with
    | none => must (raw == bs!"undefined"); some .Undefined
    | some .null => must (raw == bs!"null"); some .Null
    | some (.bool true) => must (raw == bs!"true"); some .True
    | some (.bool false) => must (raw == bs!"false"); some .False
    | some (.str s) =>
      must (raw == #b'"' :: s ++ [#b'"'] || raw == #b'\'' :: s ++ [#b'\''])
      some (.String raw)
    | some (.int (.ofNat n)) =>
      must (n == integer raw)
      some (if binaryPrefix raw then .Binary raw else .Number raw)
    | some (.float t) => must (t == raw); some (.Number raw)
    | _ => none

/-- A name with its span. -/
def readIdent (j : Json) : Option Ident := do
  let ty ← kindOf j
  must (ty == "Identifier")
  let l ← place j
  let n ← look? "name" text j
  some ⟨l, n⟩

def assignTexts : List (Bytes × Op) := [(bs!"=", .Assign), (bs!"+=", .AddAssign), (bs!"-=", .SubtractAssign),
  (bs!"**=", .ExponentAssign), (bs!"*=", .MultiplyAssign), (bs!"/=", .DivideAssign), (bs!"%=", .RemainderAssign),
  (bs!"<<=", .BSLAssign), (bs!">>=", .BSRAssign), (bs!">>>=", .UBSRAssign), (bs!"&=", .BitAndAssign),
  (bs!"^=", .BitXorAssign), (bs!"|=", .BitOrAssign)]

def logicalTexts : List (Bytes × Op) := [(bs!"&&", .LogicalAnd), (bs!"||", .LogicalOr)]

def binaryTexts : List (Bytes × Op) := [(bs!"*", .Multiplication), (bs!"/", .Division), (bs!"%", .Remainder),
  (bs!"**", .Exponent), (bs!"+", .Addition), (bs!"-", .Subtraction), (bs!"<<", .BitShiftLeft),
  (bs!">>", .BitShiftRight), (bs!">>>", .UBitShiftRight), (bs!"<", .Lesser), (bs!"<=", .LesserEquals),
  (bs!">", .Greater), (bs!">=", .GreaterEquals), (bs!"instanceof", .Instanceof), (bs!"in", .In),
  (bs!"===", .StrictEquality), (bs!"!==", .StrictInequality), (bs!"==", .Equality), (bs!"!=", .Inequality),
  (bs!"&", .BitwiseAnd), (bs!"^", .BitwiseXor), (bs!"|", .BitwiseOr)]

def unaryTexts : List (Bytes × Op) := [(bs!"!", .LogicalNot), (bs!"~", .BitwiseNot), (bs!"typeof", .Typeof),
  (bs!"void", .Void), (bs!"delete", .Delete), (bs!"+", .Addition), (bs!"-", .Subtraction)]

def updateTexts : List (Bytes × Op) := [(bs!"++", .Increment), (bs!"--", .Decrement)]

def readOperator (texts : List (Bytes × Op)) (j : Json) : Option Op := look? "operator" text j >>= (texts.lookup ·)

def readDeclKind (s : String) : Option DeclKind :=
  [("var", DeclKind.Var), ("let", .Let), ("const", .Const)].lookup s

def readMethodKind (s : String) : Option MethodKind :=
  [("constructor", MethodKind.Constructor), ("method", .Method), ("get", .Get), ("set", .Set)].lookup s

/-- The texts of a template: the span of the document is one byte shorter on both sides; only the last one is a
`tail`. -/
def readQuasis : List Json → Option (List Ident)
  | [] => some []
  | j :: js => do
    let ty ← kindOf j
    must (ty == "TemplateElement")
    let l ← place j
    must (1 ≤ l.start)
    let tail ← look? "tail" boolean j
    must (tail == js.isEmpty)
    let v ← field "value" j
    let raw ← look? "raw" text v
    let cooked ← look? "cooked" text v
    must (cooked == raw)
    let qs ← readQuasis js
    some (⟨⟨l.start - 1, l.stop + 1⟩, raw⟩ :: qs)

/-- The expressions and the texts of a template. -/
def readTemplate (expr : Json → Option Expr) (j : Json) : Option (List Expr × List Ident) := do
  let ty ← kindOf j
  must (ty == "TemplateLiteral")
  let qs ← look? "quasis" (listOf some) j
  let qs ← readQuasis qs
  let es ← look? "expressions" (listOf expr) j
  some (es, qs)

/-- The statements of a block. -/
def readBlock (stmt : Json → Option Stmt) (j : Json) : Option Block := do
  let ty ← kindOf j
  must (ty == "BlockStatement")
  let l ← place j
  let body ← look? "body" (listOf stmt) j
  some (.mk l body)

def readImportSpec (j : Json) : Option ImportSpec := do
  let l ← place j
  let ty ← kindOf j
  choose ty [
    ("ImportSpecifier", do
      let i ← look? "imported" readIdent j
      let n ← look? "local" readIdent j
      some (.named l i n)),
    ("ImportDefaultSpecifier", (look? "local" readIdent j).map (.default l)),
    ("ImportNamespaceSpecifier", (look? "local" readIdent j).map (.namespace l))]

/-- An expression with two operands. -/
def readBinary (expr : Json → Option Expr) (texts : List (Bytes × Op)) (l : Loc) (j : Json) : Option Expr := do
  let op ← readOperator texts j
  let a ← look? "left" expr j
  let b ← look? "right" expr j
  some (.binary l op a b)

/-- An element of an array: `null` is a hole. -/
def readElement (expr : Json → Option Expr) (j : Json) : Option Expr := do
  let e ← orNull expr j
  some (e.getD (.void z))

/-- The function of a method, which has no name; `function` reads the other parts. -/
def readMethod (function : Name → Json → Option Func) (j : Json) : Option Func := do
  let ty ← kindOf j
  must (ty == "FunctionExpression")
  let n ← look? "id" (orNull readIdent) j
  must n.isNone
  function .empty j

/-! ### Nodes -/

mutual

/-- An expression; the fuel bounds the depth. -/
def readExpr : Nat → Json → Option Expr
  | 0, _ => none
  | k + 1, j => do
    let l ← place j
    let ty ← kindOf j
    choose ty [
      ("ThisExpression", some (.this l)),
      ("Identifier", (look? "name" text j).map (.ident l)),
      ("Literal", (readLiteral j).map (.lit l)),
      ("SequenceExpression", (look? "expressions" (listOf (readExpr k)) j).map (.seq l)),
      ("ArrayExpression", (look? "elements" (listOf (readElement (readExpr k))) j).map (.array l)),
      ("MemberExpression", do
        let o ← look? "object" (readExpr k) j
        let c ← look? "computed" boolean j
        if c then (look? "property" (readExpr k) j).map (.cmember l o)
        else (look? "property" readIdent j).map (.member l o)),
      ("MetaProperty", do
        let m ← look? "meta" readIdent j
        let p ← look? "property" readIdent j
        some (.metaProp l m p)),
      ("CallExpression", do
        let c ← look? "callee" (readExpr k) j
        let as ← look? "arguments" (listOf (readExpr k)) j
        some (.call l c as)),
      ("NewExpression", do
        let c ← look? "callee" (readExpr k) j
        let as ← look? "arguments" (listOf (readExpr k)) j
        some (.prefix l .New (.call z c as))),
      ("BinaryExpression", readBinary (readExpr k) binaryTexts l j),
      ("LogicalExpression", readBinary (readExpr k) logicalTexts l j),
      ("AssignmentExpression", readBinary (readExpr k) assignTexts l j),
      ("UnaryExpression", do
        let op ← readOperator unaryTexts j
        let p ← look? "prefix" boolean j
        must p
        (look? "argument" (readExpr k) j).map (.prefix l op)),
      ("UpdateExpression", do
        let op ← readOperator updateTexts j
        let p ← look? "prefix" boolean j
        let a ← look? "argument" (readExpr k) j
        some (if p then .prefix l op a else .postfix l op a)),
      ("ConditionalExpression", do
        let t ← look? "test" (readExpr k) j
        let c ← look? "consequent" (readExpr k) j
        let a ← look? "alternate" (readExpr k) j
        some (.cond l t c a)),
      ("TemplateLiteral", do
        let (es, qs) ← readTemplate (readExpr k) j
        some (.template l es qs)),
      ("TaggedTemplateExpression", do
        let t ← look? "tag" (readExpr k) j
        let q ← field "quasi" j
        let ql ← place q
        let (es, qs) ← readTemplate (readExpr k) q
        some (.tagged l t ql es qs)),
      ("SpreadElement", (look? "argument" (readExpr k) j).map (.spread l)),
      ("ArrowFunctionExpression", do
        let ps ← look? "params" (listOf (readPattern k)) j
        let b ← field "body" j
        let bt ← kindOf b
        if bt = "BlockStatement" then (readBlock (readStmt k) b).map (.arrowB l ps)
        else (readExpr k b).map (.arrowE l ps)),
      ("ObjectExpression", (look? "properties" (listOf (readProperty k)) j).map (.object l)),
      ("FunctionExpression", do
        let n ← look? "id" (orNull readIdent) j
        (readFunction k (.optional n) j).map (.function l)),
      ("ClassExpression", do
        let n ← look? "id" (orNull readIdent) j
        (readClass k (.optional n) j).map (.class l))]

/-- The key of a property: an expression if it is `computed`, a name, a string or a number otherwise. -/
def readKey : Nat → Bool → Json → Option PropKey
  | 0, _, _ => none
  | k + 1, computed, j => do
    let ty ← kindOf j
    if computed = false ∧ ty = "Identifier" then do
      let i ← readIdent j
      some (if binaryPrefix i.name then .binary i.loc i.name else .literal i.loc i.name)
    else (readExpr k j).map (.computed z)

/-- A property of an object. -/
def readProperty : Nat → Json → Option Property
  | 0, _ => none
  | k + 1, j => do
    let l ← place j
    let ty ← kindOf j
    choose ty [
      ("Identifier", (look? "name" text j).map (.shorthand l)),
      ("SpreadProperty", (look? "argument" (readExpr k) j).map (.spread l)),
      ("Property", do
        let c ← look? "computed" boolean j
        let key ← look? "key" (readKey k c) j
        let sh ← look? "shorthand" boolean j
        must (!sh)
        let kd ← look? "kind" symbol j
        must (kd == "init")
        let m ← look? "method" boolean j
        if m then do
          let f ← field "value" j
          let fl ← place f
          (readMethod (readFunction k) f).map (.method l key fl)
        else (look? "value" (readExpr k) j).map (.literal l key))]

/-- A pattern. -/
def readPattern : Nat → Json → Option Pattern
  | 0, _ => none
  | k + 1, j => do
    let l ← place j
    let ty ← kindOf j
    choose ty [
      ("Identifier", (look? "name" text j).map (.ident l)),
      ("ObjectPattern", (look? "keys" (listOf (readProperty k)) j).map (.object l)),
      ("ArrayPattern", (look? "elements" (listOf (readPattern k)) j).map (.array l)),
      ("RestElement", (look? "argument" readIdent j).map (.rest l)),
      ("AssignmentPattern", do
        let a ← look? "left" (readPattern k) j
        let b ← look? "right" (readExpr k) j
        some (.assign l a b))]

/-- The parts of a function besides its name. -/
def readFunction : Nat → Name → Json → Option Func
  | 0, _, _ => none
  | k + 1, n, j => do
    let g ← look? "generator" boolean j
    let ps ← look? "params" (listOf (readPattern k)) j
    let b ← look? "body" (readBlock (readStmt k)) j
    some (.mk n g ps b)

/-- The parts of a class besides its name. -/
def readClass : Nat → Name → Json → Option Class
  | 0, _, _ => none
  | k + 1, n, j => do
    let s ← look? "superClass" (orNull (readExpr k)) j
    let b ← field "body" j
    let bt ← kindOf b
    must (bt == "ClassBody")
    let bl ← place b
    let ms ← look? "body" (listOf (readMember k)) b
    some (.mk n s bl ms)

/-- A member of a class. -/
def readMember : Nat → Json → Option ClassMember
  | 0, _ => none
  | k + 1, j => do
    let l ← place j
    let ty ← kindOf j
    must (ty == "MethodDefinition")
    let st ← look? "static" boolean j
    let c ← look? "computed" boolean j
    let key ← look? "key" (readKey k c) j
    let kd ← look? "kind" symbol j >>= readMethodKind
    let f ← field "value" j
    let fl ← place f
    let f ← readMethod (readFunction k) f
    some (.method l st key kd fl f)

/-- A statement. -/
def readStmt : Nat → Json → Option Stmt
  | 0, _ => none
  | k + 1, j => do
    let l ← place j
    let ty ← kindOf j
    choose ty [
      ("EmptyStatement", some (.empty l)),
      ("DebuggerStatement", some (.debugger l)),
      ("ExpressionStatement", (look? "expression" (readExpr k) j).map (.expr l)),
      ("VariableDeclaration", do
        let kd ← look? "kind" symbol j >>= readDeclKind
        (look? "declarations" (listOf (readDeclarator k)) j).map (.decl l kd)),
      ("ReturnStatement", (look? "argument" (orNull (readExpr k)) j).map (.ret l)),
      ("BreakStatement", (look? "label" (orNull readIdent) j).map (.brk l)),
      ("ContinueStatement", (look? "label" (orNull readIdent) j).map (.cont l)),
      ("ThrowStatement", (look? "argument" (readExpr k) j).map (.throw l)),
      ("IfStatement", do
        let t ← look? "test" (readExpr k) j
        let c ← look? "consequent" (readStmt k) j
        let a ← look? "alternate" (orNull (readStmt k)) j
        some (.ifS l t c a)),
      ("WhileStatement", do
        let t ← look? "test" (readExpr k) j
        let b ← look? "body" (readStmt k) j
        some (.whileS l t b)),
      ("DoWhileStatement", do
        let b ← look? "body" (readStmt k) j
        let t ← look? "test" (readExpr k) j
        some (.doS l b t)),
      ("ForStatement", do
        let i ← look? "init" (orNull (readForInit k)) j
        let t ← look? "test" (orNull (readExpr k)) j
        let u ← look? "update" (orNull (readExpr k)) j
        let b ← look? "body" (readStmt k) j
        some (.forS l i t u b)),
      ("ForInStatement", do
        let i ← look? "left" (readForInit k) j
        let r ← look? "right" (readExpr k) j
        let b ← look? "body" (readStmt k) j
        some (.forIn l i r b)),
      ("ForOfStatement", do
        let i ← look? "left" (readForInit k) j
        let r ← look? "right" (readExpr k) j
        let b ← look? "body" (readStmt k) j
        some (.forOf l i r b)),
      ("TryStatement", do
        let b ← look? "block" (readBlock (readStmt k)) j
        let h ← look? "handler" (orNull (readCatch k)) j
        let f ← look? "finalizer" (orNull (readBlock (readStmt k))) j
        some (.tryS l b h f)),
      ("BlockStatement", (look? "body" (listOf (readStmt k)) j).map (.block l)),
      ("LabeledStatement", do
        let n ← look? "label" text j
        let b ← look? "body" (readStmt k) j
        some (.labeled l n b)),
      ("FunctionDeclaration", do
        let n ← look? "id" readIdent j
        (readFunction k (.mandatory n) j).map (.function l)),
      ("ClassDeclaration", do
        let n ← look? "id" readIdent j
        (readClass k (.mandatory n) j).map (.class l)),
      ("SwitchStatement", do
        let d ← look? "discriminant" (readExpr k) j
        (look? "cases" (listOf (readCase k)) j).map (.switch l d z)),
      ("ImportDeclaration", do
        let ss ← look? "specifiers" (listOf readImportSpec) j
        (look? "source" text j).map (.import l ss))]

/-- A declarator. -/
def readDeclarator : Nat → Json → Option Declarator
  | 0, _ => none
  | k + 1, j => do
    let l ← place j
    let ty ← kindOf j
    must (ty == "VariableDeclarator")
    let p ← look? "id" (readPattern k) j
    let i ← look? "init" (orNull (readExpr k)) j
    some (.mk l p i)

/-- The head of a loop. -/
def readForInit : Nat → Json → Option ForInit
  | 0, _ => none
  | k + 1, j => do
    let l ← place j
    let ty ← kindOf j
    if ty = "VariableDeclaration" then do
      let kd ← look? "kind" symbol j >>= readDeclKind
      (look? "declarations" (listOf (readDeclarator k)) j).map (.decl l kd)
    else (readExpr k j).map (.expr l)

/-- A case of a `switch`. -/
def readCase : Nat → Json → Option SwitchCase
  | 0, _ => none
  | k + 1, j => do
    let l ← place j
    let ty ← kindOf j
    must (ty == "SwitchCase")
    let t ← look? "test" (orNull (readExpr k)) j
    let b ← look? "consequent" (listOf (readStmt k)) j
    some (.mk l t b)

/-- A `catch` clause. -/
def readCatch : Nat → Json → Option Catch
  | 0, _ => none
  | k + 1, j => do
    let l ← place j
    let ty ← kindOf j
    must (ty == "CatchClause")
    let p ← look? "param" (readPattern k) j
    let b ← look? "body" (readBlock (readStmt k)) j
    some (.mk l p b)

end

/-- A program. -/
def readProgram (k : Nat) (j : Json) : Option (List Stmt) := do
  let ty ← kindOf j
  must (ty == "Program")
  look? "body" (listOf (readStmt k)) j

/-! ### What is kept -/

/-- The expression with another span. -/
def Expr.at (l : Loc) : Expr → Expr
  | .void _ => .void l
  | .this _ => .this l
  | .ident _ n => .ident l n
  | .lit _ v => .lit l v
  | .seq _ es => .seq l es
  | .array _ es => .array l es
  | .member _ o p => .member l o p
  | .cmember _ o p => .cmember l o p
  | .metaProp _ m p => .metaProp l m p
  | .call _ c as => .call l c as
  | .binary _ op a b => .binary l op a b
  | .prefix _ op e => .prefix l op e
  | .postfix _ op e => .postfix l op e
  | .cond _ t c a => .cond l t c a
  | .template _ es qs => .template l es qs
  | .tagged _ t ql es qs => .tagged l t ql es qs
  | .spread _ e => .spread l e
  | .arrowE _ ps b => .arrowE l ps b
  | .arrowB _ ps b => .arrowB l ps b
  | .object _ ps => .object l ps
  | .function _ f => .function l f
  | .class _ c => .class l c

def hole : Expr → Bool
  | .void _ => true
  | _ => false

/-- The list without the holes at its end. -/
def trim (es : List Expr) : List Expr := (es.reverse.dropWhile hole).reverse

def isComputed : PropKey → Bool
  | .computed _ _ => true
  | _ => false

mutual

/-- The tree as it is recorded in the document: everything but
- the holes at the end of an array, and the spans of the other holes;
- the difference between `new 1` and `new 1()`, and the span of the call behind `new`;
- the brackets around the computed name of a method if it looks like a name, and the span of the brackets;
- the span of the braces of a `switch`, and the span of the expression in the head of a loop, which has the span of
  the head instead. -/
def keptExpr : Expr → Expr
  | .void _ => .void z
  | .this l => .this l
  | .ident l n => .ident l n
  | .lit l v => .lit l v
  | .seq l es => .seq l (keptExprs es)
  | .array l es => .array l (trim (keptExprs es))
  | .member l o p => .member l (keptExpr o) p
  | .cmember l o p => .cmember l (keptExpr o) (keptExpr p)
  | .metaProp l m p => .metaProp l m p
  | .call l c args => .call l (keptExpr c) (keptExprs args)
  | .binary l op a b => .binary l op (keptExpr a) (keptExpr b)
  | .prefix l op e =>
    if op = .New then
      match e with
      | .call _ c args => .prefix l op (.call z (keptExpr c) (keptExprs args))
      | .lit l' v => .prefix l op (.call z (.lit l' v) [])
      | e => .prefix l op (keptExpr e)
    else .prefix l op (keptExpr e)
  | .postfix l op e => .postfix l op (keptExpr e)
  | .cond l t c a => .cond l (keptExpr t) (keptExpr c) (keptExpr a)
  | .template l es qs => .template l (keptExprs es) qs
  | .tagged l t ql es qs => .tagged l (keptExpr t) ql (keptExprs es) qs
  | .spread l e => .spread l (keptExpr e)
  | .arrowE l ps b => .arrowE l (keptPats ps) (keptExpr b)
  | .arrowB l ps b => .arrowB l (keptPats ps) (keptBlock b)
  | .object l ps => .object l (keptProps ps)
  | .function l f => .function l (keptFunc f)
  | .class l c => .class l (keptClass c)

def keptExprs : List Expr → List Expr
  | [] => []
  | e :: es => keptExpr e :: keptExprs es

/-- `computed` tells whether the document says that the key is computed. -/
def keptKey (computed : Bool) : PropKey → PropKey
  | .computed _ (.ident l n) => if computed then .computed z (.ident l n) else .literal l n
  | .computed _ e => .computed z (keptExpr e)
  | .literal l v => .literal l v
  | .binary l v => .binary l v

def keptProp : Property → Property
  | .shorthand l n => .shorthand l n
  | .literal l k v => .literal l (keptKey (isComputed k) k) (keptExpr v)
  | .method l k vl f => .method l (keptKey false k) vl (keptFunc f)
  | .spread l e => .spread l (keptExpr e)

def keptProps : List Property → List Property
  | [] => []
  | p :: ps => keptProp p :: keptProps ps

def keptPat : Pattern → Pattern
  | .void l => .void l
  | .ident l n => .ident l n
  | .object l ps => .object l (keptProps ps)
  | .array l es => .array l (keptPats es)
  | .rest l a => .rest l a
  | .assign l a b => .assign l (keptPat a) (keptExpr b)

def keptPats : List Pattern → List Pattern
  | [] => []
  | p :: ps => keptPat p :: keptPats ps

def keptFunc : Func → Func
  | .mk n g ps b => .mk n g (keptPats ps) (keptBlock b)

def keptClass : Class → Class
  | .mk n s bl ms => .mk n (match s with | some e => some (keptExpr e) | none => none) bl (keptMembers ms)

def keptMember : ClassMember → ClassMember
  | .error l => .error l
  | .method l st k kd vl f => .method l st (keptKey false k) kd vl (keptFunc f)
  | .literal l st k v => .literal l st k (keptExpr v)

def keptMembers : List ClassMember → List ClassMember
  | [] => []
  | m :: ms => keptMember m :: keptMembers ms

def keptBlock : Block → Block
  | .mk l ss => .mk l (keptStmts ss)

def keptStmt : Stmt → Stmt
  | .empty l => .empty l
  | .debugger l => .debugger l
  | .expr l e => .expr l (keptExpr e)
  | .decl l k ds => .decl l k (keptDeclarators ds)
  | .ret l v => .ret l (match v with | some e => some (keptExpr e) | none => none)
  | .brk l n => .brk l n
  | .cont l n => .cont l n
  | .throw l e => .throw l (keptExpr e)
  | .ifS l t c a => .ifS l (keptExpr t) (keptStmt c) (match a with | some s => some (keptStmt s) | none => none)
  | .whileS l t b => .whileS l (keptExpr t) (keptStmt b)
  | .doS l b t => .doS l (keptStmt b) (keptExpr t)
  | .forS l i t u b => .forS l (match i with | some i => some (keptInit i) | none => none)
      (match t with | some e => some (keptExpr e) | none => none)
      (match u with | some e => some (keptExpr e) | none => none) (keptStmt b)
  | .forIn l i r b => .forIn l (keptInit i) (keptExpr r) (keptStmt b)
  | .forOf l i r b => .forOf l (keptInit i) (keptExpr r) (keptStmt b)
  | .tryS l b h f => .tryS l (keptBlock b) (match h with | some h => some (keptCatch h) | none => none)
      (match f with | some b => some (keptBlock b) | none => none)
  | .block l ss => .block l (keptStmts ss)
  | .labeled l n b => .labeled l n (keptStmt b)
  | .function l f => .function l (keptFunc f)
  | .class l c => .class l (keptClass c)
  | .switch l d _ cs => .switch l (keptExpr d) z (keptCases cs)
  | .import l ss src => .import l ss src

def keptStmts : List Stmt → List Stmt
  | [] => []
  | s :: ss => keptStmt s :: keptStmts ss

def keptDeclarator : Declarator → Declarator
  | .mk l p i => .mk l (keptPat p) (match i with | some e => some (keptExpr e) | none => none)

def keptDeclarators : List Declarator → List Declarator
  | [] => []
  | d :: ds => keptDeclarator d :: keptDeclarators ds

def keptInit : ForInit → ForInit
  | .decl l k ds => .decl l k (keptDeclarators ds)
  | .expr l e => .expr l (Expr.at l (keptExpr e))

def keptCase : SwitchCase → SwitchCase
  | .mk l t ss => .mk l (match t with | some e => some (keptExpr e) | none => none) (keptStmts ss)

def keptCases : List SwitchCase → List SwitchCase
  | [] => []
  | c :: cs => keptCase c :: keptCases cs

def keptCatch : Catch → Catch
  | .mk l p b => .mk l (keptPat p) (keptBlock b)

end

/-- The last element is a hole. -/
def endsInHole (es : List Expr) : Bool := (es.getLast?.map hole).getD false

/-- A computed key that is a mere name, as `[a]`. -/
def bracketedName : PropKey → Bool
  | .computed _ (.ident ..) => true
  | _ => false

/-- None of the nodes that the document does not tell apart from others: an array with holes at its end, `new` in front
of a literal, a method with the name `[a]`. -/
def Node.recorded : Node → Prop
  | .expr (.array _ es) => endsInHole es = false
  | .expr (.prefix _ .New (.lit ..)) => False
  | .prop (.method _ k _ _) => bracketedName k = false
  | .member (.method _ _ k _ _ _) => bracketedName k = false
  | _ => True

end Ratel.Spec
