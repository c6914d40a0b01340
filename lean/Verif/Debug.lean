import Verif.Ast
import Verif.Lexer
/-! Debugging dumps: the derived `Debug` of the types in `ratel/src/ast/*.rs`, as `format!("{:?}", …)` and
`format!("{:#?}", …)` write it. The bindings return the dump of `module.body()`.

`Dbg` is what a `Debug` implementation asks a `std::fmt::Formatter` to write; `Dbg.render` is what `std::fmt` (`builders.rs`,
`Debug for str`, as in current Rust) writes then. toolshed's `List` writes a list (`debug_list`). -/
namespace Ratel

mutual
/-- The calls of the builders `debug_struct`, `debug_tuple`, `debug_list`, and of `Debug` for names, numbers and strings. -/
inductive Dbg where
  | word (s : String)
  | num (n : Nat)
  | str (s : Bytes)
  | struct (name : String) (fields : DbgItems)
  | tuple (name : String) (fields : DbgItems)
  | list (entries : DbgItems)
/-- Fields or entries; the label is empty where there is none. -/
inductive DbgItems where
  | nil
  | cons (label : String) (value : Dbg) (rest : DbgItems)
end

/-- `char::is_grapheme_extended` or not `char::is_printable`: the characters that `char::escape_debug` writes as a number.
Any predicate: the tables of std are not modelled. -/
class Printing where
  escapes : Char → Bool

/-- A digit, also hexadecimal. -/
def digitChar (d : Nat) : Char :=
  if d < 10 then Char.ofNat (48 + d) else Char.ofNat (87 + d)

/-- Digits of a number; the first argument bounds their number. -/
def showNatGo (base : Nat) : Nat → Nat → List Char
  | 0, n => [digitChar (n % base)]
  | g + 1, n => if n < base then [digitChar n] else showNatGo base g (n / base) ++ [digitChar (n % base)]

/-- `{}` of a number, in some base from 2 to 16. -/
def showNat (base n : Nat) : List Char := showNatGo base n n

/-- `char::escape_debug`, as `Debug for str` calls it (`'` is not escaped). -/
def escapeDebug [Printing] (c : Char) : List Char :=
  if c = '\x00' then ['\\', '0']
  else if c = '\t' then ['\\', 't']
  else if c = '\r' then ['\\', 'r']
  else if c = '\n' then ['\\', 'n']
  else if c = '\\' then ['\\', '\\']
  else if c = '"' then ['\\', '"']
  else if Printing.escapes c then ['\\', 'u', '{'] ++ showNat 16 c.toNat ++ ['}']
  else [c]

/-- `str::chars`; undefined behaviour if the bytes are no UTF-8 (see `Dbg.sound`). The first argument bounds the length. -/
def charsGo : Nat → Bytes → List Char
  | 0, _ => []
  | n + 1, s =>
    match Lex.decodeFirst s with
    | none => []
    | some c => Char.ofNat c :: charsGo n (s.drop (Lex.lenUtf8 c))

/-- `str::chars` -/
def chars (s : Bytes) : List Char := charsGo s.length s

/-- What `PadAdapter` writes at the beginning of a line, inside of `k` builders. -/
def padding (k : Nat) : List Char := List.replicate (4 * k) ' '

/-- The name of a field. -/
def labelText (l : String) : List Char := if l = "" then [] else l.toList ++ [':', ' ']

variable [Printing]

mutual
/-- The text that `std::fmt` writes; `pretty` is `{:#?}` and `k` the number of builders around. Simplification:
`PadAdapter` indents what it is given line by line; here the depth is passed down (no text that is written here contains a line
break, except those of the builders). -/
def Dbg.render (pretty : Bool) (k : Nat) : Dbg → List Char
  | .word s => s.toList
  | .num n => showNat 10 n
  | .str s => '"' :: (chars s).flatMap escapeDebug ++ ['"']
  | .struct n .nil => n.toList
  | .struct n fs =>
    n.toList ++ (if pretty then [' ', '{', '\n'] else [' ', '{', ' ']) ++ fs.render pretty k true ++
      (if pretty then padding k ++ ['}'] else [' ', '}'])
  | .tuple n .nil => n.toList
  | .tuple n fs =>
    n.toList ++ (if pretty then ['(', '\n'] else ['(']) ++ fs.render pretty k true ++
      (if pretty then padding k ++ [')'] else [')'])
  | .list .nil => ['[', ']']
  | .list fs =>
    (if pretty then ['[', '\n'] else ['[']) ++ fs.render pretty k true ++ (if pretty then padding k ++ [']'] else [']'])
/-- The fields or entries of a builder. -/
def DbgItems.render (pretty : Bool) (k : Nat) (first : Bool) : DbgItems → List Char
  | .nil => []
  | .cons l d r =>
    (if pretty then padding (k + 1) else if first then [] else [',', ' ']) ++ labelText l ++ d.render pretty (k + 1) ++
      (if pretty then [',', '\n'] else []) ++ r.render pretty k false
end

mutual
/-- All strings are UTF-8. -/
def Dbg.sound : Dbg → Bool
  | .str s => s = (chars s).flatMap String.utf8EncodeChar
  | .struct _ fs => fs.sound
  | .tuple _ fs => fs.sound
  | .list fs => fs.sound
  | _ => true
/-- All strings are UTF-8. -/
def DbgItems.sound : DbgItems → Bool
  | .nil => true
  | .cons _ d r => d.sound && r.sound
end

/-- `format!`: the text, or undefined behaviour for a string that is no UTF-8. -/
def Dbg.format (pretty : Bool) (d : Dbg) : Out (List Char) := if d.sound then .ok (d.render pretty 0) else .oob

/-! ### Derived implementations -/

/-- One field without a name. -/
def lone (d : Dbg) : DbgItems := .cons "" d .nil

/-- `#[derive(Debug)] struct Loc`, `ratel/src/ast/mod.rs:67-72`, and `Debug for Node`, `ratel/src/ast/node.rs:48-53`. -/
def dbgLoc (l : Loc) (item : Dbg) : Dbg :=
  .struct "Loc" (.cons "start" (.num l.start) (.cons "end" (.num l.stop) (.cons "item" item .nil)))

/-- `bool` -/
def dbgBool (b : Bool) : Dbg := .word (if b then "true" else "false")

/-- `Option<T>` -/
def dbgOption : Option Dbg → Dbg
  | none => .word "None"
  | some d => .tuple "Some" (lone d)

/-- `IdentifierNode`, `ratel/src/ast/mod.rs:60`. -/
def dbgIdent (i : Ident) : Dbg := dbgLoc i.loc (.str i.name)

/-- `IdentifierList`, `ratel/src/ast/mod.rs:61`. -/
def dbgIdents : List Ident → DbgItems
  | [] => .nil
  | i :: is => .cons "" (dbgIdent i) (dbgIdents is)

/-- `EmptyName`, `MandatoryName`, `OptionalName`, `ratel/src/ast/function.rs:8-15`. -/
def dbgName : Name → Dbg
  | .empty => .word "EmptyName"
  | .optional n => .tuple "OptionalName" (lone (dbgOption (n.map dbgIdent)))
  | .mandatory n => .tuple "MandatoryName" (lone (dbgIdent n))

/-- `Literal`, `ratel/src/ast/literal.rs:1-11`. -/
def dbgLiteral : Literal → Dbg
  | .Undefined => .word "Undefined"
  | .Null => .word "Null"
  | .True => .word "True"
  | .False => .word "False"
  | .Number v => .tuple "Number" (lone (.str v))
  | .Binary v => .tuple "Binary" (lone (.str v))
  | .String v => .tuple "String" (lone (.str v))
  | .RegEx v => .tuple "RegEx" (lone (.str v))

/-- `DeclarationKind`, `ratel/src/ast/variable.rs:1-6`. -/
def dbgDeclKind : DeclKind → Dbg
  | .Var => .word "Var"
  | .Let => .word "Let"
  | .Const => .word "Const"

/-- `MethodKind`, `ratel/src/ast/function.rs:73-79`. -/
def dbgMethodKind : MethodKind → Dbg
  | .Constructor => .word "Constructor"
  | .Method => .word "Method"
  | .Get => .word "Get"
  | .Set => .word "Set"

/-- `OperatorKind`, `ratel/src/ast/operator.rs:4-54`. -/
def dbgOp : Op → String
  | .FatArrow => "FatArrow"
  | .New => "New"
  | .Increment => "Increment"
  | .Decrement => "Decrement"
  | .LogicalNot => "LogicalNot"
  | .BitwiseNot => "BitwiseNot"
  | .Typeof => "Typeof"
  | .Void => "Void"
  | .Delete => "Delete"
  | .Multiplication => "Multiplication"
  | .Division => "Division"
  | .Remainder => "Remainder"
  | .Exponent => "Exponent"
  | .Addition => "Addition"
  | .Subtraction => "Subtraction"
  | .BitShiftLeft => "BitShiftLeft"
  | .BitShiftRight => "BitShiftRight"
  | .UBitShiftRight => "UBitShiftRight"
  | .Lesser => "Lesser"
  | .LesserEquals => "LesserEquals"
  | .Greater => "Greater"
  | .GreaterEquals => "GreaterEquals"
  | .Instanceof => "Instanceof"
  | .In => "In"
  | .StrictEquality => "StrictEquality"
  | .StrictInequality => "StrictInequality"
  | .Equality => "Equality"
  | .Inequality => "Inequality"
  | .BitwiseAnd => "BitwiseAnd"
  | .BitwiseXor => "BitwiseXor"
  | .BitwiseOr => "BitwiseOr"
  | .LogicalAnd => "LogicalAnd"
  | .LogicalOr => "LogicalOr"
  | .Conditional => "Conditional"
  | .Assign => "Assign"
  | .AddAssign => "AddAssign"
  | .SubtractAssign => "SubtractAssign"
  | .ExponentAssign => "ExponentAssign"
  | .MultiplyAssign => "MultiplyAssign"
  | .DivideAssign => "DivideAssign"
  | .RemainderAssign => "RemainderAssign"
  | .BSLAssign => "BSLAssign"
  | .BSRAssign => "BSRAssign"
  | .UBSRAssign => "UBSRAssign"
  | .BitAndAssign => "BitAndAssign"
  | .BitXorAssign => "BitXorAssign"
  | .BitOrAssign => "BitOrAssign"
  | .Spread => "Spread"

/-- `ForImportSpecifier`, `ratel/src/ast/statement.rs:122-143`. -/
def dbgSpec : ImportSpec → Dbg
  | .named l i n => dbgLoc l (.tuple "ImportSpecifier" (lone (.struct "ImportSpecifier"
      (.cons "imported" (dbgIdent i) (.cons "local" (dbgIdent n) .nil)))))
  | .default l n => dbgLoc l (.tuple "ImportDefaultSpecifier" (lone (.struct "ImportDefaultSpecifier"
      (.cons "local" (dbgIdent n) .nil))))
  | .namespace l n => dbgLoc l (.tuple "ImportNamespaceSpecifier" (lone (.struct "ImportNamespaceSpecifier"
      (.cons "local" (dbgIdent n) .nil))))

/-- `NodeList<ForImportSpecifier>` -/
def dbgSpecs : List ImportSpec → DbgItems
  | [] => .nil
  | s :: ss => .cons "" (dbgSpec s) (dbgSpecs ss)

/-- `TemplateLiteral`, `ratel/src/ast/expression.rs:91-95`. -/
def dbgTemplate (es : DbgItems) (qs : List Ident) : Dbg :=
  .struct "TemplateLiteral" (.cons "expressions" (.list es) (.cons "quasis" (.list (dbgIdents qs)) .nil))

/-- `DeclarationStatement`, `ratel/src/ast/statement.rs:10-14`. -/
def dbgDeclaration (k : DeclKind) (ds : DbgItems) : Dbg :=
  .struct "DeclarationStatement" (.cons "kind" (dbgDeclKind k) (.cons "declarators" (.list ds) .nil))

/-- `Block`, `ratel/src/ast/mod.rs:25-28`. -/
def dbgBody (ss : DbgItems) : Dbg := .struct "Block" (.cons "body" (.list ss) .nil)

mutual

/-- `ExpressionNode`, `ratel/src/ast/expression.rs:29-153`. -/
def dbgExpr : Expr → Dbg
  | .void l => dbgLoc l (.word "Void")
  | .this l => dbgLoc l (.tuple "This" (lone (.word "ThisExpression")))
  | .ident l n => dbgLoc l (.tuple "Identifier" (lone (.str n)))
  | .lit l v => dbgLoc l (.tuple "Literal" (lone (dbgLiteral v)))
  | .seq l body => dbgLoc l (.tuple "Sequence" (lone (.struct "SequenceExpression" (.cons "body" (.list (dbgExprs body)) .nil))))
  | .array l body => dbgLoc l (.tuple "Array" (lone (.struct "ArrayExpression" (.cons "body" (.list (dbgExprs body)) .nil))))
  | .member l o p => dbgLoc l (.tuple "Member" (lone (.struct "MemberExpression"
      (.cons "object" (dbgExpr o) (.cons "property" (dbgIdent p) .nil)))))
  | .cmember l o p => dbgLoc l (.tuple "ComputedMember" (lone (.struct "ComputedMemberExpression"
      (.cons "object" (dbgExpr o) (.cons "property" (dbgExpr p) .nil)))))
  | .metaProp l m p => dbgLoc l (.tuple "MetaProperty" (lone (.struct "MetaPropertyExpression"
      (.cons "meta" (dbgIdent m) (.cons "property" (dbgIdent p) .nil)))))
  | .call l c args => dbgLoc l (.tuple "Call" (lone (.struct "CallExpression"
      (.cons "callee" (dbgExpr c) (.cons "arguments" (.list (dbgExprs args)) .nil)))))
  | .binary l op a b => dbgLoc l (.tuple "Binary" (lone (.struct "BinaryExpression"
      (.cons "operator" (.word (dbgOp op)) (.cons "left" (dbgExpr a) (.cons "right" (dbgExpr b) .nil))))))
  | .prefix l op a => dbgLoc l (.tuple "Prefix" (lone (.struct "PrefixExpression"
      (.cons "operator" (.word (dbgOp op)) (.cons "operand" (dbgExpr a) .nil)))))
  | .postfix l op a => dbgLoc l (.tuple "Postfix" (lone (.struct "PostfixExpression"
      (.cons "operator" (.word (dbgOp op)) (.cons "operand" (dbgExpr a) .nil)))))
  | .cond l t c a => dbgLoc l (.tuple "Conditional" (lone (.struct "ConditionalExpression"
      (.cons "test" (dbgExpr t) (.cons "consequent" (dbgExpr c) (.cons "alternate" (dbgExpr a) .nil))))))
  | .template l es qs => dbgLoc l (.tuple "Template" (lone (dbgTemplate (dbgExprs es) qs)))
  | .tagged l t ql es qs => dbgLoc l (.tuple "TaggedTemplate" (lone (.struct "TaggedTemplateExpression"
      (.cons "tag" (dbgExpr t) (.cons "quasi" (dbgLoc ql (dbgTemplate (dbgExprs es) qs)) .nil)))))
  | .spread l a => dbgLoc l (.tuple "Spread" (lone (.struct "SpreadExpression" (.cons "argument" (dbgExpr a) .nil))))
  | .arrowE l ps b => dbgLoc l (.tuple "Arrow" (lone (.struct "ArrowExpression"
      (.cons "params" (.list (dbgPats ps)) (.cons "body" (.tuple "Expression" (lone (dbgExpr b))) .nil)))))
  | .arrowB l ps b => dbgLoc l (.tuple "Arrow" (lone (.struct "ArrowExpression"
      (.cons "params" (.list (dbgPats ps)) (.cons "body" (.tuple "Block" (lone (dbgBlock b))) .nil)))))
  | .object l ps => dbgLoc l (.tuple "Object" (lone (.struct "ObjectExpression" (.cons "body" (.list (dbgProps ps)) .nil))))
  | .function l f => dbgLoc l (.tuple "Function" (lone (dbgFunc f)))
  | .class l c => dbgLoc l (.tuple "Class" (lone (dbgClass c)))

/-- `ExpressionList` -/
def dbgExprs : List Expr → DbgItems
  | [] => .nil
  | e :: es => .cons "" (dbgExpr e) (dbgExprs es)

/-- `Node<PropertyKey>`, `ratel/src/ast/expression.rs:4-9`. -/
def dbgKey : PropKey → Dbg
  | .computed l e => dbgLoc l (.tuple "Computed" (lone (dbgExpr e)))
  | .literal l v => dbgLoc l (.tuple "Literal" (lone (.str v)))
  | .binary l v => dbgLoc l (.tuple "Binary" (lone (.str v)))

/-- `PropertyNode`, `ratel/src/ast/expression.rs:11-25`. -/
def dbgProp : Property → Dbg
  | .shorthand l n => dbgLoc l (.tuple "Shorthand" (lone (.str n)))
  | .literal l k v => dbgLoc l (.struct "Literal" (.cons "key" (dbgKey k) (.cons "value" (dbgExpr v) .nil)))
  | .method l k vl f => dbgLoc l (.struct "Method" (.cons "key" (dbgKey k) (.cons "value" (dbgLoc vl (dbgFunc f)) .nil)))
  | .spread l e => dbgLoc l (.struct "Spread" (.cons "argument" (dbgExpr e) .nil))

/-- `NodeList<Property>` -/
def dbgProps : List Property → DbgItems
  | [] => .nil
  | p :: ps => .cons "" (dbgProp p) (dbgProps ps)

/-- `Node<Pattern>`, `ratel/src/ast/mod.rs:30-48`. -/
def dbgPat : Pattern → Dbg
  | .void l => dbgLoc l (.word "Void")
  | .ident l n => dbgLoc l (.tuple "Identifier" (lone (.str n)))
  | .object l ps => dbgLoc l (.struct "ObjectPattern" (.cons "properties" (.list (dbgProps ps)) .nil))
  | .array l ps => dbgLoc l (.struct "ArrayPattern" (.cons "elements" (.list (dbgPats ps)) .nil))
  | .rest l a => dbgLoc l (.struct "RestElement" (.cons "argument" (dbgIdent a) .nil))
  | .assign l p e => dbgLoc l (.struct "AssignmentPattern" (.cons "left" (dbgPat p) (.cons "right" (dbgExpr e) .nil)))

/-- `PatternList` -/
def dbgPats : List Pattern → DbgItems
  | [] => .nil
  | p :: ps => .cons "" (dbgPat p) (dbgPats ps)

/-- `Function`, `ratel/src/ast/function.rs:65-71`. -/
def dbgFunc : Func → Dbg
  | .mk n g ps b => .struct "Function" (.cons "name" (dbgName n) (.cons "generator" (dbgBool g)
      (.cons "params" (.list (dbgPats ps)) (.cons "body" (dbgBlock b) .nil))))

/-- `Class`, `ratel/src/ast/function.rs:97-102`. -/
def dbgClass : Class → Dbg
  | .mk n s bl ms => .struct "Class" (.cons "name" (dbgName n) (.cons "extends" (dbgExprO s)
      (.cons "body" (dbgLoc bl (dbgBody (dbgMembers ms))) .nil)))

/-- `Option<ExpressionNode>` -/
def dbgExprO : Option Expr → Dbg
  | none => .word "None"
  | some e => .tuple "Some" (lone (dbgExpr e))

/-- `Node<ClassMember>`, `ratel/src/ast/function.rs:81-95`. -/
def dbgMember : ClassMember → Dbg
  | .error l => dbgLoc l (.word "Error")
  | .method l s k kd vl f => dbgLoc l (.struct "Method" (.cons "is_static" (dbgBool s) (.cons "key" (dbgKey k)
      (.cons "kind" (dbgMethodKind kd) (.cons "value" (dbgLoc vl (dbgFunc f)) .nil)))))
  | .literal l s k v => dbgLoc l (.struct "Literal" (.cons "is_static" (dbgBool s) (.cons "key" (dbgKey k)
      (.cons "value" (dbgExpr v) .nil))))

/-- `NodeList<ClassMember>` -/
def dbgMembers : List ClassMember → DbgItems
  | [] => .nil
  | m :: ms => .cons "" (dbgMember m) (dbgMembers ms)

/-- `BlockNode<Statement>` -/
def dbgBlock : Block → Dbg
  | .mk l b => dbgLoc l (dbgBody (dbgStmts b))

/-- `Option<BlockNode<Statement>>` -/
def dbgBlockO : Option Block → Dbg
  | none => .word "None"
  | some b => .tuple "Some" (lone (dbgBlock b))

/-- `StatementNode`, `ratel/src/ast/statement.rs:4-173`. -/
def dbgStmt : Stmt → Dbg
  | .empty l => dbgLoc l (.word "Empty")
  | .debugger l => dbgLoc l (.word "Debugger")
  | .expr l e => dbgLoc l (.tuple "Expression" (lone (dbgExpr e)))
  | .decl l k ds => dbgLoc l (.tuple "Declaration" (lone (dbgDeclaration k (dbgDeclarators ds))))
  | .ret l v => dbgLoc l (.tuple "Return" (lone (.struct "ReturnStatement" (.cons "value" (dbgExprO v) .nil))))
  | .brk l n => dbgLoc l (.tuple "Break" (lone (.struct "BreakStatement" (.cons "label" (dbgOption (n.map dbgIdent)) .nil))))
  | .cont l n => dbgLoc l (.tuple "Continue" (lone (.struct "ContinueStatement"
      (.cons "label" (dbgOption (n.map dbgIdent)) .nil))))
  | .throw l e => dbgLoc l (.tuple "Throw" (lone (.struct "ThrowStatement" (.cons "value" (dbgExpr e) .nil))))
  | .ifS l t c a => dbgLoc l (.tuple "If" (lone (.struct "IfStatement"
      (.cons "test" (dbgExpr t) (.cons "consequent" (dbgStmt c) (.cons "alternate" (dbgStmtO a) .nil))))))
  | .whileS l t b => dbgLoc l (.tuple "While" (lone (.struct "WhileStatement"
      (.cons "test" (dbgExpr t) (.cons "body" (dbgStmt b) .nil)))))
  | .doS l b t => dbgLoc l (.tuple "Do" (lone (.struct "DoStatement"
      (.cons "body" (dbgStmt b) (.cons "test" (dbgExpr t) .nil)))))
  | .forS l i t u b => dbgLoc l (.tuple "For" (lone (.struct "ForStatement" (.cons "init" (dbgInitO i)
      (.cons "test" (dbgExprO t) (.cons "update" (dbgExprO u) (.cons "body" (dbgStmt b) .nil)))))))
  | .forIn l i r b => dbgLoc l (.tuple "ForIn" (lone (.struct "ForInStatement"
      (.cons "left" (dbgInit i) (.cons "right" (dbgExpr r) (.cons "body" (dbgStmt b) .nil))))))
  | .forOf l i r b => dbgLoc l (.tuple "ForOf" (lone (.struct "ForOfStatement"
      (.cons "left" (dbgInit i) (.cons "right" (dbgExpr r) (.cons "body" (dbgStmt b) .nil))))))
  | .tryS l b h f => dbgLoc l (.tuple "Try" (lone (.struct "TryStatement"
      (.cons "block" (dbgBlock b) (.cons "handler" (dbgCatchO h) (.cons "finalizer" (dbgBlockO f) .nil))))))
  | .block l b => dbgLoc l (.tuple "Block" (lone (dbgBody (dbgStmts b))))
  | .labeled l n b => dbgLoc l (.tuple "Labeled" (lone (.struct "LabeledStatement"
      (.cons "label" (.str n) (.cons "body" (dbgStmt b) .nil)))))
  | .function l f => dbgLoc l (.tuple "Function" (lone (dbgFunc f)))
  | .class l c => dbgLoc l (.tuple "Class" (lone (dbgClass c)))
  | .switch l d bl cs => dbgLoc l (.tuple "Switch" (lone (.struct "SwitchStatement"
      (.cons "discriminant" (dbgExpr d) (.cons "cases" (dbgLoc bl (dbgBody (dbgCases cs))) .nil)))))
  | .import l ss src => dbgLoc l (.tuple "Import" (lone (.struct "ImportDeclaration"
      (.cons "specifiers" (.list (dbgSpecs ss)) (.cons "source" (.str src) .nil)))))

/-- `StatementList` -/
def dbgStmts : List Stmt → DbgItems
  | [] => .nil
  | s :: ss => .cons "" (dbgStmt s) (dbgStmts ss)

/-- `Option<StatementNode>` -/
def dbgStmtO : Option Stmt → Dbg
  | none => .word "None"
  | some s => .tuple "Some" (lone (dbgStmt s))

/-- `Node<Declarator>`, `ratel/src/ast/statement.rs:4-8`. -/
def dbgDeclarator : Declarator → Dbg
  | .mk l p i => dbgLoc l (.struct "Declarator" (.cons "id" (dbgPat p) (.cons "init" (dbgExprO i) .nil)))

/-- `NodeList<Declarator>` -/
def dbgDeclarators : List Declarator → DbgItems
  | [] => .nil
  | d :: ds => .cons "" (dbgDeclarator d) (dbgDeclarators ds)

/-- `Node<ForInit>`, `ratel/src/ast/statement.rs:57-61`. -/
def dbgInit : ForInit → Dbg
  | .decl l k ds => dbgLoc l (.tuple "Declaration" (lone (dbgDeclaration k (dbgDeclarators ds))))
  | .expr l e => dbgLoc l (.tuple "Expression" (lone (dbgExpr e)))

/-- `Option<Node<ForInit>>` -/
def dbgInitO : Option ForInit → Dbg
  | none => .word "None"
  | some i => .tuple "Some" (lone (dbgInit i))

/-- `Node<SwitchCase>`, `ratel/src/ast/statement.rs:110-114`. -/
def dbgCase : SwitchCase → Dbg
  | .mk l t b => dbgLoc l (.struct "SwitchCase" (.cons "test" (dbgExprO t) (.cons "consequent" (.list (dbgStmts b)) .nil)))

/-- `NodeList<SwitchCase>` -/
def dbgCases : List SwitchCase → DbgItems
  | [] => .nil
  | c :: cs => .cons "" (dbgCase c) (dbgCases cs)

/-- `Node<CatchClause>`, `ratel/src/ast/statement.rs:85-89`. -/
def dbgCatch : Catch → Dbg
  | .mk l p b => dbgLoc l (.struct "CatchClause" (.cons "param" (dbgPat p) (.cons "body" (dbgBlock b) .nil)))

/-- `Option<Node<CatchClause>>` -/
def dbgCatchO : Option Catch → Dbg
  | none => .word "None"
  | some c => .tuple "Some" (lone (dbgCatch c))

end

/-- `format!("{:?}", module.body())` and `format!("{:#?}", module.body())`, `ffi/native/src/lib.rs:93` and
`ratel-wasm/src/lib.rs:41-45`. -/
def dumpBody (pretty : Bool) (m : List Stmt) : Out (List Char) := (Dbg.list (dbgStmts m)).format pretty

/-- The loop of `Debug for Module`. -/
def dumpStmts : List Stmt → Out (List Char)
  | [] => .ok []
  | s :: ss =>
    (dbgStmt s).format false >>= fun x =>
    dumpStmts ss >>= fun r => .ok ('\n' :: '\t' :: x ++ r)

/-- `Debug for Module`, `ratel/src/module.rs:39-47`; `{:#?}` of a module gives the same. -/
def dumpModule (m : List Stmt) : Out (List Char) := dumpStmts m >>= fun x => .ok ("Module:".toList ++ x)

end Ratel
