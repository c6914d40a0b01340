import Verif.Operator
/-! The syntax tree: `ratel/src/ast/*.rs`.

`Node<'ast, T>` (a pointer to a `Loc<T>`) is modelled by giving every constructor its span as
first argument. Arena lists are lists. `Block<T>`, `TemplateLiteral` and `ArrowBody` nodes are
inlined where they are used. -/
namespace Ratel

/-- Span of a node, `Loc`, `ratel/src/ast/mod.rs:67-72`. -/
structure Loc where
  start : Nat
  stop : Nat
deriving DecidableEq, Repr, Inhabited

/-- `IdentifierNode` and nodes of template quasis, `ratel/src/ast/mod.rs:60`. -/
structure Ident where
  loc : Loc
  name : Bytes
deriving DecidableEq, Repr, Inhabited

/-- `Literal`, `ratel/src/ast/literal.rs:1-11`. -/
inductive Literal where
  | Undefined | Null | True | False
  | Number (v : Bytes) | Binary (v : Bytes) | String (v : Bytes) | RegEx (v : Bytes)
deriving DecidableEq, Repr, Inhabited

/-- `DeclarationKind`, `ratel/src/ast/variable.rs:1-6`. -/
inductive DeclKind where
  | Var | Let | Const
deriving DecidableEq, Repr

/-- `MethodKind`, `ratel/src/ast/function.rs:71-77`. -/
inductive MethodKind where
  | Constructor | Method | Get | Set
deriving DecidableEq, Repr

/-- The name parameter of `Function` and `Class`, `ratel/src/ast/function.rs:4-16`:
`EmptyName` (methods), `OptionalName` (expressions), `MandatoryName` (declarations). -/
inductive Name where
  | empty
  | optional (n : Option Ident)
  | mandatory (n : Ident)
deriving DecidableEq, Repr

/-- `ForImportSpecifier`, `ratel/src/ast/statement.rs:120-142`. -/
inductive ImportSpec where
  | named (loc : Loc) (imported «local» : Ident)
  | default (loc : Loc) («local» : Ident)
  | namespace (loc : Loc) («local» : Ident)
deriving DecidableEq, Repr

mutual

/-- `Expression`, `ratel/src/ast/expression.rs:32-153`. `Arrow` is split by its `ArrowBody`. -/
inductive Expr where
  | void (loc : Loc)
  | this (loc : Loc)
  | ident (loc : Loc) (name : Bytes)
  | lit (loc : Loc) (v : Literal)
  | seq (loc : Loc) (body : List Expr)
  | array (loc : Loc) (body : List Expr)
  | member (loc : Loc) (object : Expr) (property : Ident)
  | cmember (loc : Loc) (object : Expr) (property : Expr)
  | metaProp (loc : Loc) (metaName : Ident) (property : Ident)
  | call (loc : Loc) (callee : Expr) (arguments : List Expr)
  | binary (loc : Loc) (op : Op) (left right : Expr)
  | «prefix» (loc : Loc) (op : Op) (operand : Expr)
  | postfix (loc : Loc) (op : Op) (operand : Expr)
  | cond (loc : Loc) (test consequent alternate : Expr)
  | template (loc : Loc) (expressions : List Expr) (quasis : List Ident)
  | tagged (loc : Loc) (tag : Expr) (qloc : Loc) (expressions : List Expr) (quasis : List Ident)
  | spread (loc : Loc) (argument : Expr)
  | arrowE (loc : Loc) (params : List Pattern) (body : Expr)
  | arrowB (loc : Loc) (params : List Pattern) (body : Block)
  | object (loc : Loc) (body : List Property)
  | function (loc : Loc) (f : Func)
  | class (loc : Loc) (c : Class)

/-- `PropertyKey`, `ratel/src/ast/expression.rs:4-9`. -/
inductive PropKey where
  | computed (loc : Loc) (e : Expr)
  | literal (loc : Loc) (v : Bytes)
  | binary (loc : Loc) (v : Bytes)

/-- `Property`, `ratel/src/ast/expression.rs:11-25`; `vloc` is the span of the method's function. -/
inductive Property where
  | shorthand (loc : Loc) (name : Bytes)
  | literal (loc : Loc) (key : PropKey) (value : Expr)
  | method (loc : Loc) (key : PropKey) (vloc : Loc) (value : Func)
  | spread (loc : Loc) (argument : Expr)

/-- `Pattern`, `ratel/src/ast/mod.rs:31-50`. -/
inductive Pattern where
  | void (loc : Loc)
  | ident (loc : Loc) (name : Bytes)
  | object (loc : Loc) (properties : List Property)
  | array (loc : Loc) (elements : List Pattern)
  | rest (loc : Loc) (argument : Ident)
  | assign (loc : Loc) (left : Pattern) (right : Expr)

/-- `Function`, `ratel/src/ast/function.rs:63-69`. -/
inductive Func where
  | mk (name : Name) (generator : Bool) (params : List Pattern) (body : Block)

/-- `Class`, `ratel/src/ast/function.rs:95-102`; `bloc` is the span of the body. -/
inductive Class where
  | mk (name : Name) (extends_ : Option Expr) (bloc : Loc) (body : List ClassMember)

/-- `ClassMember`, `ratel/src/ast/function.rs:79-93`. -/
inductive ClassMember where
  | error (loc : Loc)
  | method (loc : Loc) (isStatic : Bool) (key : PropKey) (kind : MethodKind) (vloc : Loc) (value : Func)
  | literal (loc : Loc) (isStatic : Bool) (key : PropKey) (value : Expr)

/-- `BlockNode<Statement>`, `ratel/src/ast/mod.rs:26-29,54`. -/
inductive Block where
  | mk (loc : Loc) (body : List Stmt)

/-- `Statement`, `ratel/src/ast/statement.rs:4-173`. -/
inductive Stmt where
  | empty (loc : Loc)
  | debugger (loc : Loc)
  | expr (loc : Loc) (e : Expr)
  | decl (loc : Loc) (kind : DeclKind) (declarators : List Declarator)
  | ret (loc : Loc) (value : Option Expr)
  | brk (loc : Loc) (label : Option Ident)
  | cont (loc : Loc) (label : Option Ident)
  | throw (loc : Loc) (value : Expr)
  | ifS (loc : Loc) (test : Expr) (consequent : Stmt) (alternate : Option Stmt)
  | whileS (loc : Loc) (test : Expr) (body : Stmt)
  | doS (loc : Loc) (body : Stmt) (test : Expr)
  | forS (loc : Loc) (init : Option ForInit) (test update : Option Expr) (body : Stmt)
  | forIn (loc : Loc) (left : ForInit) (right : Expr) (body : Stmt)
  | forOf (loc : Loc) (left : ForInit) (right : Expr) (body : Stmt)
  | tryS (loc : Loc) (block : Block) (handler : Option Catch) (finalizer : Option Block)
  | block (loc : Loc) (body : List Stmt)
  | labeled (loc : Loc) (label : Bytes) (body : Stmt)
  | function (loc : Loc) (f : Func)
  | class (loc : Loc) (c : Class)
  | switch (loc : Loc) (discriminant : Expr) (bloc : Loc) (cases : List SwitchCase)
  | import (loc : Loc) (specifiers : List ImportSpec) (source : Bytes)

/-- `Declarator`, `ratel/src/ast/statement.rs:4-8`. -/
inductive Declarator where
  | mk (loc : Loc) (id : Pattern) (init : Option Expr)

/-- `ForInit`, `ratel/src/ast/statement.rs:57-61`. -/
inductive ForInit where
  | decl (loc : Loc) (kind : DeclKind) (declarators : List Declarator)
  | expr (loc : Loc) (e : Expr)

/-- `SwitchCase`, `ratel/src/ast/statement.rs:108-112`. -/
inductive SwitchCase where
  | mk (loc : Loc) (test : Option Expr) (consequent : List Stmt)

/-- `CatchClause`, `ratel/src/ast/statement.rs:85-89`. -/
inductive Catch where
  | mk (loc : Loc) (param : Pattern) (body : Block)

end

/-! Spans and parts of nodes: the fields `start` and `end` that every `Node` has through `Loc`,
`ratel/src/ast/mod.rs:67-72`, and fields of blocks, functions and classes. -/

/-- `Loc` of an expression node. -/
def Expr.loc : Expr → Loc
  | .void l | .this l | .ident l _ | .lit l _ | .seq l _ | .array l _ | .member l _ _
  | .cmember l _ _ | .metaProp l _ _ | .call l _ _ | .binary l _ _ _ | .prefix l _ _
  | .postfix l _ _ | .cond l _ _ _ | .template l _ _ | .tagged l _ _ _ _ | .spread l _
  | .arrowE l _ _ | .arrowB l _ _ | .object l _ | .function l _ | .class l _ => l

/-- `Loc` of a pattern node. -/
def Pattern.loc : Pattern → Loc
  | .void l | .ident l _ | .object l _ | .array l _ | .rest l _ | .assign l _ _ => l

/-- `Loc` of a statement node. -/
def Stmt.loc : Stmt → Loc
  | .empty l | .debugger l | .expr l _ | .decl l _ _ | .ret l _ | .brk l _ | .cont l _ | .throw l _
  | .ifS l _ _ _ | .whileS l _ _ | .doS l _ _ | .forS l _ _ _ _ | .forIn l _ _ _ | .forOf l _ _ _
  | .tryS l _ _ _ | .block l _ | .labeled l _ _ | .function l _ | .class l _ | .switch l _ _ _
  | .import l _ _ => l

/-- `Loc` of a block node. -/
def Block.loc : Block → Loc
  | .mk l _ => l

/-- Statements of a block. -/
def Block.body : Block → List Stmt
  | .mk _ b => b

/-- `function.body.end` -/
def Func.bodyStop : Func → Nat
  | .mk _ _ _ b => b.loc.stop

/-- `class.body.end` -/
def Class.bodyStop : Class → Nat
  | .mk _ _ l _ => l.stop

/-- `Loc` of a catch clause. -/
def Catch.loc : Catch → Loc
  | .mk l _ _ => l

end Ratel
