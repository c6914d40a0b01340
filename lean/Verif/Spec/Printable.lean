import Verif.Spec.Operators
import Verif.Spec.Accepted
import Verif.Spec.Reread
/-! Which trees the code generator writes so that they can be read back (C21).

`WellFormed` are the shapes and texts of trees that come from a source. `Safe` excludes, one by one, the
places where the generator leaves out parentheses, blanks or keywords that are needed. -/
namespace Ratel.Spec
open Ratel

/-! ### Operators and first tokens of the code -/

/-- How tightly the outermost operator of an expression binds: 0 comma, 1 assignment, `?:`, 5 to 15 binary
operators, 16 prefix operators, 17 everything else. -/
def strength : Expr → Nat
  | .seq .. => 0
  | .cond .. => 1
  | .binary _ op _ _ => (precedence op).getD 1
  | .prefix .. => 16
  | _ => 17

/-- How tightly an operator binds to the code generator: as in `precedence`, but `**` like `*`, and assignments, which
have no precedence there, like each other. -/
def codeOp (op : Op) : Nat :=
  match precedence op, op with
  | some p, _ => min p 14
  | none, .FatArrow => 18
  | none, .New => 17
  | none, .Increment | none, .Decrement => 16
  | none, .LogicalNot | none, .BitwiseNot | none, .Typeof | none, .Void | none, .Delete => 15
  | none, .Conditional => 4
  | none, .Spread => 1
  | none, _ => 3

/-- How tightly an expression binds to the code generator. -/
def codePower : Expr → Nat
  | .member .. | .metaProp .. | .arrowE .. | .arrowB .. => 18
  | .call .. => 17
  | .prefix .. => 15
  | .binary _ op _ _ => codeOp op
  | .postfix _ op _ => codeOp op
  | .cond .. => 4
  | .seq .. => 0
  | _ => 100

/-- The parameters of an arrow function are one name, which is written without parentheses. -/
def singleName : List Pattern → Bool
  | [.ident ..] => true
  | _ => false

/-- The code of an expression written without parentheses can be followed by operators that bind looser than
this; 18 if anything can follow. An arrow function takes everything but a comma into its body. -/
def reach : Expr → Nat
  | .seq .. => 0
  | .cond .. => 1
  | .arrowE .. => 1
  | .binary _ op _ b =>
    match precedence op with
    | some p => min (p + 1) (if codePower b < codeOp op + 1 then 18 else reach b)
    | none => 1
  | .prefix _ _ e => min 16 (reach e)
  | _ => 18

/-- The expression needs no parentheses where one of power at least `k` is expected. -/
def fits (k : Nat) (e : Expr) : Bool := k ≤ strength e && k ≤ reach e

/-- The expression needs no parentheses in front of a binary operator of power `p`. -/
def fitsLeft (p : Nat) (e : Expr) : Bool := p ≤ strength e && p < reach e

/-- The expression needs no parentheses in front of `(`, `[`, `.`, a template or a postfix operator. -/
def fitsHead (e : Expr) : Bool := strength e == 17 && reach e == 18

/-- The token of an operator. -/
def opToken : Op → Token
  | .New => .OperatorNew
  | .Increment => .OperatorIncrement
  | .Decrement => .OperatorDecrement
  | .LogicalNot => .OperatorLogicalNot
  | .BitwiseNot => .OperatorBitwiseNot
  | .Typeof => .OperatorTypeof
  | .Void => .OperatorVoid
  | .Delete => .OperatorDelete
  | .Addition => .OperatorAddition
  | .Subtraction => .OperatorSubtraction
  | _ => .Comma

/-- The first token of the code of an expression. -/
def firstToken : Expr → Token
  | .void _ => .Comma
  | .this _ => .This
  | .ident .. => .Identifier
  | .lit _ .Undefined => .LiteralUndefined
  | .lit _ .Null => .LiteralNull
  | .lit _ .True => .LiteralTrue
  | .lit _ .False => .LiteralFalse
  | .lit _ (.Number _) => .LiteralNumber
  | .lit _ (.Binary _) => .LiteralBinary
  | .lit _ (.String _) => .LiteralString
  | .lit _ (.RegEx _) => .OperatorDivision
  | .seq _ (e :: _) => firstToken e
  | .seq _ [] => .Comma
  | .array .. => .BracketOpen
  | .member _ o _ => if codePower o < 19 then .ParenOpen else firstToken o
  | .cmember _ o _ => if codePower o < 19 then .ParenOpen else firstToken o
  | .metaProp .. => .OperatorNew
  | .call _ c _ => firstToken c
  | .binary _ op a _ => if codePower a < codeOp op then .ParenOpen else firstToken a
  | .prefix _ op _ => opToken op
  | .postfix _ _ e => firstToken e
  | .cond _ t _ _ => firstToken t
  | .template _ es _ => if es.isEmpty then .TemplateClosed else .TemplateOpen
  | .tagged _ t _ _ _ => firstToken t
  | .spread .. => .OperatorSpread
  | .arrowE _ ps _ => if singleName ps then .Identifier else .ParenOpen
  | .arrowB _ ps _ => if singleName ps then .Identifier else .ParenOpen
  | .object .. => .BraceOpen
  | .function .. => .Function
  | .class .. => .Class

/-- The operator and the first token of its operand run together: `+ +`, `- -`, `/ /re/`. -/
def glues (op : Op) (t : Token) : Bool :=
  match op with
  | .Addition => t == .OperatorAddition || t == .OperatorIncrement
  | .Subtraction => t == .OperatorSubtraction || t == .OperatorDecrement
  | .Division => t == .OperatorDivision
  | _ => false

/-- The generator writes a blank between the operator and its right operand even in minified code. -/
def blankAfter (op : Op) (b : Expr) : Bool :=
  match op, b with
  | .In, _ | .Instanceof, _ | .New, _ | .Typeof, _ | .Void, _ | .Delete, _ => true
  | .Addition, .prefix _ o _ | .Increment, .prefix _ o _ => o = .Addition || o = .Increment
  | .Subtraction, .prefix _ o _ | .Decrement, .prefix _ o _ => o = .Subtraction || o = .Decrement
  | _, _ => false

/-- The generator writes the expression in parentheses where it is a statement. -/
def wrapped : Expr → Bool
  | .object .. | .function .. | .class .. => true
  | _ => false

/-! ### Texts -/

/-- `v` is a word, with the token `t`. -/
def Word [Unicode] (t : Token) (v : Bytes) : Prop :=
  (∃ c w, v = c :: w ∧ wordStart c = true ∧ (∀ b ∈ w, wordByte b = true) ∧ wordToken v = t) ∨
  (t = .Identifier ∧ ∃ c w, v = c :: w ∧ 128 ≤ c ∧ (∀ b ∈ w, wordByte b = true) ∧ AlphanumericFirst v true)

/-- What may stand after a dot. -/
def PropertyWord (v : Bytes) : Prop := ∃ c w, v = c :: w ∧ wordStart c = true ∧ ∀ b ∈ w, wordByte b = true

def BinaryText (v : Bytes) : Prop :=
  ∃ x ds, v = #b'0' :: x :: ds ∧ (x = #b'b' ∨ x = #b'B') ∧ ∀ b ∈ ds, isBinaryDigit b = true

def StringText (v : Bytes) : Prop := ∃ q s, v = q :: s ++ [q] ∧ (q = #b'"' ∨ q = #b'\'') ∧ StrBody q s

def RegexText (v : Bytes) : Prop :=
  ∃ c p f, v = #b'/' :: c :: p ++ #b'/' :: f ∧ c ∉ bs!"=/*" ∧ RegexScan false (c :: p) false ∧ ∀ b ∈ f, isFlag b = true

def LiteralText : Literal → Prop
  | .Number v => ∃ r, Number v r
  | .Binary v => BinaryText v
  | .String v => StringText v
  | .RegEx v => RegexText v
  | _ => True

/-- The exponent has no digits: `1e`. -/
def bareExponent (v : Bytes) : Bool :=
  (v.getLast? == some #b'e' || v.getLast? == some #b'E') && !(v[1]? == some #b'x' || v[1]? == some #b'X')

/-! ### Shapes -/

/-- Neither a hole nor `...e`. -/
def proper : Expr → Bool
  | .void _ | .spread .. => false
  | _ => true

/-- A name, an array pattern or an object pattern. -/
def plain : Pattern → Bool
  | .ident .. | .object .. | .array .. => true
  | _ => false

/-- A parameter of an arrow function: a name, possibly with a default value. -/
def arrowParam : Pattern → Bool
  | .ident .. => true
  | .assign _ (.ident ..) _ => true
  | _ => false

def isVoid : Expr → Bool
  | .void _ => true
  | _ => false

def isHole : Pattern → Bool
  | .void _ => true
  | _ => false

def NameText [Unicode] : Name → Prop
  | .empty => True
  | .optional none => True
  | .optional (some n) => Word .Identifier n.name
  | .mandatory n => Word .Identifier n.name

/-- A word that may be a property name or the name of a class member. -/
def KeyWord [Unicode] (v : Bytes) : Prop := ∃ t, Word t v ∧ t.isWord = true

/-- A key of an object: a word, a string or a number; or `[e]`. -/
def ObjectKey [Unicode] : PropKey → Prop
  | .computed _ e => proper e = true
  | .literal _ v => KeyWord v ∨ StringText v ∨ ∃ r, Number v r
  | .binary _ v => BinaryText v

/-- A key of a class member: no strings. -/
def MemberKey [Unicode] : PropKey → Prop
  | .computed _ e => proper e = true
  | .literal _ v => KeyWord v ∨ ∃ r, Number v r
  | .binary _ v => BinaryText v

/-- The kind of a method: getters and setters have words as names; a `constructor` that is not static is
one; the word `static` is the name of a method only in static methods. -/
def MethodKindOk [Unicode] (isStatic : Bool) (k : PropKey) : MethodKind → Prop
  | .Get | .Set => ∃ l v, k = .literal l v ∧ KeyWord v
  | .Constructor => isStatic = false ∧ ∃ l, k = .literal l bs!"constructor"
  | .Method => ∀ l v, k = .literal l v → isStatic = false → v ≠ bs!"constructor" ∧ v ≠ bs!"static"

def isIn : Expr → Bool
  | .binary _ .In _ _ => true
  | _ => false

def hasInit : Declarator → Bool
  | .mk _ _ (some _) => true
  | _ => false

def SpecText [Unicode] : ImportSpec → Prop
  | .named _ i l => Word .Identifier i.name ∧ Word .Identifier l.name
  | .default _ l => Word .Identifier l.name
  | .namespace _ l => Word .Identifier l.name

/-- The names of an import in braces, or one `* as name`. -/
def ImportRest (ss : List ImportSpec) : Prop :=
  (ss ≠ [] ∧ ∀ s ∈ ss, isNamed s = true) ∨ ∃ l n, ss = [.namespace l n]

/-- Nothing, a default name, the names in braces or `* as name`, or a default name and one of those. -/
inductive ImportShape : List ImportSpec → Prop where
  | none : ImportShape []
  | one {l : Loc} {n : Ident} : ImportShape [.default l n]
  | rest {ss : List ImportSpec} (h : ImportRest ss) : ImportShape ss
  | both {l : Loc} {n : Ident} {ss : List ImportSpec} (h : ImportRest ss) : ImportShape (.default l n :: ss)

/-- The statement ends with an `if` without `else`. -/
def endsInIf : Stmt → Bool
  | .ifS _ _ _ none => true
  | .ifS _ _ _ (some s) => endsInIf s
  | .whileS _ _ s | .forS _ _ _ _ s | .forIn _ _ _ s | .forOf _ _ _ s | .labeled _ _ s => endsInIf s
  | _ => false

/-- Shapes and texts of nodes that come from a source. -/
def WellFormed [Unicode] : Node → Prop
  | .expr (.ident _ n) => Word .Identifier n ∨ n = bs!"import"
  | .expr (.lit _ v) => LiteralText v
  | .expr (.seq _ es) => 2 ≤ es.length ∧ ∀ e ∈ es, proper e = true
  | .expr (.array _ es) => ∀ l, es ≠ [.void l]
  | .expr (.member _ o p) => proper o = true ∧ PropertyWord p.name
  | .expr (.cmember _ o p) => proper o = true ∧ proper p = true
  | .expr (.metaProp _ m p) => m.name = bs!"new" ∧ p.name = bs!"target"
  | .expr (.call _ c args) => proper c = true ∧ ∀ a ∈ args, isVoid a = false
  | .expr (.binary _ op a b) => proper a = true ∧ proper b = true ∧
      ((precedence op).isSome = true ∨ assignOperator op = true ∧ target a = true)
  | .expr (.prefix _ op e) => proper e = true ∧ (unaryOperator op = true ∨ op = .New)
  | .expr (.postfix _ op e) => (op = .Increment ∨ op = .Decrement) ∧ target e = true
  | .expr (.cond _ t c a) => proper t = true ∧ proper c = true ∧ proper a = true
  | .expr (.template _ es qs) => (∀ e ∈ es, proper e = true) ∧ qs.length = es.length + 1 ∧ ∀ q ∈ qs, TplBody q.name
  | .expr (.tagged _ t _ es qs) => proper t = true ∧ (∀ e ∈ es, proper e = true) ∧ qs.length = es.length + 1 ∧
      ∀ q ∈ qs, TplBody q.name
  | .expr (.spread _ e) => proper e = true
  | .expr (.arrowE _ ps b) => (∀ p ∈ ps, arrowParam p = true) ∧ proper b = true
  | .expr (.arrowB _ ps _) => ∀ p ∈ ps, arrowParam p = true
  | .expr (.function _ f) => Name.isOptional (funcName f) = true
  | .expr (.class _ c) => Name.isOptional (className c) = true
  | .expr (.void _) | .expr (.this _) | .expr (.object ..) => True
  | .key _ => True
  | .prop (.shorthand _ n) => KeyWord n
  | .prop (.literal _ k v) => ObjectKey k ∧ proper v = true
  | .prop (.method _ k _ f) => ObjectKey k ∧ funcName f = .empty
  | .prop (.spread _ e) => proper e = true
  | .pat (.void _) | .pat (.object ..) => True
  | .pat (.ident _ n) => Word .Identifier n
  | .pat (.array _ ps) => (∀ p ∈ ps, isRest p = false) ∧ ∀ l, ps ≠ [.void l]
  | .pat (.rest _ a) => Word .Identifier a.name
  | .pat (.assign _ p e) => plain p = true ∧ proper e = true
  | .func (.mk n _ ps _) => NameText n ∧ (∀ p ∈ ps, isHole p = false) ∧ ∀ p ∈ ps.dropLast, isRest p = false
  | .cls (.mk n s _ _) => NameText n ∧ ∀ e ∈ s, proper e = true
  | .member (.error _) => False
  | .member (.method _ s k kd _ f) => MemberKey k ∧ MethodKindOk s k kd ∧ funcName f = .empty
  | .member (.literal _ _ k v) => MemberKey k ∧ proper v = true
  | .block _ => True
  | .stmt (.empty _) | .stmt (.debugger _) => True
  | .stmt (.expr _ e) => proper e = true
  | .stmt (.decl _ _ ds) => ds ≠ []
  | .stmt (.ret _ v) => ∀ e ∈ v, proper e = true
  | .stmt (.brk _ l) => ∀ n ∈ l, Word .Identifier n.name
  | .stmt (.cont _ l) => ∀ n ∈ l, Word .Identifier n.name
  | .stmt (.throw _ e) => proper e = true
  | .stmt (.ifS _ t c a) => proper t = true ∧ (a ≠ none → endsInIf c = false)
  | .stmt (.whileS _ t _) => proper t = true
  | .stmt (.doS _ _ t) => proper t = true
  | .stmt (.forS _ i t u _) => (∀ l e, i = some (.expr l e) → isIn e = false) ∧ (∀ e ∈ t, proper e = true) ∧
      ∀ e ∈ u, proper e = true
  | .stmt (.forIn _ i r _) => (∀ l k ds, i = .decl l k ds → ∀ d ∈ ds.getLast?, hasInit d = false) ∧ proper r = true
  | .stmt (.forOf _ i r _) => (∀ l e, i = .expr l e → isIn e = false) ∧ proper r = true
  | .stmt (.tryS _ _ h f) => h = none → f ≠ none
  | .stmt (.block _ _) => True
  | .stmt (.labeled _ l _) => Word .Identifier l
  | .stmt (.function _ f) => Name.isMandatory (funcName f) = true
  | .stmt (.class _ c) => Name.isMandatory (className c) = true
  | .stmt (.switch _ d _ _) => proper d = true
  | .stmt (.import _ ss src) => ImportShape ss ∧ (∀ s ∈ ss, SpecText s) ∧ ∃ q, (q = #b'"' ∨ q = #b'\'') ∧ StrBody q src
  | .declarator (.mk _ p i) => plain p = true ∧ ∀ e ∈ i, proper e = true
  | .forInit (.decl _ _ ds) => ds ≠ []
  | .forInit (.expr _ e) => proper e = true
  | .case (.mk _ t _) => ∀ e ∈ t, proper e = true
  | .catch (.mk _ p _) => plain p = true
  | .switchBody _ => True

/-! ### What the generator gets wrong -/

/-- The condition excludes what the code generator writes wrongly, but not generator functions; `minify` tells which of the
two generators is used. -/
def Legible (minify : Bool) : Node → Prop
  -- `import(x)` is read as a call only at the beginning of a statement
  | .expr (.ident _ n) => n ≠ bs!"import"
  -- `1e` in front of `+`
  | .expr (.lit _ (.Number v)) => bareExponent v = false
  | .expr (.lit _ _) => True
  -- No parentheses are written around the parts
  | .expr (.seq _ es) => ∀ e ∈ es, fits 1 e = true
  | .expr (.array _ es) => ∀ e ∈ es, fits 1 e = true
  | .expr (.call _ c args) => fitsHead c = true ∧ ∀ e ∈ args, fits 1 e = true
  | .expr (.cond _ t c a) => fitsLeft 2 t = true ∧ fits 1 c = true ∧ fits 1 a = true
  | .expr (.tagged _ t _ _ _) => fitsHead t = true
  | .expr (.spread _ e) => fits 1 e = true
  -- `10.x`
  | .expr (.member _ (.lit _ (.Number v)) _) => v.all isDigit = false
  -- Parentheses are written by binding power; in minified code operators run together
  | .expr (.binary _ op a b) => ∀ p, precedence op = some p →
      (codePower a < codeOp op ∨ fitsLeft p a = true) ∧
      (codePower b < codeOp op + 1 ∨ p + 1 ≤ strength b ∧
        (minify = true → glues op (firstToken b) = true → blankAfter op b = true))
  | .expr (.prefix _ op e) => 16 ≤ strength e ∧ glues op (firstToken e) = false
  -- `x => ({})`
  | .expr (.arrowE _ _ b) => fits 1 b = true ∧ firstToken b ≠ .BraceOpen
  | .expr _ => True
  | .key _ => True
  | .prop (.literal _ _ v) => fits 1 v = true
  | .prop (.spread _ e) => fits 1 e = true
  | .prop _ => True
  | .pat (.assign _ _ e) => fits 1 e = true
  | .pat _ => True
  | .cls (.mk _ s _ _) => ∀ e ∈ s, fits 1 e = true
  -- `get static = 1` is the same as `static = 1` to the generator
  | .member (.literal _ s k v) => fits 1 v = true ∧ (s = false → ∀ l, k ≠ .literal l bs!"static")
  | .member _ => True
  | .block _ => True
  -- Nothing is written for an empty statement, no semicolon after `debugger`
  | .stmt (.debugger _) => False
  | .stmt (.ifS _ _ c a) => isEmptyStmt c = false ∧ ∀ s ∈ a, isEmptyStmt s = false
  | .stmt (.whileS _ _ b) => isEmptyStmt b = false
  | .stmt (.doS _ b _) => isEmptyStmt b = false
  | .stmt (.forS _ _ _ _ b) => isEmptyStmt b = false
  | .stmt (.forIn _ i r b) => isEmptyStmt b = false ∧ (∀ l e, i = .expr l e → fitsLeft 11 e = true ∧ 12 ≤ strength r)
  | .stmt (.forOf _ _ _ b) => isEmptyStmt b = false
  | .stmt (.labeled _ _ b) => isEmptyStmt b = false
  -- A statement must not begin with `{`, `function` or `class`
  | .stmt (.expr _ e) => wrapped e = false → firstToken e ∉ [Token.BraceOpen, .Function, .Class]
  -- The word `finally` is not written
  | .stmt (.tryS _ _ _ f) => f = none
  -- The quotes are replaced by `'`
  | .stmt (.import _ _ src) => StrBody #b'\'' src
  | .stmt _ => True
  | .declarator (.mk _ _ i) => ∀ e ∈ i, fits 1 e = true
  | _ => True

/-- Not a generator function: its `*` is not written. -/
def Ordinary : Node → Prop
  | .func (.mk _ generator _ _) => generator = false
  | _ => True

/-- Nothing that the code generator writes wrongly. -/
def Safe (minify : Bool) (n : Node) : Prop := Legible minify n ∧ Ordinary n

/-- Not an empty statement. -/
def NotEmpty : Node → Prop
  | .stmt (.empty _) => False
  | _ => True

/-- The code generated for the node can be read, with generators as ordinary functions. -/
def Printable [Unicode] (minify : Bool) (n : Node) : Prop := WellFormed n ∧ Legible minify n

end Ratel.Spec
