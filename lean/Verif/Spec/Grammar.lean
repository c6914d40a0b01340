import Verif.Spec.Bare
import Verif.Lexer
/-! The grammar of the language accepted by `parse`, over the tokens of the source.

`G i x j` says: the items `i` begin with the phrase `x`, and the items `j` are what follows it. A phrase
carries its tree, without positions. Nothing here refers to the parser. -/
namespace Ratel.Spec
open Ratel

/-! ### Items -/

/-- One item of the source: a token with its text (for `.name` the name, for the first part of a
template the text between its delimiters) and whether a semicolon may be inserted before it; a regular
expression literal; or the `}` that ends an expression inside a template, together with the template
text up to the closing back quote (`closed`) or the next `${`. -/
inductive Item where
  | tok (t : Token) (text : Bytes) (asi : Asi)
  | regex (text : Bytes) (asi : Asi)
  | resume (closed : Bool) (text : Bytes)
deriving DecidableEq, Repr

/-- The token an item starts with. -/
def Item.token : Item → Token
  | .tok t _ _ => t
  | .regex _ _ => .OperatorDivision
  | .resume _ _ => .BraceClose

/-- The first token of the items, the end of the program if there are none. -/
def look : List Item → Token
  | [] => .EndOfProgram
  | x :: _ => x.token

/-- May, must or can no semicolon be put in front of the items. -/
def semicolon : List Item → Asi
  | [] => .ImplicitSemicolon
  | .tok _ _ a :: _ => a
  | .regex _ a :: _ => a
  | .resume _ _ :: _ => .ImplicitSemicolon

/-- The first item is the plain token `t`, the others are `j`. -/
def Tk (t : Token) (i j : List Item) : Prop := ∃ w a, i = .tok t w a :: j

/-- The first item is the plain token `t` with the text `w`, the others are `j`. -/
def Wd (t : Token) (w : Bytes) (i j : List Item) : Prop := ∃ a, i = .tok t w a :: j

/-- The end of a statement: a semicolon, or nothing where one may be inserted. -/
inductive Semi : List Item → List Item → Prop where
  | written {w : Bytes} {j : List Item} : Semi (.tok .Semicolon w .ExplicitSemicolon :: j) j
  | inserted {j : List Item} (h : semicolon j = .ImplicitSemicolon) : Semi j j

/-- A semicolon that may be left out anywhere (after class members). -/
inductive OptSemi : List Item → List Item → Prop where
  | written {i j : List Item} (h : Tk .Semicolon i j) : OptSemi i j
  | absent {j : List Item} (h : look j ≠ .Semicolon) : OptSemi j j

/-! ### Operators -/

/-- Binary operators and their powers. (`**` is stronger than `*`, and like all others associates to the
left.) -/
def binaryOp : Token → Option (Op × Nat)
  | .OperatorLogicalOr => some (.LogicalOr, 5)
  | .OperatorLogicalAnd => some (.LogicalAnd, 6)
  | .OperatorBitwiseOr => some (.BitwiseOr, 7)
  | .OperatorBitwiseXor => some (.BitwiseXor, 8)
  | .OperatorBitwiseAnd => some (.BitwiseAnd, 9)
  | .OperatorStrictEquality => some (.StrictEquality, 10)
  | .OperatorStrictInequality => some (.StrictInequality, 10)
  | .OperatorEquality => some (.Equality, 10)
  | .OperatorInequality => some (.Inequality, 10)
  | .OperatorLesser => some (.Lesser, 11)
  | .OperatorLesserEquals => some (.LesserEquals, 11)
  | .OperatorGreater => some (.Greater, 11)
  | .OperatorGreaterEquals => some (.GreaterEquals, 11)
  | .OperatorInstanceof => some (.Instanceof, 11)
  | .OperatorIn => some (.In, 11)
  | .OperatorBitShiftLeft => some (.BitShiftLeft, 12)
  | .OperatorBitShiftRight => some (.BitShiftRight, 12)
  | .OperatorUBitShiftRight => some (.UBitShiftRight, 12)
  | .OperatorAddition => some (.Addition, 13)
  | .OperatorSubtraction => some (.Subtraction, 13)
  | .OperatorMultiplication => some (.Multiplication, 14)
  | .OperatorDivision => some (.Division, 14)
  | .OperatorRemainder => some (.Remainder, 14)
  | .OperatorExponent => some (.Exponent, 15)
  | _ => none

def assignOp : Token → Option Op
  | .OperatorAssign => some .Assign
  | .OperatorAddAssign => some .AddAssign
  | .OperatorSubtractAssign => some .SubtractAssign
  | .OperatorExponentAssign => some .ExponentAssign
  | .OperatorMultiplyAssign => some .MultiplyAssign
  | .OperatorDivideAssign => some .DivideAssign
  | .OperatorRemainderAssign => some .RemainderAssign
  | .OperatorBSLAssign => some .BSLAssign
  | .OperatorBSRAssign => some .BSRAssign
  | .OperatorUBSRAssign => some .UBSRAssign
  | .OperatorBitAndAssign => some .BitAndAssign
  | .OperatorBitXorAssign => some .BitXorAssign
  | .OperatorBitOrAssign => some .BitOrAssign
  | _ => none

def prefixOp : Token → Option Op
  | .OperatorLogicalNot => some .LogicalNot
  | .OperatorBitwiseNot => some .BitwiseNot
  | .OperatorTypeof => some .Typeof
  | .OperatorVoid => some .Void
  | .OperatorDelete => some .Delete
  | .OperatorAddition => some .Addition
  | .OperatorSubtraction => some .Subtraction
  | .OperatorIncrement => some .Increment
  | .OperatorDecrement => some .Decrement
  | _ => none

def postfixOp : Token → Option Op
  | .OperatorIncrement => some .Increment
  | .OperatorDecrement => some .Decrement
  | _ => none

/-- What may stand left of an assignment operator or of a postfix `++`. -/
def target : Expr → Bool
  | .ident .. | .member .. | .cmember .. | .object .. | .array .. => true
  | _ => false

/-- Does the next item continue an expression of power at least `k`: calls, members, templates and `=>`
always; `++` and `--` unless a semicolon may be inserted; the comma in expressions of power 0;
assignments and `?` up to power 1; binary operators of power at least `k`. -/
def continues (k : Nat) (j : List Item) : Bool :=
  match look j with
  | .ParenOpen | .BracketOpen | .Accessor | .TemplateOpen | .TemplateClosed | .OperatorFatArrow => true
  | .OperatorIncrement | .OperatorDecrement => semicolon j != .ImplicitSemicolon
  | .Comma => k == 0
  | .OperatorConditional => k ≤ 1
  | t => ((assignOp t).isSome && k ≤ 1) ||
    (match binaryOp t with | some (_, p) => k ≤ p | none => false)

/-! ### Parts -/

/-- The literal a token stands for. -/
def literalOf : Token → Bytes → Option Literal
  | .LiteralTrue, _ => some .True
  | .LiteralFalse, _ => some .False
  | .LiteralNull, _ => some .Null
  | .LiteralUndefined, _ => some .Undefined
  | .LiteralString, w => some (.String w)
  | .LiteralNumber, w => some (.Number w)
  | .LiteralBinary, w => some (.Binary w)
  | _, _ => none

/-- An expression left of `=>` as a parameter: a name, possibly with a default value. -/
def paramOf : Expr → Option Pattern
  | .ident l n => some (.ident l n)
  | .binary l .Assign a b => (paramOf a).map fun p => .assign l p b
  | _ => none

/-- An expression left of `=>` as a list of parameters. -/
def paramsOf : Expr → Option (List Pattern)
  | .seq _ es => es.mapM paramOf
  | e => (paramOf e).map fun p => [p]

/-- Must a function have a name. -/
inductive Naming where
  | never | optional | always

inductive NameAt : Naming → List Item → Name → List Item → Prop where
  | never {j : List Item} : NameAt .never j .empty j
  | given {i j : List Item} {w : Bytes} (h : Wd .Identifier w i j) : NameAt .optional i (.optional (some ⟨z, w⟩)) j
  | missing {j : List Item} (h : look j ≠ .Identifier) : NameAt .optional j (.optional none) j
  | always {i j : List Item} {w : Bytes} (h : Wd .Identifier w i j) : NameAt .always i (.mandatory ⟨z, w⟩) j

/-- The `*` of a generator. -/
inductive StarAt : List Item → Bool → List Item → Prop where
  | yes {i j : List Item} (h : Tk .OperatorMultiplication i j) : StarAt i true j
  | no {j : List Item} (h : look j ≠ .OperatorMultiplication) : StarAt j false j

/-- The `static` of a class member. -/
inductive StaticAt : List Item → Bool → List Item → Prop where
  | yes {i j : List Item} (h : Tk .Static i j) : StaticAt i true j
  | no {j : List Item} (h : look j ≠ .Static) : StaticAt j false j

/-- The text between the quotes of a string literal. -/
def unquoted (w : Bytes) : Bytes := (w.drop 1).dropLast

def declKindOf : Token → Option DeclKind
  | .DeclarationVar => some .Var
  | .DeclarationLet => some .Let
  | .DeclarationConst => some .Const
  | _ => none

/-- `a`, `a as b`, one of the names in the braces of an import. -/
inductive ImportName : List Item → ImportSpec → List Item → Prop where
  | plain {i j : List Item} {w : Bytes} (h : Wd .Identifier w i j) (h' : ∀ n, ¬ Wd .Identifier bs!"as" j n) :
      ImportName i (.named z ⟨z, w⟩ ⟨z, w⟩) j
  | renamed {i m n j : List Item} {w w' : Bytes} (h : Wd .Identifier w i m) (h1 : Wd .Identifier bs!"as" m n)
      (h2 : Wd .Identifier w' n j) : ImportName i (.named z ⟨z, w⟩ ⟨z, w'⟩) j

/-- The inside of the braces of an import and the closing brace. -/
inductive ImportNames : List Item → List ImportSpec → List Item → Prop where
  | last {i m j : List Item} {s : ImportSpec} (h : ImportName i s m) (h1 : Tk .BraceClose m j) : ImportNames i [s] j
  | more {i m n j : List Item} {s : ImportSpec} {ss : List ImportSpec} (h : ImportName i s m) (h1 : Tk .Comma m n)
      (h2 : ImportNames n ss j) : ImportNames i (s :: ss) j

/-- `{ a, b as c }` or `* as d`. -/
inductive ImportGroup : List Item → List ImportSpec → List Item → Prop where
  | names {i m j : List Item} {ss : List ImportSpec} (h : Tk .BraceOpen i m) (h1 : ImportNames m ss j) : ImportGroup i ss j
  | all {i m n j : List Item} {w : Bytes} (h : Tk .OperatorMultiplication i m) (h1 : Wd .Identifier bs!"as" m n)
      (h2 : Wd .Identifier w n j) : ImportGroup i [.namespace z ⟨z, w⟩] j

/-- What is imported. -/
inductive ImportHead : List Item → List ImportSpec → List Item → Prop where
  | one {i j : List Item} {w : Bytes} (h : Wd .Identifier w i j) (h' : look j ≠ .Comma) :
      ImportHead i [.default z ⟨z, w⟩] j
  | both {i m n j : List Item} {w : Bytes} {ss : List ImportSpec} (h : Wd .Identifier w i m) (h1 : Tk .Comma m n)
      (h2 : ImportGroup n ss j) : ImportHead i (.default z ⟨z, w⟩ :: ss) j
  | group {i j : List Item} {ss : List ImportSpec} (h : ImportGroup i ss j) : ImportHead i ss j

/-! ### Phrases -/

/-- The phrases of the grammar with their trees.

`expr k e`: an expression whose outermost operator has power at least `k`; `whole k e` the same, and what
follows does not continue it. Powers: 0 comma, 1 assignment, `?:`, 5 to 15 binary operators, 16 prefix
operators and `new`, 17 everything else. -/
inductive Phrase where
  | expr (k : Nat) (e : Expr)
  | whole (k : Nat) (e : Expr)
  | commaTail (es : List Expr)
  | arg (e : Expr)
  | args (es : List Expr)
  | elem (e : Expr)
  | elems (es : List Expr)
  | template (es : List Expr) (qs : List Ident)
  | templateTail (es : List Expr) (qs : List Ident)
  | prop (p : Property)
  | props (ps : List Property)
  | propValue (k : PropKey) (p : Property)
  | pat (p : Pattern)
  | param (p : Pattern)
  | params (ps : List Pattern)
  | patElem (p : Pattern)
  | patElems (ps : List Pattern)
  | func (k : Naming) (f : Func)
  | cls (k : Naming) (c : Class)
  | member (m : ClassMember)
  | memberValue (s : Bool) (kd : MethodKind) (k : PropKey) (m : ClassMember)
  | membersTail (ms : List ClassMember)
  | block (b : Block)
  | stmtsTail (ss : List Stmt)
  | stmt (s : Stmt)
  | declarator (d : Declarator)
  | declarators (ds : List Declarator)
  | optExpr (t : Token) (e : Option Expr)
  | forInit (i : ForInit)
  | switchCase (c : SwitchCase)
  | cases (cs : List SwitchCase)
  | caseBody (ss : List Stmt)
  | catch (c : Catch)
  | program (ss : List Stmt)

/-- `G i x j`: the items `i` begin with the phrase `x` and `j` follows. -/
inductive G : List Item → Phrase → List Item → Prop where
  -- Expressions
  | whole {i j k e} (h : G i (.expr k e) j) (h' : continues k j = false) : G i (.whole k e) j
  | ident {i j k w} (hk : k ≤ 17) (h : Wd .Identifier w i j) : G i (.expr k (.ident z w)) j
  | this {i j k} (hk : k ≤ 17) (h : Tk .This i j) : G i (.expr k (.this z)) j
  | lit {i j k t w v} (hk : k ≤ 17) (h : Wd t w i j) (hv : literalOf t w = some v) : G i (.expr k (.lit z v)) j
  | regex {j k w a} (hk : k ≤ 17) : G (.regex w a :: j) (.expr k (.lit z (.RegEx w))) j
  | array {i m n j k es} (hk : k ≤ 17) (h : Tk .BracketOpen i m) (h0 : look m ≠ .BracketClose) (h1 : G m (.elems es) n)
      (h2 : Tk .BracketClose n j) : G i (.expr k (.array z es)) j
  | emptyArray {i m j k} (hk : k ≤ 17) (h : Tk .BracketOpen i m)
      (h2 : Tk .BracketClose m j) : G i (.expr k (.array z [])) j
  | object {i m n j k ps} (hk : k ≤ 17) (h : Tk .BraceOpen i m) (h1 : G m (.props ps) n)
      (h2 : Tk .BraceClose n j) : G i (.expr k (.object z ps)) j
  | function {i m j k f} (hk : k ≤ 17) (h : Tk .Function i m) (h1 : G m (.func .optional f) j) :
      G i (.expr k (.function z f)) j
  | class {i m j k c} (hk : k ≤ 17) (h : Tk .Class i m) (h1 : G m (.cls .optional c) j) :
      G i (.expr k (.class z c)) j
  | template {i j k es qs} (hk : k ≤ 17) (h : G i (.template es qs) j) : G i (.expr k (.template z es qs)) j
  | paren {i m n j k e} (hk : k ≤ 17) (h : Tk .ParenOpen i m) (h1 : G m (.whole 0 e) n) (h2 : Tk .ParenClose n j) :
      G i (.expr k e) j
  | newTarget {i m j k} (hk : k ≤ 17) (h : Tk .OperatorNew i m) (h1 : Wd .Accessor bs!"target" m j) :
      G i (.expr k (.metaProp z ⟨z, bs!"new"⟩ ⟨z, bs!"target"⟩)) j
  | member {i m j k e w} (hk : k ≤ 17) (h : G i (.expr 17 e) m) (h1 : Wd .Accessor w m j) :
      G i (.expr k (.member z e ⟨z, w⟩)) j
  | index {i m n o j k e p} (hk : k ≤ 17) (h : G i (.expr 17 e) m) (h1 : Tk .BracketOpen m n)
      (h2 : G n (.whole 0 p) o) (h3 : Tk .BracketClose o j) : G i (.expr k (.cmember z e p)) j
  | call {i m n o j k e es} (hk : k ≤ 17) (h : G i (.expr 17 e) m) (h1 : Tk .ParenOpen m n)
      (h2 : G n (.args es) o) (h3 : Tk .ParenClose o j) : G i (.expr k (.call z e es)) j
  | tagged {i m j k e es qs} (hk : k ≤ 17) (h : G i (.expr 17 e) m) (h1 : G m (.template es qs) j) :
      G i (.expr k (.tagged z e z es qs)) j
  | postfix {i j k e t w a op} (hk : k ≤ 17) (h : G i (.expr 17 e) (.tok t w a :: j)) (he : target e = true)
      (hop : postfixOp t = some op) (ha : a ≠ .ImplicitSemicolon) : G i (.expr k (.postfix z op e)) j
  | arrow {i m n j k e ps b} (hk : k ≤ 17) (h : G i (.expr 17 e) m) (hp : paramsOf e = some ps)
      (h1 : Tk .OperatorFatArrow m n) (hb : look n ≠ .BraceOpen) (h2 : G n (.whole 1 b) j) :
      G i (.expr k (.arrowE z ps b)) j
  | arrowBlock {i m n j k e ps b} (hk : k ≤ 17) (h : G i (.expr 17 e) m) (hp : paramsOf e = some ps)
      (h1 : Tk .OperatorFatArrow m n) (h2 : G n (.block b) j) : G i (.expr k (.arrowB z ps b)) j
  | arrow0 {i m n o j k b} (hk : k ≤ 17) (h : Tk .ParenOpen i m) (h0 : Tk .ParenClose m n)
      (h1 : Tk .OperatorFatArrow n o) (hb : look o ≠ .BraceOpen) (h2 : G o (.whole 1 b) j) :
      G i (.expr k (.arrowE z [] b)) j
  | arrowBlock0 {i m n o j k b} (hk : k ≤ 17) (h : Tk .ParenOpen i m) (h0 : Tk .ParenClose m n)
      (h1 : Tk .OperatorFatArrow n o) (h2 : G o (.block b) j) : G i (.expr k (.arrowB z [] b)) j
  | prefix {i m j k t op e} (hk : k ≤ 16) (h : Tk t i m) (hop : prefixOp t = some op) (h1 : G m (.whole 16 e) j) :
      G i (.expr k (.prefix z op e)) j
  | new {i m j k e} (hk : k ≤ 16) (h : Tk .OperatorNew i m) (hm : look m ≠ .Accessor) (h1 : G m (.whole 16 e) j) :
      G i (.expr k (.prefix z .New e)) j
  | binary {i m n j k t op p a b} (hop : binaryOp t = some (op, p)) (hk : k ≤ p) (h : G i (.expr p a) m)
      (h1 : Tk t m n) (h2 : G n (.whole (p + 1) b) j) : G i (.expr k (.binary z op a b)) j
  | cond {i m n o q j k a b c} (hk : k ≤ 1) (h : G i (.expr 5 a) m) (h1 : Tk .OperatorConditional m n)
      (h2 : G n (.whole 1 b) o) (h3 : Tk .Colon o q) (h4 : G q (.whole 1 c) j) : G i (.expr k (.cond z a b c)) j
  | assign {i m n j k t op a b} (hk : k ≤ 1) (h : G i (.expr 17 a) m) (ha : target a = true) (h1 : Tk t m n)
      (hop : assignOp t = some op) (h2 : G n (.whole 1 b) j) : G i (.expr k (.binary z op a b)) j
  | comma {i m n j a es} (h : G i (.expr 1 a) m) (h1 : Tk .Comma m n) (h2 : G n (.commaTail es) j) :
      G i (.expr 0 (.seq z (a :: es))) j
  | commaLast {i j e} (h : G i (.whole 1 e) j) (h' : look j ≠ .Comma) : G i (.commaTail [e]) j
  | commaMore {i m n j e es} (h : G i (.whole 1 e) m) (h1 : Tk .Comma m n) (h2 : G n (.commaTail es) j) :
      G i (.commaTail (e :: es)) j
  -- Arguments, up to the closing parenthesis: a trailing comma is allowed
  | arg {i j e} (h : G i (.whole 1 e) j) : G i (.arg e) j
  | argSpread {i m j e} (h : Tk .OperatorSpread i m) (h1 : G m (.whole 1 e) j) : G i (.arg (.spread z e)) j
  | argsNone {j} (h : look j = .ParenClose) : G j (.args []) j
  | argsLast {i j e} (h : G i (.arg e) j) (h' : look j = .ParenClose) : G i (.args [e]) j
  | argsMore {i m n j e es} (h : G i (.arg e) m) (h1 : Tk .Comma m n) (h2 : G n (.args es) j) : G i (.args (e :: es)) j
  -- Elements of a non-empty array, up to the closing bracket: elements may be missing; a trailing comma
  -- counts as one more missing element
  | elem {i j e} (h : G i (.whole 1 e) j) : G i (.elem e) j
  | elemSpread {i m j e} (h : Tk .OperatorSpread i m) (h1 : G m (.whole 1 e) j) : G i (.elem (.spread z e)) j
  | elemHole {j} (h : look j = .Comma ∨ look j = .BracketClose) : G j (.elem (.void z)) j
  | elemsLast {i j e} (h : G i (.elem e) j) (h' : look j = .BracketClose) : G i (.elems [e]) j
  | elemsMore {i m n j e es} (h : G i (.elem e) m) (h1 : Tk .Comma m n) (h2 : G n (.elems es) j) :
      G i (.elems (e :: es)) j
  -- Templates
  | templateClosed {i j w} (h : Wd .TemplateClosed w i j) : G i (.template [] [⟨z, w⟩]) j
  | templateOpen {i m n j w e es qs} (h : Wd .TemplateOpen w i m) (h1 : G m (.whole 0 e) n)
      (h2 : G n (.templateTail es qs) j) : G i (.template (e :: es) (⟨z, w⟩ :: qs)) j
  | templateEnd {j w} : G (.resume true w :: j) (.templateTail [] [⟨z, w⟩]) j
  | templateMore {m n j w e es qs} (h1 : G m (.whole 0 e) n) (h2 : G n (.templateTail es qs) j) :
      G (.resume false w :: m) (.templateTail (e :: es) (⟨z, w⟩ :: qs)) j
  -- Objects, up to the closing brace: a trailing comma is allowed
  | shorthand {i j t w} (h : Wd t w i j) (ht : t.isWord = true) (h1 : look j ≠ .Colon) (h2 : look j ≠ .ParenOpen) :
      G i (.prop (.shorthand z w)) j
  | propWord {i m j t w p} (h : Wd t w i m) (ht : t.isWord = true) (h1 : G m (.propValue (.literal z w) p) j) :
      G i (.prop p) j
  | propLiteral {i m j t w p} (h : Wd t w i m) (ht : t = .LiteralString ∨ t = .LiteralNumber)
      (h1 : G m (.propValue (.literal z w) p) j) : G i (.prop p) j
  | propBinary {i m j w p} (h : Wd .LiteralBinary w i m) (h1 : G m (.propValue (.binary z w) p) j) : G i (.prop p) j
  | propComputed {i m n o j e p} (h : Tk .BracketOpen i m) (h1 : G m (.whole 0 e) n) (h2 : Tk .BracketClose n o)
      (h3 : G o (.propValue (.computed z e) p) j) : G i (.prop p) j
  | propSpread {i m j e} (h : Tk .OperatorSpread i m) (h1 : G m (.whole 1 e) j) : G i (.prop (.spread z e)) j
  | propField {i m j k e} (h : Tk .Colon i m) (h1 : G m (.whole 1 e) j) : G i (.propValue k (.literal z k e)) j
  | propMethod {i j k f} (h : look i = .ParenOpen) (h1 : G i (.func .never f) j) :
      G i (.propValue k (.method z k z f)) j
  | propsNone {j} (h : look j = .BraceClose) : G j (.props []) j
  | propsLast {i j p} (h : G i (.prop p) j) (h' : look j = .BraceClose) : G i (.props [p]) j
  | propsMore {i m n j p ps} (h : G i (.prop p) m) (h1 : Tk .Comma m n) (h2 : G n (.props ps) j) :
      G i (.props (p :: ps)) j
  -- Patterns
  | patIdent {i j w} (h : Wd .Identifier w i j) : G i (.pat (.ident z w)) j
  | patArray {i m n j ps} (h : Tk .BracketOpen i m) (h0 : look m ≠ .BracketClose) (h1 : G m (.patElems ps) n)
      (h2 : Tk .BracketClose n j) : G i (.pat (.array z ps)) j
  | patEmptyArray {i m j} (h : Tk .BracketOpen i m) (h2 : Tk .BracketClose m j) : G i (.pat (.array z [])) j
  | patObject {i m n j ps} (h : Tk .BraceOpen i m) (h1 : G m (.props ps) n) (h2 : Tk .BraceClose n j) :
      G i (.pat (.object z ps)) j
  | param {i j p} (h : G i (.pat p) j) (h' : look j ≠ .OperatorAssign) : G i (.param p) j
  | paramDefault {i m n j p e} (h : G i (.pat p) m) (h1 : Tk .OperatorAssign m n) (h2 : G n (.whole 1 e) j) :
      G i (.param (.assign z p e)) j
  | patElem {i j p} (h : G i (.param p) j) : G i (.patElem p) j
  | patHole {j} (h : look j = .Comma ∨ look j = .BracketClose) : G j (.patElem (.void z)) j
  | patElemsLast {i j p} (h : G i (.patElem p) j) (h' : look j = .BracketClose) : G i (.patElems [p]) j
  | patElemsMore {i m n j p ps} (h : G i (.patElem p) m) (h1 : Tk .Comma m n) (h2 : G n (.patElems ps) j) :
      G i (.patElems (p :: ps)) j
  -- Functions and classes; the parameters include the closing parenthesis
  | paramsNone {i j} (h : Tk .ParenClose i j) : G i (.params []) j
  | paramsRest {i m n j w} (h : Tk .OperatorSpread i m) (h1 : Wd .Identifier w m n) (h2 : Tk .ParenClose n j) :
      G i (.params [.rest z ⟨z, w⟩]) j
  | paramsLast {i m j p} (h : G i (.param p) m) (h1 : Tk .ParenClose m j) : G i (.params [p]) j
  | paramsMore {i m n j p ps} (h : G i (.param p) m) (h1 : Tk .Comma m n) (h2 : G n (.params ps) j) :
      G i (.params (p :: ps)) j
  | func {i m n o q j nk g nm ps b} (h : StarAt i g m) (h1 : NameAt nk m nm n) (h2 : Tk .ParenOpen n o)
      (h3 : G o (.params ps) q) (h4 : G q (.block b) j) : G i (.func nk (.mk nm g ps b)) j
  | cls {i m n j nk nm ms} (h : NameAt nk i nm m) (h1 : Tk .BraceOpen m n) (h2 : G n (.membersTail ms) j)
      (h0 : ms = [] → n ≠ []) : G i (.cls nk (.mk nm none z ms)) j
  | clsExtends {i m n o q j nk nm e ms} (h : NameAt nk i nm m) (h1 : Tk .Extends m n) (h2 : G n (.whole 1 e) o)
      (h3 : Tk .BraceOpen o q) (h4 : G q (.membersTail ms) j) (h0 : ms = [] → q ≠ []) :
      G i (.cls nk (.mk nm (some e) z ms)) j
  | memberWord {i m n j s t w x} (h : StaticAt i s m) (h1 : Wd t w m n) (ht : t.isWord = true)
      (hn : (look n).isWord = false)
      (h2 : G n (.memberValue s (if s = false ∧ w = bs!"constructor" then .Constructor else .Method) (.literal z w) x) j) :
      G i (.member x) j
  | memberGet {i m n o j s t t' w x} (h : StaticAt i s m) (h1 : Wd t bs!"get" m n) (ht : t.isWord = true)
      (h2 : Wd t' w n o) (ht' : t'.isWord = true) (h3 : G o (.memberValue s .Get (.literal z w) x) j) : G i (.member x) j
  | memberSet {i m n o j s t t' w x} (h : StaticAt i s m) (h1 : Wd t bs!"set" m n) (ht : t.isWord = true)
      (h2 : Wd t' w n o) (ht' : t'.isWord = true) (h3 : G o (.memberValue s .Set (.literal z w) x) j) : G i (.member x) j
  | memberNumber {i m n j s w x} (h : StaticAt i s m) (h1 : Wd .LiteralNumber w m n)
      (h2 : G n (.memberValue s .Method (.literal z w) x) j) : G i (.member x) j
  | memberBinary {i m n j s w x} (h : StaticAt i s m) (h1 : Wd .LiteralBinary w m n)
      (h2 : G n (.memberValue s .Method (.binary z w) x) j) : G i (.member x) j
  | memberComputed {i m n o q j s e x} (h : StaticAt i s m) (h1 : Tk .BracketOpen m n) (h2 : G n (.whole 0 e) o)
      (h3 : Tk .BracketClose o q) (h4 : G q (.memberValue s .Method (.computed z e) x) j) : G i (.member x) j
  | memberMethod {i m j s kd k f} (h : look i = .ParenOpen) (h1 : G i (.func .never f) m) (h2 : OptSemi m j) :
      G i (.memberValue s kd k (.method z s k kd z f)) j
  | memberField {i m n j s kd k e} (h : Tk .OperatorAssign i m) (h1 : G m (.whole 1 e) n) (h2 : OptSemi n j) :
      G i (.memberValue s kd k (.literal z s k e)) j
  | membersClose {i j} (h : Tk .BraceClose i j) : G i (.membersTail []) j
  | membersEnd : G [] (.membersTail []) []
  | membersMore {i m j x xs} (h : G i (.member x) m) (h1 : G m (.membersTail xs) j) : G i (.membersTail (x :: xs)) j
  -- Blocks; the end of the program closes the blocks that are open (and not empty)
  | block {i m j ss} (h : Tk .BraceOpen i m) (h1 : G m (.stmtsTail ss) j) (h0 : ss = [] → m ≠ []) :
      G i (.block (.mk z ss)) j
  | stmtsClose {i j} (h : Tk .BraceClose i j) : G i (.stmtsTail []) j
  | stmtsEnd : G [] (.stmtsTail []) []
  | stmtsMore {i m j s ss} (h : G i (.stmt s) m) (h1 : G m (.stmtsTail ss) j) : G i (.stmtsTail (s :: ss)) j
  -- Statements
  | empty {i j} (h : Tk .Semicolon i j) : G i (.stmt (.empty z)) j
  | debugger {i j} (h : Tk .Debugger i j) : G i (.stmt (.debugger z)) j
  | blockStmt {i j ss} (h : G i (.block (.mk z ss)) j) : G i (.stmt (.block z ss)) j
  | exprStmt {i m j e} (h1 : look i ≠ .BraceOpen) (h2 : look i ≠ .Function) (h3 : look i ≠ .Class)
      (h4 : look i = .Identifier → look i.tail ≠ .Colon) (h : G i (.whole 0 e) m) (h5 : Semi m j) :
      G i (.stmt (.expr z e)) j
  | importExpr {w a i m j e} (h1 : look i = .Comma ∨ look i = .ParenOpen)
      (h : G (.tok .Identifier w a :: i) (.whole 0 e) m) (h5 : Semi m j) :
      G (.tok .Import w a :: i) (.stmt (.expr z e)) j
  | declStmt {i m n j t k ds} (h : Tk t i m) (hk : declKindOf t = some k) (h1 : G m (.declarators ds) n)
      (h2 : Semi n j) : G i (.stmt (.decl z k ds)) j
  | ret {i m j} (h : Tk .Return i m) (h1 : Semi m j) : G i (.stmt (.ret z none)) j
  | retValue {i m n j e} (h : Tk .Return i m) (h0 : semicolon m = .NoSemicolon) (h1 : G m (.whole 0 e) n)
      (h2 : Semi n j) : G i (.stmt (.ret z (some e))) j
  | brk {i m j} (h : Tk .Break i m) (h1 : Semi m j) : G i (.stmt (.brk z none)) j
  | brkLabel {i m n j w} (h : Tk .Break i m) (h0 : semicolon m = .NoSemicolon) (h1 : Wd .Identifier w m n)
      (h2 : Semi n j) : G i (.stmt (.brk z (some ⟨z, w⟩))) j
  | cont {i m j} (h : Tk .Continue i m) (h1 : Semi m j) : G i (.stmt (.cont z none)) j
  | contLabel {i m n j w} (h : Tk .Continue i m) (h0 : semicolon m = .NoSemicolon) (h1 : Wd .Identifier w m n)
      (h2 : Semi n j) : G i (.stmt (.cont z (some ⟨z, w⟩))) j
  | throw {i m n j e} (h : Tk .Throw i m) (h1 : G m (.whole 0 e) n) (h2 : Semi n j) : G i (.stmt (.throw z e)) j
  | ifThen {i m n o q j e s} (h : Tk .If i m) (h1 : Tk .ParenOpen m n) (h2 : G n (.whole 0 e) o)
      (h3 : Tk .ParenClose o q) (h4 : G q (.stmt s) j) (h5 : look j ≠ .Else) : G i (.stmt (.ifS z e s none)) j
  | ifElse {i m n o q r u j e s s'} (h : Tk .If i m) (h1 : Tk .ParenOpen m n) (h2 : G n (.whole 0 e) o)
      (h3 : Tk .ParenClose o q) (h4 : G q (.stmt s) r) (h5 : Tk .Else r u) (h6 : G u (.stmt s') j) :
      G i (.stmt (.ifS z e s (some s'))) j
  | whileLoop {i m n o q j e s} (h : Tk .While i m) (h1 : Tk .ParenOpen m n) (h2 : G n (.whole 0 e) o)
      (h3 : Tk .ParenClose o q) (h4 : G q (.stmt s) j) : G i (.stmt (.whileS z e s)) j
  | doLoop {i m n o q r j e s} (h : Tk .Do i m) (h1 : G m (.stmt s) n) (h2 : Tk .While n o) (h3 : Tk .ParenOpen o q)
      (h4 : G q (.whole 0 e) r) (h5 : Tk .ParenClose r j) : G i (.stmt (.doS z s e)) j
  | forLoop {i m n o q j t u s} (h : Tk .For i m) (h1 : Tk .ParenOpen m n) (h2 : Tk .Semicolon n o)
      (h3 : G o (.optExpr .Semicolon t) q) {r : List Item} (h4 : G q (.optExpr .ParenClose u) r) (h5 : G r (.stmt s) j) :
      G i (.stmt (.forS z none t u s)) j
  | forLoopInit {i m n o q r v j x t u s} (h : Tk .For i m) (h1 : Tk .ParenOpen m n) (h2 : G n (.forInit x) o)
      (h2' : Tk .Semicolon o q) (h3 : G q (.optExpr .Semicolon t) r) (h4 : G r (.optExpr .ParenClose u) v)
      (h5 : G v (.stmt s) j) : G i (.stmt (.forS z (some x) t u s)) j
  | forInDecl {i m n o q r v j k ds e s} (h : Tk .For i m) (h1 : Tk .ParenOpen m n)
      (h2 : G n (.forInit (.decl z k ds)) o) (h3 : Tk .OperatorIn o q) (h4 : G q (.whole 0 e) r)
      (h5 : Tk .ParenClose r v) (h6 : G v (.stmt s) j) : G i (.stmt (.forIn z (.decl z k ds) e s)) j
  | forInExpr {i m n o q j a b s} (h : Tk .For i m) (h1 : Tk .ParenOpen m n)
      (h2 : G n (.whole 0 (.binary z .In a b)) o) (h3 : Tk .ParenClose o q) (h4 : G q (.stmt s) j) :
      G i (.stmt (.forIn z (.expr z a) b s)) j
  | forOf {i m n o q r v j x e s} (h : Tk .For i m) (h1 : Tk .ParenOpen m n) (h2 : G n (.forInit x) o)
      (h3 : Wd .Identifier bs!"of" o q) (h4 : G q (.whole 0 e) r) (h5 : Tk .ParenClose r v) (h6 : G v (.stmt s) j) :
      G i (.stmt (.forOf z x e s)) j
  | forInitDecl {i m j t k ds} (h : Tk t i m) (hk : declKindOf t = some k) (h1 : G m (.declarators ds) j) :
      G i (.forInit (.decl z k ds)) j
  | forInitExpr {i j e} (h : G i (.whole 0 e) j) (h1 : ∀ a b, e ≠ .binary z .In a b) : G i (.forInit (.expr z e)) j
  | optExprNone {i j t} (h : Tk t i j) : G i (.optExpr t none) j
  | optExprSome {i m j t e} (h : G i (.whole 0 e) m) (h1 : Tk t m j) : G i (.optExpr t (some e)) j
  | tryCatch {i m n j b c} (h : Tk .Try i m) (h1 : G m (.block b) n) (h2 : G n (.catch c) j) (h3 : look j ≠ .Finally) :
      G i (.stmt (.tryS z b (some c) none)) j
  | tryCatchFinally {i m n o q j b c f} (h : Tk .Try i m) (h1 : G m (.block b) n) (h2 : G n (.catch c) o)
      (h3 : Tk .Finally o q) (h4 : G q (.block f) j) : G i (.stmt (.tryS z b (some c) (some f))) j
  | tryFinally {i m n o j b f} (h : Tk .Try i m) (h1 : G m (.block b) n) (h3 : Tk .Finally n o) (h4 : G o (.block f) j) :
      G i (.stmt (.tryS z b none (some f))) j
  | catch {i m n o q j p b} (h : Tk .Catch i m) (h1 : Tk .ParenOpen m n) (h2 : G n (.pat p) o) (h3 : Tk .ParenClose o q)
      (h4 : G q (.block b) j) : G i (.catch (.mk z p b)) j
  | switch {i m n o q r j e cs} (h : Tk .Switch i m) (h1 : Tk .ParenOpen m n) (h2 : G n (.whole 0 e) o)
      (h3 : Tk .ParenClose o q) (h4 : Tk .BraceOpen q r) (h5 : G r (.cases cs) j) : G i (.stmt (.switch z e z cs)) j
  | casesClose {i j} (h : Tk .BraceClose i j) : G i (.cases []) j
  | casesMore {i m j c cs} (h : G i (.switchCase c) m) (h1 : G m (.cases cs) j) : G i (.cases (c :: cs)) j
  | case {i m n o j e ss} (h : Tk .Case i m) (h1 : G m (.whole 0 e) n) (h2 : Tk .Colon n o) (h3 : G o (.caseBody ss) j) :
      G i (.switchCase (.mk z (some e) ss)) j
  | default {i m n j ss} (h : Tk .Default i m) (h1 : Tk .Colon m n) (h2 : G n (.caseBody ss) j) :
      G i (.switchCase (.mk z none ss)) j
  | caseBodyEnd {j} (h : look j = .Case ∨ look j = .Default ∨ look j = .BraceClose) : G j (.caseBody []) j
  | caseBodyMore {i m j s ss} (h : G i (.stmt s) m) (h1 : G m (.caseBody ss) j) : G i (.caseBody (s :: ss)) j
  | labeled {i m n j w s} (h : Wd .Identifier w i m) (h1 : Tk .Colon m n) (h2 : G n (.stmt s) j) :
      G i (.stmt (.labeled z w s)) j
  | functionStmt {i m j f} (h : Tk .Function i m) (h1 : G m (.func .always f) j) : G i (.stmt (.function z f)) j
  | classStmt {i m j c} (h : Tk .Class i m) (h1 : G m (.cls .always c) j) : G i (.stmt (.class z c)) j
  | importBare {i m j w} (h : Tk .Import i m) (h1 : Wd .LiteralString w m j) (hw : 2 ≤ w.length) :
      G i (.stmt (.import z [] (unquoted w))) j
  | importFrom {i m n o j w ss} (h : Tk .Import i m) (h1 : ImportHead m ss n) (h2 : Wd .Identifier bs!"from" n o)
      (h3 : Wd .LiteralString w o j) (hw : 2 ≤ w.length) : G i (.stmt (.import z ss (unquoted w))) j
  -- Declarations
  | declarator {i j p} (h : G i (.pat p) j) (h' : look j ≠ .OperatorAssign) : G i (.declarator (.mk z p none)) j
  | declaratorInit {i m n j p e} (h : G i (.pat p) m) (h1 : Tk .OperatorAssign m n) (h2 : G n (.whole 1 e) j) :
      G i (.declarator (.mk z p (some e))) j
  | declaratorsLast {i j d} (h : G i (.declarator d) j) (h' : look j ≠ .Comma) : G i (.declarators [d]) j
  | declaratorsMore {i m n j d ds} (h : G i (.declarator d) m) (h1 : Tk .Comma m n) (h2 : G n (.declarators ds) j) :
      G i (.declarators (d :: ds)) j
  -- Programs
  | programEnd : G [] (.program []) []
  | programMore {i m j s ss} (h : G i (.stmt s) m) (h1 : G m (.program ss) j) : G i (.program (s :: ss)) j

end Ratel.Spec
