import Verif.Spec.Tree
import Verif.Spec.Lexing
/-! What a user can rely on in the tree of an accepted module: local conditions on nodes, stated on the
tree and the source text alone. -/
namespace Ratel.Spec
open Ratel

/-! ### Parts of nodes -/

/-- The name of a function or class, if it has one. -/
def nameIdents : Name → List Ident
  | .empty => []
  | .optional n => n.toList
  | .mandatory n => [n]

/-- The identifiers in an import specifier. -/
def importIdents : ImportSpec → List Ident
  | .named _ a b => [a, b]
  | .default _ a => [a]
  | .namespace _ a => [a]

def importLoc : ImportSpec → Loc
  | .named l _ _ | .default l _ | .namespace l _ => l

def keyLoc : PropKey → Loc
  | .computed l _ | .literal l _ | .binary l _ => l

def propLoc : Property → Loc
  | .shorthand l _ | .literal l _ _ | .method l _ _ _ | .spread l _ => l

def memberLoc : ClassMember → Loc
  | .error l | .method l _ _ _ _ _ | .literal l _ _ _ => l

def declaratorLoc : Declarator → Loc
  | .mk l _ _ => l

def forInitLoc : ForInit → Loc
  | .decl l _ _ | .expr l _ => l

def caseLoc : SwitchCase → Loc
  | .mk l _ _ => l

/-- The span of a node. Functions and classes as such have none: they share the one of the statement,
expression or member they belong to. -/
def Node.span : Node → Option Loc
  | .expr e => some e.loc
  | .key k => some (keyLoc k)
  | .prop p => some (propLoc p)
  | .pat p => some p.loc
  | .func _ => none
  | .cls _ => none
  | .member m => some (memberLoc m)
  | .block b => some b.loc
  | .stmt s => some s.loc
  | .declarator d => some (declaratorLoc d)
  | .forInit i => some (forInitLoc i)
  | .case c => some (caseLoc c)
  | .catch c => some c.loc
  | .switchBody _ => none

/-- Quasis: the texts of a template. -/
def Node.quasis : Node → List Ident
  | .expr (.template _ _ qs) => qs
  | .expr (.tagged _ _ _ _ qs) => qs
  | _ => []

def funcBodyLoc : Func → Loc
  | .mk _ _ _ b => b.loc

def classBodyLoc : Class → Loc
  | .mk _ _ l _ => l

/-- Spans that are recorded in a node besides its own and those of its children. -/
def Node.innerSpans : Node → List Loc
  | .expr (.member _ _ p) => [p.loc]
  | .expr (.metaProp _ a b) => [a.loc, b.loc]
  | .expr (.template _ _ qs) => qs.map (·.loc)
  | .expr (.tagged _ _ q _ qs) => q :: qs.map (·.loc)
  | .expr (.arrowB _ _ b) => [b.loc]
  | .expr (.function _ f) => [funcBodyLoc f]
  | .expr (.class _ c) => [classBodyLoc c]
  | .prop (.method _ _ v f) => [v, funcBodyLoc f]
  | .member (.method _ _ _ _ v f) => [v, funcBodyLoc f]
  | .pat (.rest _ a) => [a.loc]
  | .stmt (.brk _ l) => l.toList.map (·.loc)
  | .stmt (.cont _ l) => l.toList.map (·.loc)
  | .stmt (.function _ f) => [funcBodyLoc f]
  | .stmt (.class _ c) => [classBodyLoc c]
  | .stmt (.switch _ _ l _) => [l]
  | .stmt (.import _ ss _) => ss.flatMap fun s => importLoc s :: (importIdents s).map (·.loc)
  | .func (.mk n _ _ _) => (nameIdents n).map (·.loc)
  | .cls (.mk n _ _ _) => (nameIdents n).map (·.loc)
  | _ => []

/-! ### C13: no placeholders -/

/-- A hole: the placeholder for a missing expression or pattern. -/
def Node.isHole : Node → Bool
  | .expr (.void _) => true
  | .pat (.void _) => true
  | _ => false

/-- Array literals and array patterns, whose elements may be missing. -/
def Node.isArray : Node → Bool
  | .expr (.array _ _) => true
  | .pat (.array _ _) => true
  | _ => false

def keyNames : PropKey → List Bytes
  | .computed _ _ => []
  | .literal _ v => [v]
  | .binary _ v => [v]

def literalTexts : Literal → List Bytes
  | .Undefined | .Null | .True | .False => []
  | .Number v | .Binary v | .String v | .RegEx v => [v]

/-- The names and literal values recorded in a node itself (the texts of templates and the source of an
import may be empty and are left out). -/
def Node.names : Node → List Bytes
  | .expr (.ident _ n) => [n]
  | .expr (.lit _ v) => literalTexts v
  | .expr (.member _ _ p) => [p.name]
  | .expr (.metaProp _ a b) => [a.name, b.name]
  | .key k => keyNames k
  | .prop (.shorthand _ n) => [n]
  | .pat (.ident _ n) => [n]
  | .pat (.rest _ i) => [i.name]
  | .func (.mk n _ _ _) => (nameIdents n).map (·.name)
  | .cls (.mk n _ _ _) => (nameIdents n).map (·.name)
  | .stmt (.brk _ l) => l.toList.map (·.name)
  | .stmt (.cont _ l) => l.toList.map (·.name)
  | .stmt (.labeled _ n _) => [n]
  | .stmt (.import _ ss _) => ss.flatMap fun s => (importIdents s).map (·.name)
  | _ => []

/-- The node is not a dummy, has no empty names and no holes except in arrays. -/
structure NoPlaceholder (n : Node) : Prop where
  member : n.isErrorMember = false
  named : ∀ x ∈ n.names, x ≠ []
  noHole : n.isArray = false → ∀ c ∈ n.children, c.isHole = false

/-! ### C14: verbatim text -/

/-- The text of a literal. -/
def literalText : Literal → Bytes
  | .Undefined => bs!"undefined"
  | .Null => bs!"null"
  | .True => bs!"true"
  | .False => bs!"false"
  | .Number v | .Binary v | .String v | .RegEx v => v

def keyWritten : PropKey → List (Loc × Bytes)
  | .computed _ _ => []
  | .literal l v => [(l, v)]
  | .binary l v => [(l, v)]

/-- Names and literals with their own spans. The names in property accesses and the keys of getters, setters
and class properties are left out (see `Located`): they need not carry their own spans. -/
def Node.written : Node → List (Loc × Bytes)
  | .expr (.this l) => [(l, bs!"this")]
  | .expr (.ident l n) => [(l, n)]
  | .expr (.lit l v) => [(l, literalText v)]
  | .expr (.metaProp _ a _) => [(a.loc, a.name)]
  | .prop (.shorthand l n) => [(l, n)]
  | .prop (.literal _ k _) => keyWritten k
  | .prop (.method _ k _ _) => keyWritten k
  | .member (.method _ _ k kind _ _) => if kind = .Get ∨ kind = .Set then [] else keyWritten k
  | .pat (.ident l n) => [(l, n)]
  | .pat (.rest _ i) => [(i.loc, i.name)]
  | .func (.mk n _ _ _) => (nameIdents n).map fun i => (i.loc, i.name)
  | .cls (.mk n _ _ _) => (nameIdents n).map fun i => (i.loc, i.name)
  | .stmt (.brk _ l) => l.toList.map fun i => (i.loc, i.name)
  | .stmt (.cont _ l) => l.toList.map fun i => (i.loc, i.name)
  | .stmt (.import _ ss _) => ss.flatMap fun s => (importIdents s).map fun i => (i.loc, i.name)
  | _ => []

/-- A piece of a template between its delimiters. -/
def Piece (text quasi : Bytes) : Prop :=
  ∃ d e, text = d ++ quasi ++ e ∧ (d = bs!"`" ∨ d = bs!"}") ∧ (e = bs!"`" ∨ e = bs!"${")

/-- The key `k` has the span of the word `w`; its name is written behind that, before the position `b`. -/
def BehindWord (src w : Bytes) (k : PropKey) (b : Nat) : Prop :=
  ∃ l n a, k = .literal l n ∧ slice src l.start l.stop = w ∧ l.stop ≤ a ∧ slice src a (a + n.length) = n ∧
    a + n.length ≤ b

/-- Names without a span of their own: where they are written. -/
def Located (src : Bytes) : Node → Prop
  /- Behind a dot, between the start of the object and the recorded span of the property. -/
  | .expr (.member _ o p) => ∃ a s, o.loc.start ≤ a ∧ (∀ b ∈ s, b ≤ 0x20) ∧
      slice src a (a + 1 + s.length + p.name.length) = #b'.' :: s ++ p.name ∧
      a + 1 + s.length + p.name.length ≤ p.loc.start
  /- `get` or `set` is at the recorded span, the name between it and the parameters. -/
  | .member (.method _ _ k kind vl _) => (kind = .Get → BehindWord src bs!"get" k vl.start) ∧
      (kind = .Set → BehindWord src bs!"set" k vl.start)
  /- `get x = 5` is accepted, too. -/
  | .member (.literal _ _ k v) => (∀ x ∈ keyWritten k, slice src x.1.start x.1.stop = x.2) ∨
      BehindWord src bs!"get" k v.loc.start ∨ BehindWord src bs!"set" k v.loc.start
  | .stmt (.labeled l n b) => slice src l.start (l.start + n.length) = n ∧ l.start + n.length ≤ b.loc.start
  /- In quotes, at the end of the statement. -/
  | .stmt (.import l _ s) => ∃ a q, l.start ≤ a ∧ l.stop = a + s.length + 2 ∧ (q = #b'"' ∨ q = #b'\'') ∧
      slice src a l.stop = q :: s ++ [q]
  | _ => True

structure Verbatim (src : Bytes) (n : Node) : Prop where
  written : ∀ x ∈ n.written, slice src x.1.start x.1.stop = x.2
  quasis : ∀ q ∈ n.quasis, Piece (slice src q.loc.start q.loc.stop) q.name
  located : Located src n

/-! ### C15: spans -/

/-- The spans recorded in a node are in order and in the source. -/
def SpansInside (src : Bytes) (n : Node) : Prop :=
  ∀ l ∈ n.span.toList ++ n.innerSpans, l.start ≤ l.stop ∧ l.stop ≤ src.length

/-! ### C41: spans nest -/

/-- The children inside the span of a node: the callee is in front of the span of its call. -/
def Node.contained : Node → List Node
  | .expr (.call _ _ args) => args.map .expr
  | n => n.children

/-- The body of a node that is enclosed in braces with a span of its own. -/
def Node.enclosed : Node → Option (Loc × List Node)
  | .func (.mk _ _ _ (.mk l b)) => some (l, b.map .stmt)
  | .expr (.arrowB _ _ (.mk l b)) => some (l, b.map .stmt)
  | .cls (.mk _ _ l ms) => some (l, ms.map .member)
  | .stmt (.switch _ _ l cs) => some (l, cs.map .case)
  | _ => none

/-- The nodes that follow each other without a token between them: statements, members of classes and cases of a `switch`. -/
def Node.listed : Node → Bool
  | .stmt _ | .member _ | .case _ => true
  | _ => false

/-- The spans of children end in the span of their parent, start in it (if the parent is not a call) and
start in the order of the children. They do not overlap, unless they are statements, members of a class or cases. -/
structure Nested (n : Node) : Prop where
  stop : ∀ s ∈ n.span, ∀ c ∈ n.children, ∀ t ∈ c.span, t.stop ≤ s.stop
  start : ∀ s ∈ n.span, ∀ c ∈ n.contained, ∀ t ∈ c.span, s.start ≤ t.start
  inner : ∀ s ∈ n.span, ∀ t ∈ n.innerSpans, s.start ≤ t.start ∧ t.stop ≤ s.stop
  body : ∀ e ∈ n.enclosed, ∀ c ∈ e.2, ∀ t ∈ c.span, e.1.start ≤ t.start ∧ t.stop ≤ e.1.stop
  order : n.children.Pairwise fun a b => ∀ s ∈ a.span, ∀ t ∈ b.span, s.start ≤ t.start
  apart : n.children.Pairwise fun a b => (a.listed && b.listed) = false → ∀ s ∈ a.span, ∀ t ∈ b.span, s.stop ≤ t.start

/-! ### C20: assignment targets -/

/-- The assignment operators. -/
def assignOps : List Op := [.Assign, .AddAssign, .SubtractAssign, .ExponentAssign, .MultiplyAssign,
  .DivideAssign, .RemainderAssign, .BSLAssign, .BSRAssign, .UBSRAssign, .BitAndAssign, .BitXorAssign,
  .BitOrAssign]

/-- What can be assigned to. -/
def isTarget : Expr → Bool
  | .ident _ _ | .member _ _ _ | .cmember _ _ _ | .object _ _ | .array _ _ | .spread _ _ => true
  | _ => false

def Assignable : Node → Prop
  | .expr (.binary _ op l _) => op ∈ assignOps → isTarget l = true
  | .expr (.postfix _ _ a) => isTarget a = true
  | _ => True

/-! ### C39: operators -/

/-- The infix operators that do not assign. -/
def infixOps : List Op := [.Multiplication, .Division, .Remainder, .Exponent, .Addition, .Subtraction,
  .BitShiftLeft, .BitShiftRight, .UBitShiftRight, .Lesser, .LesserEquals, .Greater, .GreaterEquals,
  .Instanceof, .In, .StrictEquality, .StrictInequality, .Equality, .Inequality, .BitwiseAnd, .BitwiseXor,
  .BitwiseOr, .LogicalAnd, .LogicalOr]

def prefixOps : List Op := [.New, .Increment, .Decrement, .LogicalNot, .BitwiseNot, .Typeof, .Void, .Delete,
  .Addition, .Subtraction]

def OperatorsFit : Node → Prop
  | .expr (.binary _ op _ _) => op ∈ infixOps ∨ op ∈ assignOps
  | .expr (.prefix _ op _) => op ∈ prefixOps
  | .expr (.postfix _ op _) => op = .Increment ∨ op = .Decrement
  | _ => True

/-! ### C40: shapes -/

def isRest : Pattern → Bool
  | .rest _ _ => true
  | _ => false

/-- A rest parameter is the last one. -/
def RestLast (ps : List Pattern) : Prop := ∀ p ∈ ps.dropLast, isRest p = false

def funcName : Func → Name
  | .mk n _ _ _ => n
def className : Class → Name
  | .mk n _ _ _ => n

def Name.isMandatory : Name → Bool
  | .mandatory _ => true
  | _ => false
def Name.isOptional : Name → Bool
  | .optional _ => true
  | _ => false

def isDefault : ImportSpec → Bool
  | .default _ _ => true
  | _ => false
def isNamed : ImportSpec → Bool
  | .named _ _ _ => true
  | _ => false
def isNamespace : ImportSpec → Bool
  | .namespace _ _ => true
  | _ => false

/-- Import clauses: nothing, a default binding, or a list of names or a namespace, maybe after a default
binding. -/
def ImportClause (ss : List ImportSpec) : Prop :=
  ∃ d r, ss = d ++ r ∧ (d = [] ∨ ∃ s, d = [s] ∧ isDefault s = true) ∧
    ((∀ s ∈ r, isNamed s = true) ∨ ∃ s, r = [s] ∧ isNamespace s = true)

def WellShaped : Node → Prop
  | .expr (.seq _ es) => 2 ≤ es.length
  | .expr (.metaProp _ a b) => a.name = bs!"new" ∧ b.name = bs!"target"
  | .expr (.template _ es qs) => qs.length = es.length + 1
  | .expr (.tagged _ _ _ es qs) => qs.length = es.length + 1
  | .expr (.arrowE _ ps _) => ∀ p ∈ ps, isRest p = false
  | .expr (.arrowB _ ps _) => ∀ p ∈ ps, isRest p = false
  | .expr (.function _ f) => Name.isOptional (funcName f) = true
  | .expr (.class _ c) => Name.isOptional (className c) = true
  | .prop (.method _ _ _ f) => funcName f = .empty
  | .pat (.array _ ps) => ∀ p ∈ ps, isRest p = false
  | .pat (.assign _ p _) => isRest p = false
  | .func (.mk _ _ ps _) => RestLast ps
  | .member (.method _ st k kind _ f) => funcName f = .empty ∧
      (kind = .Constructor → st = false ∧ keyNames k = [bs!"constructor"]) ∧
      (kind = .Get ∨ kind = .Set → ∃ l n, k = .literal l n)
  | .stmt (.decl _ _ ds) => ds ≠ []
  | .stmt (.tryS _ _ h f) => h.isSome ∨ f.isSome
  | .stmt (.function _ f) => Name.isMandatory (funcName f) = true
  | .stmt (.class _ c) => Name.isMandatory (className c) = true
  | .stmt (.import _ ss _) => ImportClause ss
  | .declarator (.mk _ p _) => isRest p = false
  | .forInit (.decl _ _ ds) => ds ≠ []
  | .catch (.mk _ p _) => isRest p = false
  | _ => True

/-! ### C45: extents -/

/-- The source contains `t` from position `p` on. -/
def Opens (src : Bytes) (p : Nat) (t : Bytes) : Prop := slice src p (p + t.length) = t

/-- The source contains `t` right before position `p`. -/
def Closes (src : Bytes) (p : Nat) (t : Bytes) : Prop := t.length ≤ p ∧ slice src (p - t.length) p = t

/-- There is nothing left of the source at position `p` (a NUL ends it). -/
def Ended (src : Bytes) (p : Nat) : Prop := next (src.drop p) = 0

/-- The spellings of the operators in front of and behind an operand. -/
def unaryText : Op → Bytes
  | .New => bs!"new"
  | .Increment => bs!"++"
  | .Decrement => bs!"--"
  | .LogicalNot => bs!"!"
  | .BitwiseNot => bs!"~"
  | .Typeof => bs!"typeof"
  | .Void => bs!"void"
  | .Delete => bs!"delete"
  | .Addition => bs!"+"
  | .Subtraction => bs!"-"
  | _ => []

def declWord : DeclKind → Bytes
  | .Var => bs!"var"
  | .Let => bs!"let"
  | .Const => bs!"const"

/-- Where spans start, and what is written there. -/
def Node.opens : Node → List (Nat × Bytes)
  | .expr (.array l _) => [(l.start, bs!"[")]
  | .expr (.object l _) => [(l.start, bs!"{")]
  | .expr (.metaProp l _ _) => [(l.start, bs!"new")]
  | .expr (.call l _ _) => [(l.start, bs!"(")]
  | .expr (.prefix l op _) => [(l.start, unaryText op)]
  | .expr (.spread l _) => [(l.start, bs!"...")]
  | .expr (.arrowE l [] _) => [(l.start, bs!"(")]
  | .expr (.arrowB l [] _) => [(l.start, bs!"(")]
  | .expr (.function l _) => [(l.start, bs!"function")]
  | .expr (.class l _) => [(l.start, bs!"class")]
  | .key (.computed l _) => [(l.start, bs!"[")]
  | .prop (.spread l _) => [(l.start, bs!"...")]
  | .prop (.method _ _ v _) => [(v.start, bs!"(")]
  | .pat (.object l _) => [(l.start, bs!"{")]
  | .pat (.array l _) => [(l.start, bs!"[")]
  | .pat (.rest l _) => [(l.start, bs!"...")]
  | .member (.method l st _ _ v _) => (v.start, bs!"(") :: if st then [(l.start, bs!"static")] else []
  | .member (.literal l st _ _) => if st then [(l.start, bs!"static")] else []
  | .stmt (.empty l) => [(l.start, bs!";")]
  | .stmt (.debugger l) => [(l.start, bs!"debugger")]
  | .stmt (.decl l k _) => [(l.start, declWord k)]
  | .stmt (.ret l _) => [(l.start, bs!"return")]
  | .stmt (.brk l _) => [(l.start, bs!"break")]
  | .stmt (.cont l _) => [(l.start, bs!"continue")]
  | .stmt (.throw l _) => [(l.start, bs!"throw")]
  | .stmt (.ifS l _ _ _) => [(l.start, bs!"if")]
  | .stmt (.whileS l _ _) => [(l.start, bs!"while")]
  | .stmt (.doS l _ _) => [(l.start, bs!"do")]
  | .stmt (.forS l _ _ _ _) => [(l.start, bs!"for")]
  | .stmt (.forIn l _ _ _) => [(l.start, bs!"for")]
  | .stmt (.forOf l _ _ _) => [(l.start, bs!"for")]
  | .stmt (.tryS l _ _ _) => [(l.start, bs!"try")]
  | .stmt (.function l _) => [(l.start, bs!"function")]
  | .stmt (.class l _) => [(l.start, bs!"class")]
  | .stmt (.switch l _ _ _) => [(l.start, bs!"switch")]
  | .stmt (.import l ss _) => if ss = [] then [] else [(l.start, bs!"import")]
  | .forInit (.decl l k _) => [(l.start, declWord k)]
  | .case (.mk l t _) => [(l.start, if t.isSome then bs!"case" else bs!"default")]
  | .catch (.mk l _ _) => [(l.start, bs!"catch")]
  | _ => []

/-- Where spans stop, and what is written in front of that. -/
def Node.closes : Node → List (Nat × Bytes)
  | .expr (.array l _) => [(l.stop, bs!"]")]
  | .expr (.object l _) => [(l.stop, bs!"}")]
  | .expr (.call l _ _) => [(l.stop, bs!")")]
  | .expr (.postfix l op _) => [(l.stop, unaryText op)]
  | .expr (.template l _ _) => [(l.stop, bs!"`")]
  | .expr (.tagged l _ _ _ _) => [(l.stop, bs!"`")]
  | .key (.computed l _) => [(l.stop, bs!"]")]
  | .pat (.object l _) => [(l.stop, bs!"}")]
  | .pat (.array l _) => [(l.stop, bs!"]")]
  | .stmt (.empty l) => [(l.stop, bs!";")]
  | .stmt (.debugger l) => [(l.stop, bs!"debugger")]
  | .stmt (.ret l none) => [(l.stop, bs!"return")]
  | .stmt (.brk l none) => [(l.stop, bs!"break")]
  | .stmt (.cont l none) => [(l.stop, bs!"continue")]
  | .stmt (.doS l _ _) => [(l.stop, bs!")")]
  | .case (.mk l _ []) => [(l.stop, bs!":")]
  | _ => []

/-- Starts of spans that are starts of parts. -/
def Node.starts : Node → List (Nat × Nat)
  | .expr (.seq l es) => es.head?.toList.map fun e => (l.start, e.loc.start)
  | .expr (.member l o _) => [(l.start, o.loc.start)]
  | .expr (.cmember l o _) => [(l.start, o.loc.start)]
  | .expr (.metaProp l a _) => [(l.start, a.loc.start)]
  | .expr (.binary l _ a _) => [(l.start, a.loc.start)]
  | .expr (.postfix l _ a) => [(l.start, a.loc.start)]
  | .expr (.cond l c _ _) => [(l.start, c.loc.start)]
  | .expr (.template l _ qs) => qs.head?.toList.map fun q => (l.start, q.loc.start)
  | .expr (.tagged l t q _ qs) => (l.start, t.loc.start) :: qs.head?.toList.map fun p => (q.start, p.loc.start)
  | .expr (.arrowE l ps _) => ps.head?.toList.map fun p => (l.start, p.loc.start)
  | .expr (.arrowB l ps _) => ps.head?.toList.map fun p => (l.start, p.loc.start)
  | .prop (.literal l k _) => [(l.start, (keyLoc k).start)]
  | .prop (.method l k _ _) => [(l.start, (keyLoc k).start)]
  | .member (.method l st k _ _ _) => if st then [] else [(l.start, (keyLoc k).start)]
  | .member (.literal l st k _) => if st then [] else [(l.start, (keyLoc k).start)]
  | .pat (.assign l p _) => [(l.start, p.loc.start)]
  | .declarator (.mk l p _) => [(l.start, p.loc.start)]
  | .forInit (.expr l e) => [(l.start, e.loc.start)]
  | _ => []

/-- Stops of spans that are stops of parts. -/
def Node.stops : Node → List (Nat × Nat)
  | .expr (.metaProp l _ b) => [(l.stop, b.loc.stop)]
  | .expr (.binary l _ _ b) => [(l.stop, b.loc.stop)]
  | .expr (.cond l _ _ a) => [(l.stop, a.loc.stop)]
  | .expr (.template l _ qs) => qs.getLast?.toList.map fun q => (l.stop, q.loc.stop)
  | .expr (.tagged l _ q _ qs) => (l.stop, q.stop) :: qs.getLast?.toList.map fun p => (q.stop, p.loc.stop)
  | .expr (.spread l e) => [(l.stop, e.loc.stop)]
  | .expr (.function l f) => [(l.stop, (funcBodyLoc f).stop)]
  | .expr (.class l c) => [(l.stop, (classBodyLoc c).stop)]
  | .prop (.literal l _ v) => [(l.stop, v.loc.stop)]
  | .prop (.method l _ v f) => [(l.stop, v.stop), (v.stop, (funcBodyLoc f).stop)]
  | .member (.method l _ _ _ v f) => [(l.stop, v.stop), (v.stop, (funcBodyLoc f).stop)]
  | .member (.literal l _ _ v) => [(l.stop, v.loc.stop)]
  | .pat (.assign l _ e) => [(l.stop, e.loc.stop)]
  | .pat (.rest l i) => [(l.stop, i.loc.stop)]
  | .stmt (.expr l e) => [(l.stop, e.loc.stop)]
  | .stmt (.ret l (some e)) => [(l.stop, e.loc.stop)]
  | .stmt (.brk l (some i)) => [(l.stop, i.loc.stop)]
  | .stmt (.cont l (some i)) => [(l.stop, i.loc.stop)]
  | .stmt (.throw l e) => [(l.stop, e.loc.stop)]
  | .stmt (.ifS l _ c none) => [(l.stop, c.loc.stop)]
  | .stmt (.ifS l _ _ (some a)) => [(l.stop, a.loc.stop)]
  | .stmt (.whileS l _ b) => [(l.stop, b.loc.stop)]
  | .stmt (.forS l _ _ _ b) => [(l.stop, b.loc.stop)]
  | .stmt (.forIn l _ _ b) => [(l.stop, b.loc.stop)]
  | .stmt (.forOf l _ _ b) => [(l.stop, b.loc.stop)]
  | .stmt (.tryS l _ _ (some f)) => [(l.stop, f.loc.stop)]
  | .stmt (.tryS l _ (some h) none) => [(l.stop, h.loc.stop)]
  | .stmt (.labeled l _ b) => [(l.stop, b.loc.stop)]
  | .stmt (.function l f) => [(l.stop, (funcBodyLoc f).stop)]
  | .stmt (.class l c) => [(l.stop, (classBodyLoc c).stop)]
  | .stmt (.switch l _ b _) => [(l.stop, b.stop)]
  | .declarator (.mk l p none) => [(l.stop, p.loc.stop)]
  | .declarator (.mk l _ (some e)) => [(l.stop, e.loc.stop)]
  | .forInit (.expr l e) => [(l.stop, e.loc.stop)]
  | .case (.mk l _ b) => b.getLast?.toList.map fun s => (l.stop, s.loc.stop)
  | .catch (.mk l _ b) => [(l.stop, b.loc.stop)]
  | _ => []

/-- The spans of what is enclosed in braces. -/
def Node.braces : Node → List Loc
  | .func (.mk _ _ _ b) => [b.loc]
  | .expr (.arrowB _ _ b) => [b.loc]
  | .cls (.mk _ _ l _) => [l]
  | .stmt (.switch _ _ l _) => [l]
  | .stmt (.block l _) => [l]
  | .block b => [b.loc]
  | _ => []

/-- Spans start and stop where the source text of their nodes does. Only at the end of the source the closing
brace of a block can be missing. -/
structure Extent (src : Bytes) (n : Node) : Prop where
  opens : ∀ x ∈ n.opens, Opens src x.1 x.2
  closes : ∀ x ∈ n.closes, Closes src x.1 x.2
  starts : ∀ x ∈ n.starts, x.1 = x.2
  stops : ∀ x ∈ n.stops, x.1 = x.2
  braces : ∀ l ∈ n.braces, Opens src l.start bs!"{" ∧ (Closes src l.stop bs!"}" ∨ Ended src l.stop)

/-- All conditions on a node. -/
structure Good (src : Bytes) (n : Node) : Prop where
  placeholder : NoPlaceholder n
  verbatim : Verbatim src n
  spans : SpansInside src n
  nested : Nested n
  assignable : Assignable n
  operators : OperatorsFit n
  shape : WellShaped n
  extent : Extent src n

end Ratel.Spec
