import Verif.Transform
/-! The tree that is stored in memory. -/
namespace Ratel.Spec
open Ratel

def exprs (ks : List Node) : List Expr := ks.filterMap fun | .expr e => some e | _ => none
def props (ks : List Node) : List Property := ks.filterMap fun | .prop e => some e | _ => none
def pats (ks : List Node) : List Pattern := ks.filterMap fun | .pat e => some e | _ => none
def stmts (ks : List Node) : List Stmt := ks.filterMap fun | .stmt e => some e | _ => none
def keys (ks : List Node) : List PropKey := ks.filterMap fun | .key e => some e | _ => none
def funcs (ks : List Node) : List Func := ks.filterMap fun | .func e => some e | _ => none
def classes (ks : List Node) : List Class := ks.filterMap fun | .cls e => some e | _ => none
def members (ks : List Node) : List ClassMember := ks.filterMap fun | .member e => some e | _ => none
def blocks (ks : List Node) : List Block := ks.filterMap fun | .block e => some e | _ => none
def declarators (ks : List Node) : List Declarator := ks.filterMap fun | .declarator e => some e | _ => none
def inits (ks : List Node) : List ForInit := ks.filterMap fun | .forInit e => some e | _ => none
def switchCases (ks : List Node) : List SwitchCase := ks.filterMap fun | .case e => some e | _ => none
def catches (ks : List Node) : List Catch := ks.filterMap fun | .catch e => some e | _ => none
def bodies (ks : List Node) : List (List SwitchCase) := ks.filterMap fun | .switchBody e => some e | _ => none

/-- The node with the data of `n` and the children `ks`. -/
def Node.rebuild (n : Node) (ks : List Node) : Node :=
  match n with
  | .expr (.seq l _) => .expr (.seq l (exprs ks))
  | .expr (.array l _) => .expr (.array l (exprs ks))
  | .expr (.member l o p) => match exprs ks with | [o] => .expr (.member l o p) | _ => .expr (.member l o p)
  | .expr (.cmember l o p) => match exprs ks with | [o, p] => .expr (.cmember l o p) | _ => .expr (.cmember l o p)
  | .expr (.call l c as) => match exprs ks with | c :: as => .expr (.call l c as) | _ => .expr (.call l c as)
  | .expr (.binary l op a b) => match exprs ks with | [a, b] => .expr (.binary l op a b) | _ => .expr (.binary l op a b)
  | .expr (.prefix l op a) => match exprs ks with | [a] => .expr (.prefix l op a) | _ => .expr (.prefix l op a)
  | .expr (.postfix l op a) => match exprs ks with | [a] => .expr (.postfix l op a) | _ => .expr (.postfix l op a)
  | .expr (.cond l t c a) => match exprs ks with | [t, c, a] => .expr (.cond l t c a) | _ => .expr (.cond l t c a)
  | .expr (.template l _ qs) => .expr (.template l (exprs ks) qs)
  | .expr (.tagged l t ql es qs) => match exprs ks with | t :: es => .expr (.tagged l t ql es qs) | _ => .expr (.tagged l t ql es qs)
  | .expr (.spread l a) => match exprs ks with | [a] => .expr (.spread l a) | _ => .expr (.spread l a)
  | .expr (.arrowE l ps b) => match exprs ks with | [b] => .expr (.arrowE l (pats ks) b) | _ => .expr (.arrowE l ps b)
  | .expr (.arrowB l _ (.mk bl _)) => .expr (.arrowB l (pats ks) (.mk bl (stmts ks)))
  | .expr (.object l _) => .expr (.object l (props ks))
  | .expr (.function l f) => match funcs ks with | [f] => .expr (.function l f) | _ => .expr (.function l f)
  | .expr (.class l c) => match classes ks with | [c] => .expr (.class l c) | _ => .expr (.class l c)
  | .expr (.void l) => .expr (.void l)
  | .expr (.this l) => .expr (.this l)
  | .expr (.ident l n) => .expr (.ident l n)
  | .expr (.lit l v) => .expr (.lit l v)
  | .expr (.metaProp l a b) => .expr (.metaProp l a b)
  | .key (.computed l e) => match exprs ks with | [e] => .key (.computed l e) | _ => .key (.computed l e)
  | .key (.literal l v) => .key (.literal l v)
  | .key (.binary l v) => .key (.binary l v)
  | .prop (.shorthand l n) => .prop (.shorthand l n)
  | .prop (.literal l k v) => match keys ks, exprs ks with | [k], [v] => .prop (.literal l k v) | _, _ => .prop (.literal l k v)
  | .prop (.method l k vl f) => match keys ks, funcs ks with | [k], [f] => .prop (.method l k vl f) | _, _ => .prop (.method l k vl f)
  | .prop (.spread l e) => match exprs ks with | [e] => .prop (.spread l e) | _ => .prop (.spread l e)
  | .pat (.void l) => .pat (.void l)
  | .pat (.ident l n) => .pat (.ident l n)
  | .pat (.object l _) => .pat (.object l (props ks))
  | .pat (.array l _) => .pat (.array l (pats ks))
  | .pat (.rest l a) => .pat (.rest l a)
  | .pat (.assign l a b) => match pats ks, exprs ks with | [a], [b] => .pat (.assign l a b) | _, _ => .pat (.assign l a b)
  | .func (.mk nm g _ (.mk bl _)) => .func (.mk nm g (pats ks) (.mk bl (stmts ks)))
  | .cls (.mk nm _ bl _) => .cls (.mk nm (exprs ks).head? bl (members ks))
  | .member (.error l) => .member (.error l)
  | .member (.method l s k kd vl f) =>
    match keys ks, funcs ks with | [k], [f] => .member (.method l s k kd vl f) | _, _ => .member (.method l s k kd vl f)
  | .member (.literal l s k v) =>
    match keys ks, exprs ks with | [k], [v] => .member (.literal l s k v) | _, _ => .member (.literal l s k v)
  | .block (.mk l _) => .block (.mk l (stmts ks))
  | .stmt (.empty l) => .stmt (.empty l)
  | .stmt (.debugger l) => .stmt (.debugger l)
  | .stmt (.expr l e) => match exprs ks with | [e] => .stmt (.expr l e) | _ => .stmt (.expr l e)
  | .stmt (.decl l k _) => .stmt (.decl l k (declarators ks))
  | .stmt (.ret l _) => .stmt (.ret l (exprs ks).head?)
  | .stmt (.brk l n) => .stmt (.brk l n)
  | .stmt (.cont l n) => .stmt (.cont l n)
  | .stmt (.throw l e) => match exprs ks with | [e] => .stmt (.throw l e) | _ => .stmt (.throw l e)
  | .stmt (.ifS l t c a) => match exprs ks, stmts ks with | [t], c :: a => .stmt (.ifS l t c a.head?) | _, _ => .stmt (.ifS l t c a)
  | .stmt (.whileS l t b) => match exprs ks, stmts ks with | [t], [b] => .stmt (.whileS l t b) | _, _ => .stmt (.whileS l t b)
  | .stmt (.doS l b t) => match exprs ks, stmts ks with | [t], [b] => .stmt (.doS l b t) | _, _ => .stmt (.doS l b t)
  | .stmt (.forS l i t u b) =>
    match stmts ks with
    | [b] => .stmt (.forS l (inits ks).head? (t.bind fun _ => (exprs ks).head?) (u.bind fun _ => (exprs ks).getLast?) b)
    | _ => .stmt (.forS l i t u b)
  | .stmt (.forIn l i r b) =>
    match inits ks, exprs ks, stmts ks with | [i], [r], [b] => .stmt (.forIn l i r b) | _, _, _ => .stmt (.forIn l i r b)
  | .stmt (.forOf l i r b) =>
    match inits ks, exprs ks, stmts ks with | [i], [r], [b] => .stmt (.forOf l i r b) | _, _, _ => .stmt (.forOf l i r b)
  | .stmt (.tryS l b h f) =>
    match blocks ks with | b :: f => .stmt (.tryS l b (catches ks).head? f.head?) | _ => .stmt (.tryS l b h f)
  | .stmt (.block l _) => .stmt (.block l (stmts ks))
  | .stmt (.labeled l n b) => match stmts ks with | [b] => .stmt (.labeled l n b) | _ => .stmt (.labeled l n b)
  | .stmt (.function l f) => match funcs ks with | [f] => .stmt (.function l f) | _ => .stmt (.function l f)
  | .stmt (.class l c) => match classes ks with | [c] => .stmt (.class l c) | _ => .stmt (.class l c)
  | .stmt (.switch l d bl cs) =>
    match exprs ks, bodies ks with | [d], [cs] => .stmt (.switch l d bl cs) | _, _ => .stmt (.switch l d bl cs)
  | .stmt (.import l s src) => .stmt (.import l s src)
  | .declarator (.mk l p i) => match pats ks with | [p] => .declarator (.mk l p (exprs ks).head?) | _ => .declarator (.mk l p i)
  | .forInit (.decl l k _) => .forInit (.decl l k (declarators ks))
  | .forInit (.expr l e) => match exprs ks with | [e] => .forInit (.expr l e) | _ => .forInit (.expr l e)
  | .case (.mk l _ _) => .case (.mk l (exprs ks).head? (stmts ks))
  | .catch (.mk l p b) => match pats ks, blocks ks with | [p], [b] => .catch (.mk l p b) | _, _ => .catch (.mk l p b)
  | .switchBody _ => .switchBody (switchCases ks)

/-- The object at address `i` and the objects its cells point to are the tree `n`: the children of `n` are in the cells,
and the rest of `n` is the object's own data. -/
inductive Holds (objs : List Obj) : Nat → Node → Prop where
  | mk {i : Nat} {o : Obj} {n : Node} (ho : objs[i]? = some o) (hn : o.shape.rebuild n.children = n)
      (hl : n.children.length = o.kids.length)
      (hk : ∀ j (h : j < n.children.length), Holds objs (o.kids[j]'(hl ▸ h)) n.children[j]) : Holds objs i n

/-- The module in memory is `m`. -/
def HoldsModule (mem : Mem) (m : List Stmt) : Prop :=
  ∃ hl : m.length = mem.body.length, ∀ j (h : j < m.length), Holds mem.objs (mem.body[j]'(hl ▸ h)) (.stmt m[j])

/-- An arrow function as a function expression: for `ps => e` the body is `{ return e }`. -/
def asFunction : Node → Option Node
  | .expr (.arrowB l ps b) => some (.expr (.function l (.mk (.optional none) false ps b)))
  | .expr (.arrowE l ps e) => some (.expr (.function l (.mk (.optional none) false ps (.mk e.loc [.ret e.loc (some e)]))))
  | _ => none

/-- An arrow function? -/
def Node.isArrow : Node → Bool
  | .expr (.arrowE ..) | .expr (.arrowB ..) => true
  | _ => false

/-- These objects are these trees. -/
inductive HoldsAll (objs : List Obj) : List Nat → List Node → Prop where
  | nil : HoldsAll objs [] []
  | cons {i : Nat} {is : List Nat} {n : Node} {ns : List Node} (h : Holds objs i n) (h' : HoldsAll objs is ns) :
      HoldsAll objs (i :: is) (n :: ns)

end Ratel.Spec
