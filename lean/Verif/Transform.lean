import Verif.Spec.Tree
/-! The ES2015 transform: `ratel-transformer/src/lib.rs`, `ratel-transformer/src/es2015/arrow.rs`
and the cells of `ratel/src/ast/node.rs`.

A `Node` is a cell with a pointer to an object in the arena, and the objects contain the cells of their children.
`Node: Copy`, so passing a `Node` by value makes another cell. Here the memory is modelled with its cells: an object
has a shape (its own data) and the contents of its cells, and a cell is in an object, in the body of the module or
on the stack. Simplification: every node of the tree (`Spec.Node`: also functions, classes, keys, declarators, which
are stored inside of other objects) is an object of its own, and the lists of cells are part of the object. -/
namespace Ratel
open Spec

/-- An object in the arena: its own data (the children in `shape` do not count) and the contents of its cells, which
are indices of objects. -/
structure Obj where
  shape : Node
  kids : List Nat

/-- The place of a cell. -/
inductive Cell where
  | inObj (obj idx : Nat)
  | inBody (idx : Nat)
  | onStack (idx : Nat)

/-- The memory: the objects of the arena, the cells of the module's body and the local variables that are cells. -/
structure Mem where
  objs : List Obj
  body : List Nat
  stack : List Nat

/-- The content of a cell: `Deref for Node`, `ratel/src/ast/node.rs:31-38`. -/
def Mem.get (m : Mem) : Cell → Option Nat
  | .inObj p k => (m.objs[p]?).bind fun o => o.kids[k]?
  | .inBody k => m.body[k]?
  | .onStack k => m.stack[k]?

/-- `Node::set`, `ratel/src/ast/node.rs:21-24`. -/
def Mem.set (m : Mem) (c : Cell) (p : Nat) : Mem :=
  match c with
  | .inObj q k => { m with objs := m.objs.modify q fun o => { o with kids := o.kids.set k p } }
  | .inBody k => { m with body := m.body.set k p }
  | .onStack k => { m with stack := m.stack.set k p }

/-- `Arena::alloc`. -/
def Mem.alloc (m : Mem) (o : Obj) : Mem × Nat := ({ m with objs := m.objs ++ [o] }, m.objs.length)

/-- A `Node` with this content is passed by value, `#[derive(Clone, Copy)]`, `ratel/src/ast/node.rs:8-11`: a new cell. -/
def Mem.copy (m : Mem) (p : Nat) : Mem × Cell := ({ m with stack := m.stack ++ [p] }, .onStack m.stack.length)

/-- The span of an expression. -/
def nodeLoc : Node → Loc
  | .expr e => e.loc
  | _ => ⟨0, 0⟩

/-- The object at an address, its shape. -/
def Mem.shapeAt (m : Mem) (p : Nat) : Node := ((m.objs[p]?).map Obj.shape).getD (.expr (.void ⟨0, 0⟩))

/-- `TransformerCtxt::swap`, `ratel-transformer/src/lib.rs:63-75`: `ptr` is the parameter of type `Node`, a cell of the
callee. -/
def swap (m : Mem) (ptr : Cell) (item : Loc → Obj) : Mem :=
  let loc := ((m.get ptr).map fun p => nodeLoc (m.shapeAt p)).getD ⟨0, 0⟩
  let (m, new) := m.alloc (item loc)
  m.set ptr new

/-- An anonymous function with these cells for parameters and statements, `ratel-transformer/src/es2015/arrow.rs:34-39`;
`bloc` is the span of its body. The result is the expression. -/
def allocFunction (m : Mem) (bloc : Loc) (kids : List Nat) : Mem × (Loc → Obj) :=
  let (m, f) := m.alloc ⟨.func (.mk (.optional none) false [] (.mk bloc [])), kids⟩
  (m, fun loc => ⟨.expr (.function loc (.mk (.optional none) false [] (.mk bloc []))), [f]⟩)

/-- `TransformArrow::on_arrow_expression`, `ratel-transformer/src/es2015/arrow.rs:20-41`: `node` is the arrow expression,
`ptr` a reference to its cell, and `swap` is called with `*ptr`, a copy. -/
def onArrowExpression (m : Mem) (node : Obj) (ptr : Cell) : Mem :=
  match node.shape with
  | .expr (.arrowB _ _ (.mk bloc _)) =>
    let (m, item) := allocFunction m bloc node.kids
    match m.get ptr with
    | some p => let (m, tmp) := m.copy p; swap m tmp item
    | none => m
  | .expr (.arrowE _ _ _) =>
    let expr := node.kids.getLastD 0
    let eloc := nodeLoc (m.shapeAt expr)
    let (m, ret) := m.alloc ⟨.stmt (.ret eloc (some (.void eloc))), [expr]⟩
    let (m, item) := allocFunction m eloc (node.kids.dropLast ++ [ret])
    match m.get ptr with
    | some p => let (m, tmp) := m.copy p; swap m tmp item
    | none => m
  | _ => m

/-- `Visitable::visit_with` with this visitor: the callback for the node, then its children in order
(`ratel-visitor/src/expression.rs:94-98,301-325`; the order of all callbacks is that of `Verif/Visitor.lean`). `fuel` bounds the depth. -/
def visitCell : Nat → Mem → Cell → Mem
  | 0, m, _ => m
  | fuel + 1, m, c =>
    match m.get c with
    | none => m
    | some p =>
      match m.objs[p]? with
      | none => m
      | some o =>
        let m := onArrowExpression m o c
        (List.range o.kids.length).foldl (fun m k => visitCell fuel m (.inObj p k)) m

/-- `transform`, `ratel-transformer/src/lib.rs:78-87`. -/
def transform (fuel : Nat) (m : Mem) : Mem :=
  (List.range m.body.length).foldl (fun m k => visitCell fuel m (.inBody k)) m

end Ratel
