import Verif.Visitor
import Verif.Base
/-! Scope analysis on the arena: `ratel-transformer/src/scope.rs` with its pointers. `Scope.lean` is the same without. -/
namespace Ratel

/-- `Scope`, `ratel-transformer/src/scope.rs:22-44`, as it lies in the arena. A reference to a scope is the number of the
allocation. The maps are the lists of the inserted keys. -/
structure ScopeObj where
  kind : ScopeKind
  usedSuper : Bool
  usedThis : Bool
  used : List Bytes
  declared : List Bytes
  parent : Option Nat
  children : List Nat
deriving Repr, DecidableEq

/-- `Scope::new`, `ratel-transformer/src/scope.rs:46-58`. -/
def ScopeObj.new (k : ScopeKind) (parent : Option Nat) : ScopeObj :=
  { kind := k, usedSuper := false, usedThis := false, used := [], declared := [], parent := parent, children := [] }

/-- `ScopeAnalyzer`, `ratel-transformer/src/scope.rs:93-110`: the scopes in the arena, in the order of their allocation, and
the current one. -/
structure ScopeArena where
  scopes : List ScopeObj
  current : Nat
deriving Repr, DecidableEq

namespace ScopeArena

/-- `ScopeAnalyzer::new`, `ratel-transformer/src/scope.rs:98-110`. -/
def new : ScopeArena := ⟨[.new .Function none], 0⟩

/-- A change of the fields of `self.current.get()`. -/
def update (a : ScopeArena) (f : ScopeObj → ScopeObj) : ScopeArena := { a with scopes := a.scopes.modify a.current f }

/-- `impl Visitor for ScopeAnalyzer`, `ratel-transformer/src/scope.rs:112-142`; `panic` is `popped.parent.unwrap()` at the
root, or a panic of the visitor, `oob` a reference to a scope that was not allocated. -/
def step (a : ScopeArena) : Event → Out ScopeArena
  -- `on_enter_scope`, `113-118`
  | .enter k => .ok { scopes := a.scopes ++ [.new k (some a.current)], current := a.scopes.length }
  -- `on_leave_scope`, `120-126`
  | .leave =>
    match a.scopes[a.current]? with
    | none => .oob
    | some popped =>
      match popped.parent with
      | none => .panic
      | some p => .ok (({ a with current := p } : ScopeArena).update fun o => { o with children := o.children ++ [a.current] })
  -- `on_reference_use`, `128-131`
  | .use n => .ok (a.update fun o => { o with used := o.used ++ [n] })
  -- `on_reference_declaration`, `133-136`
  | .declare n => .ok (a.update fun o => { o with declared := o.declared ++ [n] })
  -- `on_this_expression`, `138-141`
  | .onExpr .this _ => .ok (a.update fun o => { o with usedThis := true })
  | .panic => .panic
  | _ => .ok a

/-- All events in order. -/
def run (a : ScopeArena) : List Event → Out ScopeArena
  | [] => .ok a
  | e :: es => a.step e >>= fun a => a.run es

end ScopeArena

/-- `analyze`, `ratel-transformer/src/scope.rs:12-18`: the arena and the scope that is returned. -/
def analyzeArena (m : List Stmt) : Out ScopeArena := ScopeArena.new.run (visitModule m)

end Ratel
