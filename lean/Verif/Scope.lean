import Verif.Visitor
import Verif.Base
/-! Scope analysis: `ratel-transformer/src/scope.rs`. -/
namespace Ratel

/-- `Scope`, `ratel-transformer/src/scope.rs:22-44`. The maps are the lists of the inserted keys
(`BloomMap::insert`, last insertion last), `parent` is represented by the nesting. -/
inductive Scope where
  | mk (kind : ScopeKind) (usedThis : Bool) (used declared : List Bytes) (children : List Scope)
deriving Repr

namespace Scope

/-- `kind` -/
def kind : Scope → ScopeKind | mk k _ _ _ _ => k
/-- `used_this` -/
def usedThis : Scope → Bool | mk _ t _ _ _ => t
/-- `used_refs` -/
def used : Scope → List Bytes | mk _ _ u _ _ => u
/-- `declared_refs` -/
def declared : Scope → List Bytes | mk _ _ _ d _ => d
/-- `children` -/
def children : Scope → List Scope | mk _ _ _ _ c => c

/-- `Scope::new`, `ratel-transformer/src/scope.rs:46-58`. -/
def new (k : ScopeKind) : Scope := .mk k false [] [] []

/-- `used_refs.insert` -/
def addUse (n : Bytes) : Scope → Scope
  | .mk k t u d c => .mk k t (u ++ [n]) d c
/-- `declared_refs.insert` -/
def addDeclared (n : Bytes) : Scope → Scope
  | .mk k t u d c => .mk k t u (d ++ [n]) c
/-- `used_this.set(true)` -/
def setThis : Scope → Scope
  | .mk k _ u d c => .mk k true u d c
/-- `children.push` -/
def addChild (s : Scope) : Scope → Scope
  | .mk k t u d c => .mk k t u d (c ++ [s])

end Scope

/-- `ScopeAnalyzer`, `ratel-transformer/src/scope.rs:93-110`: the current scope and the chain of its
parents, innermost first. -/
structure Analyzer where
  current : Scope
  parents : List Scope

/-- `impl Visitor for ScopeAnalyzer`, `ratel-transformer/src/scope.rs:112-142`; `panic` is
`popped.parent.unwrap()` at the root, or a panic of the visitor. -/
def Analyzer.step (a : Analyzer) : Event → Out Analyzer
  | .enter k => .ok { current := .new k, parents := a.current :: a.parents }
  | .leave =>
    match a.parents with
    | [] => .panic
    | p :: ps => .ok { current := Scope.addChild a.current p, parents := ps }
  | .use n => .ok { a with current := a.current.addUse n }
  | .declare n => .ok { a with current := a.current.addDeclared n }
  | .onExpr .this _ => .ok { a with current := a.current.setThis }
  | .panic => .panic
  | _ => .ok a

/-- All events in order. -/
def Analyzer.run (a : Analyzer) : List Event → Out Analyzer
  | [] => .ok a
  | e :: es => a.step e >>= fun a => a.run es

/-- `analyze`, `ratel-transformer/src/scope.rs:12-18`. -/
def analyze (m : List Stmt) : Out Scope := do
  let a ← Analyzer.run { current := .new .Function, parents := [] } (visitModule m)
  .ok a.current

end Ratel
