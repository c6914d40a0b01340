import Verif.ScopeMem
import Verif.Scope
/-! Trees of scopes that lie in an arena. -/
namespace Ratel.Spec
open Ratel

mutual

/-- `ScopeAt objs parent i j s`: the scope allocated as number `i` is `s`; it points to its parent; the scopes in it, and only
they, were allocated from `i + 1` to `j - 1`, in the order in which they are in the tree. No scope has used `super`. -/
inductive ScopeAt (objs : List ScopeObj) : Option Nat → Nat → Nat → Scope → Prop where
  | mk {parent : Option Nat} {i j : Nat} {k : ScopeKind} {this : Bool} {used declared : List Bytes} {ptrs : List Nat}
      {children : List Scope} (h : objs[i]? = some ⟨k, false, this, used, declared, parent, ptrs⟩)
      (hc : ScopesAt objs i (i + 1) j ptrs children) : ScopeAt objs parent i j (.mk k this used declared children)

/-- The scopes at `ptrs`, allocated from `i` to `j - 1`, are the children of the scope at `parent`. -/
inductive ScopesAt (objs : List ScopeObj) : Nat → Nat → Nat → List Nat → List Scope → Prop where
  | nil {parent i : Nat} : ScopesAt objs parent i i [] []
  | cons {parent i m j : Nat} {ptrs : List Nat} {s : Scope} {ss : List Scope} (h : ScopeAt objs (some parent) i m s)
      (h' : ScopesAt objs parent m j ptrs ss) : ScopesAt objs parent i j (i :: ptrs) (s :: ss)

end

end Ratel.Spec
