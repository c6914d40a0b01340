import Verif.Scope
import Verif.Spec.Visit
/-! Specification of scope analysis in terms of the nodes of a module. -/
namespace Ratel.Spec
open Ratel

/-- The kind of scope a node opens for what is inside it: functions (and methods), blocks and the
body of a `switch`. -/
def opens : Node → Option ScopeKind
  | .func _ => some .Function
  | .block _ => some .Block
  | .stmt (.block ..) => some .Block
  | .switchBody _ => some .Block
  | _ => none

/-- The node and the nodes below it that are not inside a scope opened at or below it; a node that
opens a scope belongs itself to the scope around it. -/
def Node.region (n : Node) : List Node :=
  n :: if (opens n).isSome then [] else n.children.attach.flatMap fun c => Node.region c.1
termination_by n.size
decreasing_by exact Node.child_lt c.2

theorem Node.region_eq (n : Node) :
    n.region = n :: if (opens n).isSome then [] else n.children.flatMap Node.region := by
  rw [Node.region]
  congr 2
  generalize n.children = l
  rw [List.flatMap_subtype (g := Node.region) (by simp), List.unattach_attach]

theorem Node.region_size {n k : Node} (h : k ∈ n.region) : k.size ≤ n.size := by
  induction n using Node.ind with
  | h n ih =>
    rw [Node.region_eq] at h
    split at h
    · simp at h; simp [h]
    · simp at h
      rcases h with rfl | ⟨c, hc, h⟩
      · exact Nat.le_refl _
      · exact Nat.le_trans (ih c hc h) (Nat.le_of_lt (Node.child_lt hc))

/-- The nodes of the scope opened by `n`: what is directly in it, not in nested scopes. -/
def Node.inside (n : Node) : List Node := n.children.flatMap Node.region

/-- `this` occurs among the nodes. -/
def hasThis (ns : List Node) : Bool := ns.any fun n => match n with | .expr (.this _) => true | _ => false

/-- The scope of a node: the names used and declared directly inside it, whether `this` is used
directly inside it, and the scopes directly inside it, all in source order. -/
def Node.scope (k : ScopeKind) (n : Node) : Scope :=
  .mk k (hasThis n.inside) (n.inside.flatMap usedNames) (n.inside.flatMap declaredNames)
    (n.inside.attach.flatMap fun c =>
      match opens c.1 with
      | some k' => [Node.scope k' c.1]
      | none => [])
termination_by n.size
decreasing_by
  have h := c.2
  simp only [Node.inside, List.mem_flatMap] at h
  obtain ⟨d, hd, h⟩ := h
  exact Nat.lt_of_le_of_lt (Node.region_size h) (Node.child_lt hd)

/-- The scope opened by a node, if it opens one. -/
def scopeOf (n : Node) : List Scope :=
  match opens n with
  | some k => [n.scope k]
  | none => []

theorem Node.scope_eq (k : ScopeKind) (n : Node) :
    n.scope k = .mk k (hasThis n.inside) (n.inside.flatMap usedNames)
      (n.inside.flatMap declaredNames) (n.inside.flatMap scopeOf) := by
  rw [Node.scope]
  congr 1
  generalize n.inside = l
  rw [List.flatMap_subtype (g := scopeOf), List.unattach_attach]
  intro x h
  simp only [scopeOf]

/-- The root scope of a module: a function scope with everything that is not in a nested scope. -/
def moduleScope (m : List Stmt) : Scope :=
  let top := (m.map Node.stmt).flatMap Node.region
  .mk .Function (hasThis top) (top.flatMap usedNames) (top.flatMap declaredNames)
    (top.flatMap scopeOf)

end Ratel.Spec
