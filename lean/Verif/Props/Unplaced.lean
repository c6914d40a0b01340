import Verif.Lemmas.Unplaced
import Verif.Props.Brackets
/-! C66: the ESTree document depends on positions only in its fields `start` and `end`. -/
namespace Ratel
open Spec

section
set_option linter.unusedSectionVars false
variable [Unicode]

theorem bareNode_all (n : Node) : (bareNode n).all = n.all.map bareNode := by
  induction n using Node.ind with
  | h n ih =>
    rw [Node.all_eq, Node.all_eq n, bareNode_children, List.map_cons, List.flatMap_map, List.map_flatMap]
    congr 1
    rw [List.flatMap_def, List.flatMap_def, List.map_congr_left ih]

theorem bare_moduleNodes (m : List Stmt) : moduleNodes (bareStmts m) = (moduleNodes m).map bareNode := by
  rw [moduleNodes, moduleNodes, bareStmts_map, List.flatMap_map, List.map_flatMap]
  rw [List.flatMap_def, List.flatMap_def]
  exact congrArg List.flatten (List.map_congr_left fun s _ => bareNode_all (.stmt s))

theorem bare_exportable (n : Node) : (bareNode n).exportable ↔ n.exportable := by
  cases n with
  | expr e =>
    cases e with
    | lit l v => cases v <;> simp [bareNode, bareExpr, Node.exportable]
    | «prefix» l op e =>
      by_cases h : op = .New
      · subst h
        cases e <;> simp [bareNode, bareExpr, Node.exportable]
      · have : ∀ l e, Node.exportable (.expr (.prefix l op e)) ↔ True := by
          intro l e
          cases op <;> first | exact absurd rfl h | rfl
        simp only [bareNode, bareExpr, this]
    | _ => simp [bareNode, bareExpr, Node.exportable]
  | pat p => cases p <;> simp [bareNode, barePat, Node.exportable]
  | member m => cases m <;> simp [bareNode, bareMember, Node.exportable]
  | _ => simp [bareNode, Node.exportable]

/-- C66: modules that are equal up to positions have the same document up to the fields `start` and `end`. -/
theorem C66_positions {m m' : List Stmt} {j j' : Json} (hb : bareStmts m = bareStmts m') (hj : genModule m = .ok j)
    (hj' : genModule m' = .ok j') : unplaced j = unplaced j' := by
  have key : ∀ m j, genModule m = .ok j → ∃ x, genModule (oneStmts (bareStmts m)) = .ok x ∧ unplaced x = unplaced j := by
    intro m j h
    rw [oneStmts_bare]
    refine (LikeItem.withLoc (LikeFields.inLoc ?_ _) _ _) j h
    exact .cons (likeStmts m).array .nil
  obtain ⟨x, h1, h2⟩ := key m j hj
  obtain ⟨y, h3, h4⟩ := key m' j' hj'
  rw [hb, h3] at h1
  cases h1
  exact h2.symm.trans h4

/-- C66: of accepted sources with trees that are equal up to positions both or none are serialised. -/
theorem C66_accepted {fuel fuel' : Nat} {src src' : Bytes} {m m' : List Stmt} (h : parse fuel src = .ok (.ok m))
    (h' : parse fuel' src' = .ok (.ok m')) (hb : bareStmts m = bareStmts m') :
    (genModule m = .panic ∧ genModule m' = .panic) ∨
    ∃ j j', genModule m = .ok j ∧ genModule m' = .ok j' ∧ unplaced j = unplaced j' := by
  have hx : (∀ n ∈ moduleNodes m, n.exportable) ↔ ∀ n ∈ moduleNodes m', n.exportable := by
    have key : ∀ m, (∀ n ∈ moduleNodes m, n.exportable) ↔ ∀ n ∈ moduleNodes (bareStmts m), n.exportable := by
      intro m
      rw [bare_moduleNodes, List.forall_mem_map]
      exact forall_congr' fun n => forall_congr' fun _ => (bare_exportable n).symm
    rw [key, hb, ← key]
  rcases C50_memory_safe h with h1 | ⟨j, h1, -⟩ <;> rcases C50_memory_safe h' with h2 | ⟨j', h2, -⟩
  · exact .inl ⟨h1, h2⟩
  · obtain ⟨j, h3⟩ := (C50_succeeds_iff h).2 (hx.2 ((C50_succeeds_iff h').1 ⟨j', h2⟩))
    rw [h1] at h3
    cases h3
  · obtain ⟨j, h3⟩ := (C50_succeeds_iff h').2 (hx.1 ((C50_succeeds_iff h).1 ⟨j, h1⟩))
    rw [h2] at h3
    cases h3
  · exact .inr ⟨j, j', h1, h2, C66_positions hb h1 h2⟩

/-- C66: all layouts of an accepted source have the same document up to the fields `start` and `end`, or none. -/
theorem C66_layout {fuel : Nat} {src : Bytes} {m : List Stmt} (h : parse fuel src = .ok (.ok m)) :
    ∃ i, Spells src i ∧ ∀ src', Spells src' i → ∃ N m', (∀ n, N ≤ n → parse n src' = .ok (.ok m')) ∧
      ((genModule m = .panic ∧ genModule m' = .panic) ∨
        ∃ j j', genModule m = .ok j ∧ genModule m' = .ok j' ∧ unplaced j = unplaced j') := by
  obtain ⟨i, h1, h2⟩ := C58_layout h
  refine ⟨i, h1, fun src' hs => ?_⟩
  obtain ⟨N, m', h3, h4, -⟩ := h2 src' hs
  exact ⟨N, m', h3, C66_accepted h (h3 N (Nat.le_refl N)) h4.symm⟩

end

/-! ### Examples -/

section
local instance unplacedExample : Unicode := ⟨fun _ => true⟩

mutual
/-- Two documents without positions are the same (for examples). -/
def sameDoc : Json → Json → Bool
  | .null, .null => true
  | .bool a, .bool b => a == b
  | .int a, .int b => a == b
  | .float a, .float b => a == b
  | .str a, .str b => a == b
  | .sym a, .sym b => a == b
  | .arr a, .arr b => sameDocs a b
  | .obj a, .obj b => sameFields a b
  | _, _ => false

def sameDocs : List Json → List Json → Bool
  | [], [] => true
  | a :: as, b :: bs => sameDoc a b && sameDocs as bs
  | _, _ => false

def sameFields : List (String × Json) → List (String × Json) → Bool
  | [], [] => true
  | (k, a) :: as, (l, b) :: bs => k == l && sameDoc a b && sameFields as bs
  | _, _ => false
end

/-- The document of a source. -/
def docOf (src : Bytes) : Option Json :=
  match parse 60 src with
  | .ok (.ok m) => match genModule m with
    | .ok j => some j
    | _ => none
  | _ => none

/-- With positions the documents of two layouts differ, without they are the same, and not those of other programs. -/
example : (match docOf bs!"a+`x${b}`", docOf bs!"a /*c*/ +  `x${ b }`" with
    | some j, some j' => !sameDoc j j' && sameDoc (unplaced j) (unplaced j')
    | _, _ => false) = true := by decide +kernel
example : (match docOf bs!"a+b", docOf bs!"a-b" with
    | some j, some j' => !sameDoc (unplaced j) (unplaced j')
    | _, _ => false) = true := by decide +kernel
end

end Ratel
