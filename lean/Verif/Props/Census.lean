import Verif.Lemmas.Census
import Verif.Props.Unplaced
import Verif.Props.Visited
import Verif.Props.ScopeMem
/-! C68: trees, visits and scopes are linear in the size of the source. -/
namespace Ratel
open Spec

theorem scopesCount_append (a b : List Scope) : scopesCount (a ++ b) = scopesCount a + scopesCount b := by
  induction a <;> simp [scopesCount, *, Nat.add_assoc]

theorem scopes_le_nodes (n : Node) : scopesCount (n.region.flatMap scopeOf) ≤ census n := by
  induction n using Node.ind with
  | h n ih =>
    have hl : ∀ l : List Node, (∀ c ∈ l, scopesCount (c.region.flatMap scopeOf) ≤ census c) →
        scopesCount ((l.flatMap Node.region).flatMap scopeOf) ≤ censuses l := by
      intro l
      induction l with
      | nil => intro _; exact Nat.le_refl _
      | cons x l ihl =>
        intro h
        have h1 := h x (by simp)
        have h2 := ihl fun c hc => h c (by simp [hc])
        rw [List.flatMap_cons, List.flatMap_append, scopesCount_append, censuses_cons]
        omega
    have h1 := hl n.children ih
    rw [Node.region_eq, census_eq, List.flatMap_cons, scopesCount_append]
    cases ho : opens n with
    | none =>
      have : scopeOf n = [] := by simp [scopeOf, ho]
      rw [this]
      simp only [scopesCount, Option.isSome_none, Bool.false_eq_true, if_false]
      omega
    | some k =>
      have : scopeOf n = [n.scope k] := by simp [scopeOf, ho]
      rw [this, Node.scope_eq, Node.inside]
      simp only [scopesCount, scopeCount, Option.isSome_some, if_true, List.flatMap_nil]
      omega

section
set_option linter.unusedSectionVars false
variable [Unicode]

/-- C68: the tree of an accepted source has at most two nodes for each byte of the source. -/
theorem C68_nodes {fuel : Nat} {src : Bytes} {m : List Stmt} (h : parse fuel src = .ok (.ok m)) :
    (moduleNodes m).length ≤ 2 * src.length := by
  obtain ⟨i, hi, hg⟩ := C43_program h
  have h1 := spells_breadth hi
  have h2 := peopled_le hg
  have h3 : (moduleNodes m).length = censuses ((bareStmts m).map .stmt) := by
    rw [← censuses_flatMap, List.flatMap_map]
    have := congrArg List.length (bare_moduleNodes m)
    rw [List.length_map] at this
    exact this.symm
  simp only [peopled, breadth] at h2
  omega

/-- C68: a visitor is called for at most two nodes for each byte of the source. -/
theorem C68_visits {fuel : Nat} {src : Bytes} {m : List Stmt} (h : parse fuel src = .ok (.ok m)) :
    (called (visitModule m)).length ≤ 2 * src.length := by
  rw [C55_every_node_once]
  exact Nat.le_trans (List.length_filterMap_le _ _) (C68_nodes h)

/-- C68: scope analysis succeeds and allocates at most two scopes for each byte of the source, and the one of the module. -/
theorem C68_scopes {fuel : Nat} {src : Bytes} {m : List Stmt} (h : parse fuel src = .ok (.ok m)) :
    ∃ a, analyzeArena m = .ok a ∧ a.scopes.length ≤ 2 * src.length + 1 := by
  obtain ⟨a, h1, h2⟩ := C61_count m fun _ hn => (C13_no_placeholders h hn).1
  refine ⟨a, h1, ?_⟩
  have h3 := C68_nodes h
  have h4 : scopesCount (((m.map Node.stmt).flatMap Node.region).flatMap scopeOf) ≤ (moduleNodes m).length := by
    clear h1 h2 h h3
    induction m with
    | nil => exact Nat.le_refl _
    | cons s m ih =>
      have := scopes_le_nodes (.stmt s)
      rw [List.map_cons, List.flatMap_cons, List.flatMap_append, scopesCount_append, moduleNodes, List.flatMap_cons, List.length_append,
        ← moduleNodes]
      unfold census at this
      omega
  rw [h2, moduleScope]
  simp only [scopeCount]
  omega

end

/-! The bound is reached. -/

section
local instance censusUnicode : Unicode := ⟨fun _ => true⟩

/-- One name as a statement. -/
def aloneName : Out (Except (List Err) (List Stmt)) → Bool
  | .ok (.ok [.expr _ (.ident _ _)]) => true
  | _ => false

/-- `a` reaches the bound. -/
example : ∃ m, parse 100 bs!"a" = .ok (.ok m) ∧ (moduleNodes m).length = 2 * (bs!"a").length := by
  have h : aloneName (parse 100 bs!"a") = true := by decide +kernel
  unfold aloneName at h
  split at h
  · exact ⟨_, ‹_›, by simp [moduleNodes, Node.all_eq, Node.children]⟩
  · cases h

end
end Ratel
