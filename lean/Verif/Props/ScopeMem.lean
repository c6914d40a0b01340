import Verif.Lemmas.ScopeMem
import Verif.Props.Accepted
/-! C61: the scopes that analysis allocates. -/
namespace Ratel
open Spec

/-- C61: analysis of a module without error members (which no accepted module has) allocates the scopes of the tree and no
others, in the order in which they are opened. Each points to the scope around it and to the scopes directly in it; the scope
that is returned is the first, and points to no parent. -/
theorem C61_pointers (m : List Stmt) (h : ∀ n ∈ moduleNodes m, n.isErrorMember = false) :
    ∃ a, analyzeArena m = .ok a ∧ a.current = 0 ∧ ScopeAt a.scopes none 0 a.scopes.length (moduleScope m) := by
  obtain ⟨b, h1, h2⟩ := mirrors_new.run (analyze_run m h)
  refine ⟨b, h1, ?_⟩
  cases h2 with
  | root h0 hs => exact ⟨h0, h0 ▸ hs⟩

mutual

/-- The number of scopes of a tree. -/
def scopeCount : Scope → Nat
  | .mk _ _ _ _ c => 1 + scopesCount c

/-- The number of scopes of a list of trees. -/
def scopesCount : List Scope → Nat
  | [] => 0
  | s :: ss => scopeCount s + scopesCount ss

end

mutual

theorem Spec.ScopeAt.count {objs : List ScopeObj} : ∀ {p : Option Nat} {i j : Nat} {s : Scope}, ScopeAt objs p i j s → j = i + scopeCount s
  | _, _, _, _, .mk _ hc => by have := hc.count; simp only [scopeCount]; omega

theorem Spec.ScopesAt.count {objs : List ScopeObj} : ∀ {p i j : Nat} {ps : List Nat} {ss : List Scope}, ScopesAt objs p i j ps ss →
    j = i + scopesCount ss
  | _, _, _, _, _, .nil => rfl
  | _, _, _, _, _, .cons h h' => by have := h.count; have := h'.count; simp only [scopesCount]; omega

end

mutual

theorem Spec.ScopeAt.parents {objs : List ScopeObj} : ∀ {p : Option Nat} {i j : Nat} {s : Scope}, ScopeAt objs p i j s →
    ∀ k, i < k → k < j → ∃ o q, objs[k]? = some o ∧ o.parent = some q ∧ i ≤ q ∧ q < k ∧ ∃ o', objs[q]? = some o' ∧ k ∈ o'.children
  | _, _, _, _, .mk h hc => fun k h1 h2 => by
    obtain ⟨o, q, ho, hp, hq⟩ := hc.parents k h1 h2
    rcases hq with ⟨rfl, hk⟩ | ⟨h3, h4, hm⟩
    · exact ⟨o, q, ho, hp, Nat.le_refl _, h1, _, h, hk⟩
    · exact ⟨o, q, ho, hp, Nat.le_of_succ_le h3, h4, hm⟩

theorem Spec.ScopesAt.parents {objs : List ScopeObj} : ∀ {p i j : Nat} {ps : List Nat} {ss : List Scope}, ScopesAt objs p i j ps ss →
    ∀ k, i ≤ k → k < j → ∃ o q, objs[k]? = some o ∧ o.parent = some q ∧
      (q = p ∧ k ∈ ps ∨ i ≤ q ∧ q < k ∧ ∃ o', objs[q]? = some o' ∧ k ∈ o'.children)
  | _, _, _, _, _, .nil => fun k h1 h2 => absurd h2 (Nat.not_lt.mpr h1)
  | _, i, _, _, _, .cons (m := m) h h' => fun k h1 h2 => by
    by_cases hk : k < m
    · rcases Nat.lt_or_eq_of_le h1 with h3 | rfl
      · obtain ⟨o, q, ho, hp, h4, h5, hm⟩ := h.parents k h3 hk
        exact ⟨o, q, ho, hp, .inr ⟨h4, h5, hm⟩⟩
      · cases h with
        | mk ho _ => exact ⟨_, _, ho, rfl, .inl ⟨rfl, by simp⟩⟩
    · obtain ⟨o, q, ho, hp, hq⟩ := h'.parents k (by omega) h2
      rcases hq with ⟨rfl, hm⟩ | ⟨h3, h4, hm⟩
      · exact ⟨o, _, ho, hp, .inl ⟨rfl, by simp [hm]⟩⟩
      · exact ⟨o, q, ho, hp, .inr ⟨Nat.le_trans (Nat.le_of_lt h.le) h3, h4, hm⟩⟩

end

/-- C61: as many scopes are allocated as the tree has. -/
theorem C61_count (m : List Stmt) (h : ∀ n ∈ moduleNodes m, n.isErrorMember = false) :
    ∃ a, analyzeArena m = .ok a ∧ a.scopes.length = scopeCount (moduleScope m) := by
  obtain ⟨a, h1, -, h2⟩ := C61_pointers m h
  exact ⟨a, h1, by have := h2.count; omega⟩

/-- C61: every scope but the one that is returned points to a parent, which was allocated before it and has it as a child; so
the way up from any scope ends at the root. -/
theorem C61_parents (m : List Stmt) (h : ∀ n ∈ moduleNodes m, n.isErrorMember = false) :
    ∃ a, analyzeArena m = .ok a ∧ (∃ o, a.scopes[a.current]? = some o ∧ o.parent = none) ∧
      ∀ k o, a.scopes[k]? = some o → k ≠ a.current →
        ∃ q o', o.parent = some q ∧ q < k ∧ a.scopes[q]? = some o' ∧ k ∈ o'.children := by
  obtain ⟨a, h1, h0, h2⟩ := C61_pointers m h
  refine ⟨a, h1, ?_, fun k o hk hn => ?_⟩
  · rw [h0]
    cases h2 with
    | mk h _ => exact ⟨_, h, rfl⟩
  · obtain ⟨o2, q, ho, hp, -, hq, o', ho', hm⟩ := h2.parents k (by omega) (List.getElem?_eq_some_iff.mp hk).1
    cases hk.symm.trans ho
    exact ⟨q, o', hp, hq, ho', hm⟩

section
variable [Unicode]

/-- C61 for accepted modules. -/
theorem C61_accepted {fuel : Nat} {src : Bytes} {m : List Stmt} (h : parse fuel src = .ok (.ok m)) :
    ∃ a, analyzeArena m = .ok a ∧ a.current = 0 ∧ ScopeAt a.scopes none 0 a.scopes.length (moduleScope m) :=
  C61_pointers m fun _ hn => (C13_no_placeholders h hn).1

end

/-- `{ let a = b; } function f() { this }`: three scopes. -/
example :
    let m : List Stmt := [.block ⟨0, 14⟩ [.decl ⟨2, 11⟩ .Let [.mk ⟨6, 11⟩ (.ident ⟨6, 7⟩ bs!"a") (some (.ident ⟨10, 11⟩ bs!"b"))]],
      .function ⟨15, 36⟩ (.mk (.mandatory ⟨⟨24, 25⟩, bs!"f"⟩) false [] (.mk ⟨28, 36⟩ [.expr ⟨30, 34⟩ (.this ⟨30, 34⟩)]))]
    analyzeArena m = .ok ⟨[⟨.Function, false, false, [], [bs!"f"], none, [1, 2]⟩, ⟨.Block, false, false, [bs!"b"], [bs!"a"], some 0, []⟩,
      ⟨.Function, false, true, [], [], some 0, []⟩], 0⟩ := by
  decide +kernel

end Ratel
