import Verif.Lemmas.VisitTidy
import Verif.Props.VisitMap
import Verif.Props.Unplaced
import Verif.Props.RoundTripExamples
/-! C75: generated code means the same to scope analysis, to visitors and in an ESTree document as the source it was generated
from. -/
namespace Ratel
open Spec

/-! ### Empty statements -/

theorem Analyzer.run_tidy (l : List Event) : ∀ a : Analyzer, a.run (l.map tidyEvent) = a.run l := by
  have h1 : ∀ (a : Analyzer) e, a.step (tidyEvent e) = a.step e := by
    intro a e
    cases e with
    | onExpr cb e => cases cb <;> rfl
    | _ => rfl
  induction l with
  | nil => intro a; rfl
  | cons e l ih => intro a; simp only [List.map_cons, Analyzer.run, h1, ih]

theorem ScopeArena.run_tidy (l : List Event) : ∀ a : ScopeArena, a.run (l.map tidyEvent) = a.run l := by
  have h1 : ∀ (a : ScopeArena) e, a.step (tidyEvent e) = a.step e := by
    intro a e
    cases e with
    | onExpr cb e => cases cb <;> rfl
    | _ => rfl
  induction l with
  | nil => intro a; rfl
  | cons e l ih => intro a; simp only [List.map_cons, ScopeArena.run, h1, ih]

theorem analyze_tidy (m : List Stmt) : analyze (tidyStmts m) = analyze m := by
  simp only [analyze, visitModule, visitStmts_tidy, Analyzer.run_tidy]

theorem analyzeArena_tidy (m : List Stmt) : analyzeArena (tidyStmts m) = analyzeArena m := by
  simp only [analyzeArena, visitModule, visitStmts_tidy, ScopeArena.run_tidy]

/-- C75: modules that differ only in positions and in empty statements in lists have the same scopes, as a tree and as they
lie in the arena. -/
theorem C75_empty_statements {m m' : List Stmt} (h : tidyStmts m = tidyStmts m') :
    analyze m = analyze m' ∧ analyzeArena m = analyzeArena m' := by
  rw [← analyze_tidy m, ← analyze_tidy m', ← analyzeArena_tidy m, ← analyzeArena_tidy m', h]
  exact ⟨rfl, rfl⟩

set_option linter.unusedSectionVars false
section
variable [Unicode]

/-- C75: the code generated from an accepted source, pretty or minified, has the scopes of the source: the same scopes, in the
same order, with the same parents and children, and in each the same names used and declared. -/
theorem C75_scopes {fuel : Nat} {src x : Bytes} {m : List Stmt} {minify : Bool} (h : parse fuel src = .ok (.ok m))
    (hs : ∀ n ∈ moduleNodes m, Safe minify n) (hx : codegen m minify = .ok x) :
    ∃ N m', (∀ n, N ≤ n → parse n x = .ok (.ok m')) ∧ analyze m' = analyze m ∧ analyzeArena m' = analyzeArena m := by
  obtain ⟨N, m', h1, h2⟩ := C21_round_trip_partial h hs hx
  refine ⟨N, m', h2, ?_, ?_⟩
  · rw [← analyze_bare m', h1, analyze_tidy]
  · rw [← analyzeArena_bare m', h1, analyzeArena_tidy]

/-- C75: a visitor of the generated code is told what a visitor of the source is told, in the same order, up to the positions in
the nodes it is given, and up to the empty statements in them, which are not written. -/
theorem C75_visitor {fuel : Nat} {src x : Bytes} {m : List Stmt} {minify : Bool} (h : parse fuel src = .ok (.ok m))
    (hs : ∀ n ∈ moduleNodes m, Safe minify n) (hx : codegen m minify = .ok x) :
    ∃ N m', (∀ n, N ≤ n → parse n x = .ok (.ok m')) ∧ (visitModule m').map bareEvent = (visitModule m).map tidyEvent := by
  obtain ⟨N, m', h1, h2⟩ := C21_round_trip_partial h hs hx
  exact ⟨N, m', h2, by simp only [visitModule, ← visitStmts_bare, h1, visitStmts_tidy]⟩

/-- C75: without empty statements, the ESTree document of the generated code is that of the source up to the fields `start` and
`end`, or neither has one. -/
theorem C75_document {fuel : Nat} {src x : Bytes} {m : List Stmt} {minify : Bool} (h : parse fuel src = .ok (.ok m))
    (hs : ∀ n ∈ moduleNodes m, Safe minify n) (he : ∀ n ∈ moduleNodes m, NotEmpty n) (hx : codegen m minify = .ok x) :
    ∃ N m', (∀ n, N ≤ n → parse n x = .ok (.ok m')) ∧
      ((genModule m = .panic ∧ genModule m' = .panic) ∨
        ∃ j j', genModule m = .ok j ∧ genModule m' = .ok j' ∧ unplaced j = unplaced j') := by
  obtain ⟨N, m', h1, h2⟩ := C21_same_tree_partial h hs he hx
  exact ⟨N, m', h2, C66_accepted h (h2 N (Nat.le_refl N)) h1.symm⟩

end

/-! ### Examples -/

local instance pipelineAlpha : Unicode := ⟨fun _ => true⟩

/-- A source with empty statements. -/
def looseSource : Bytes := bs!";;function f(a) { ; var b = a; return () => { this.c = b;; } };\nx = f;;"

example : ∃ m x, parse 60 looseSource = .ok (.ok m) ∧ (∀ n ∈ moduleNodes m, Safe true n) ∧ codegen m true = .ok x ∧
    x = bs!"function f(a){var b=a;return ()=>{this.c=b;};}x=f;" := by
  obtain ⟨m, h1, h2, -⟩ := of_safeSource (fuel := 60) (minify := true) (strict := false) (src := looseSource) (by decide +kernel)
  obtain ⟨x, hx⟩ := C22_accepted_no_panic h1 true
  refine ⟨m, x, h1, h2, hx, ?_⟩
  have h3 : (match parse 60 looseSource with | .ok (.ok m) => codegen m true | _ => .timeout) =
      .ok bs!"function f(a){var b=a;return ()=>{this.c=b;};}x=f;" := by decide +kernel
  simp only [h1, hx] at h3
  exact Out.ok.inj h3

end Ratel
