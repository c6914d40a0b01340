import Verif.Lemmas.PrintAll
import Verif.Lemmas.FormedBare
import Verif.Props.Sound
import Verif.Lemmas.Reread
/-! C21: the generated code is parsed back to the same tree. -/
namespace Ratel
open Spec

set_option linter.unusedSectionVars false
section
variable [Unicode]

/-- The tree of an accepted source has the shapes and texts of `WellFormed`. -/
theorem accepted_wellFormed {fuel : Nat} {src : Bytes} {m : List Stmt} (h : parse fuel src = .ok (.ok m)) :
    ∀ n ∈ moduleNodes m, WellFormed n := by
  obtain ⟨i, h1, h2⟩ := accepted_program h
  have h3 := program_formed h1 h2
  intro n hn
  unfold moduleNodes at hn
  obtain ⟨s, hs, hn⟩ := List.mem_flatMap.1 hn
  refine bare_formed (.stmt s) ?_ n hn
  exact h3 _ (by rw [bareStmts_map]; exact List.mem_map_of_mem hs)

/-- C44: modules that differ only in positions have the same code. -/
theorem C44_positions {m m' : List Stmt} (h : bareStmts m = bareStmts m') (minify : Bool) : codegen m minify = codegen m' minify := by
  rw [← codegen_bare, h, codegen_bare]

/-- C44: modules that differ only in positions and in empty statements in lists have the same minified code. -/
theorem C44_empty_statements {m m' : List Stmt} (h : tidyStmts m = tidyStmts m') : codegen m true = codegen m' true := by
  rw [← codegen_tidy, h, codegen_tidy]

/-- C21 for trees that come from anywhere, with generators: the code is accepted, and read as the same tree up to positions and
empty statements, except that every generator has become an ordinary function. -/
theorem C21_generators_tree_partial {x : Bytes} {m : List Stmt} {minify : Bool} (hw : ∀ n ∈ moduleNodes m, WellFormed n)
    (hs : ∀ n ∈ moduleNodes m, Legible minify n) (hx : codegen m minify = .ok x) : Accepts parse x (rereadStmts m) := by
  rw [accepts_iff]
  refine reads_module (fun s hs' n hn => ?_) hx
  have : n ∈ moduleNodes m := List.mem_flatMap.2 ⟨s, hs', hn⟩
  exact ⟨hw n this, hs n this⟩

/-- C21 with generators: if a source is accepted and its tree avoids what the generator writes wrongly, with the exception of
generator functions (`Legible`), then the generated code is accepted, with the same tree up to positions and empty statements,
except that every generator has become an ordinary function. -/
theorem C21_generators_partial {fuel : Nat} {src x : Bytes} {m : List Stmt} {minify : Bool} (h : parse fuel src = .ok (.ok m))
    (hs : ∀ n ∈ moduleNodes m, Legible minify n) (hx : codegen m minify = .ok x) : Accepts parse x (rereadStmts m) :=
  C21_generators_tree_partial (accepted_wellFormed h) hs hx

/-- C21 for trees that come from anywhere. -/
theorem C21_tree_partial {x : Bytes} {m : List Stmt} {minify : Bool} (hw : ∀ n ∈ moduleNodes m, WellFormed n)
    (hs : ∀ n ∈ moduleNodes m, Safe minify n) (hx : codegen m minify = .ok x) : Accepts parse x (tidyStmts m) :=
  rereadStmts_tidy (fun n hn => (hs n hn).2) ▸ C21_generators_tree_partial hw (fun n hn => (hs n hn).1) hx

/-- C21: if a source is accepted and its tree avoids what the generator writes wrongly (`Safe`), then the generated code is
accepted, with the same tree up to positions and empty statements. -/
theorem C21_round_trip_partial {fuel : Nat} {src x : Bytes} {m : List Stmt} {minify : Bool} (h : parse fuel src = .ok (.ok m))
    (hs : ∀ n ∈ moduleNodes m, Safe minify n) (hx : codegen m minify = .ok x) : Accepts parse x (tidyStmts m) :=
  C21_tree_partial (accepted_wellFormed h) hs hx

/-- A text is accepted with one tree only. -/
theorem Spec.Accepts.unique {x : Bytes} {s t : List Stmt} (h : Accepts parse x s) (h' : Accepts parse x t) : s = t := by
  obtain ⟨N, a, rfl, hp⟩ := h
  obtain ⟨N', b, rfl, hq⟩ := h'
  have h1 := hp (max N N') (Nat.le_max_left _ _)
  rw [hq (max N N') (Nat.le_max_right _ _)] at h1
  cases h1
  rfl

/-- C21, exactly which trees survive: among the accepted sources whose trees avoid the other errors of the generator, the code is
read as the same tree exactly if there is no generator function. -/
theorem C21_generators_exact_partial {fuel : Nat} {src x : Bytes} {m : List Stmt} {minify : Bool} (h : parse fuel src = .ok (.ok m))
    (hs : ∀ n ∈ moduleNodes m, Legible minify n) (hx : codegen m minify = .ok x) :
    Accepts parse x (tidyStmts m) ↔ ∀ n ∈ moduleNodes m, Ordinary n := by
  refine ⟨fun h' => ordinary_iff.1 ((C21_generators_partial h hs hx).unique h'), fun ho => ?_⟩
  exact C21_round_trip_partial h (fun n hn => ⟨hs n hn, ho n hn⟩) hx

/-- C21: without empty statements the tree is the same up to positions. -/
theorem C21_same_tree_partial {fuel : Nat} {src x : Bytes} {m : List Stmt} {minify : Bool} (h : parse fuel src = .ok (.ok m))
    (hs : ∀ n ∈ moduleNodes m, Safe minify n) (he : ∀ n ∈ moduleNodes m, NotEmpty n) (hx : codegen m minify = .ok x) :
    Accepts parse x (bareStmts m) := by
  rw [← tidyStmts_same he]
  exact C21_round_trip_partial h hs hx

/-- C21, minifying twice: minified code is a source for which the minified code is the same text. -/
theorem C21_minify_again_partial {fuel : Nat} {src x : Bytes} {m : List Stmt} (h : parse fuel src = .ok (.ok m))
    (hs : ∀ n ∈ moduleNodes m, Safe true n) (hx : codegen m true = .ok x) :
    ∃ fuel' m', parse fuel' x = .ok (.ok m') ∧ codegen m' true = .ok x := by
  obtain ⟨N, m', hm, hp⟩ := C21_round_trip_partial h hs hx
  refine ⟨N, m', hp N (Nat.le_refl _), ?_⟩
  rw [← codegen_bare, hm, codegen_tidy, hx]

/-- C21, generating code twice: minified and pretty code of the tree read from generated code are the same texts as those of
the tree it was generated from, if that tree has no empty statements. -/
theorem C21_generate_again_partial {fuel : Nat} {src x : Bytes} {m : List Stmt} {minify : Bool} (h : parse fuel src = .ok (.ok m))
    (hs : ∀ n ∈ moduleNodes m, Safe minify n) (he : ∀ n ∈ moduleNodes m, NotEmpty n) (hx : codegen m minify = .ok x) :
    ∃ fuel' m', parse fuel' x = .ok (.ok m') ∧ ∀ minify', codegen m' minify' = codegen m minify' := by
  obtain ⟨N, m', hm, hp⟩ := C21_same_tree_partial h hs he hx
  refine ⟨N, m', hp N (Nat.le_refl _), fun b => ?_⟩
  rw [← codegen_bare, hm, codegen_bare]

end
end Ratel
