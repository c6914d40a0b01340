import Verif.Props.RoundTripExamples
import Verif.Props.Accepted
import Verif.Props.AstEq
/-! C21: generated code determines the tree. -/
namespace Ratel
open Spec

set_option linter.unusedSectionVars false
section
variable [Unicode]

/-- C21, beautifying in between: the minified code of what is read from generated code, pretty or minified, is the minified
code of the tree. -/
theorem C21_minify_generated_partial {fuel : Nat} {src x : Bytes} {m : List Stmt} {minify : Bool} (h : parse fuel src = .ok (.ok m))
    (hs : ∀ n ∈ moduleNodes m, Safe minify n) (hx : codegen m minify = .ok x) :
    ∃ N m', (∀ n, N ≤ n → parse n x = .ok (.ok m')) ∧ codegen m' true = codegen m true := by
  obtain ⟨N, m', hm, hp⟩ := C21_round_trip_partial h hs hx
  refine ⟨N, m', hp, ?_⟩
  rw [← codegen_bare m', hm, codegen_tidy]

/-- C21: the code tells which tree it was generated from. Two trees with the same code, whatever flags it was generated with,
are the same up to positions and empty statements. -/
theorem C21_determines_partial {x : Bytes} {m m' : List Stmt} {minify minify' : Bool} (hw : ∀ n ∈ moduleNodes m, WellFormed n)
    (hw' : ∀ n ∈ moduleNodes m', WellFormed n) (hs : ∀ n ∈ moduleNodes m, Safe minify n)
    (hs' : ∀ n ∈ moduleNodes m', Safe minify' n) (hx : codegen m minify = .ok x) (hx' : codegen m' minify' = .ok x) :
    tidyStmts m = tidyStmts m' := by
  obtain ⟨N, a, ha, hp⟩ := C21_tree_partial hw hs hx
  obtain ⟨N', b, hb, hq⟩ := C21_tree_partial hw' hs' hx'
  have h1 := hp (max N N') (Nat.le_max_left _ _)
  have h2 := hq (max N N') (Nat.le_max_right _ _)
  rw [h1] at h2
  cases h2
  rw [← ha, hb]

/-- C21: two accepted sources have the same minified code exactly if their trees are the same up to positions and empty
statements. -/
theorem C21_same_code_partial {fuel fuel' : Nat} {src src' : Bytes} {m m' : List Stmt} (h : parse fuel src = .ok (.ok m))
    (h' : parse fuel' src' = .ok (.ok m')) (hs : ∀ n ∈ moduleNodes m, Safe true n) (hs' : ∀ n ∈ moduleNodes m', Safe true n) :
    codegen m true = codegen m' true ↔ tidyStmts m = tidyStmts m' := by
  refine ⟨fun e => ?_, fun e => C44_empty_statements e⟩
  obtain ⟨x, hx⟩ := C22_accepted_no_panic h true
  exact C21_determines_partial (accepted_wellFormed h) (accepted_wellFormed h') hs hs' hx (e ▸ hx)

end

local instance determinesAlpha : Unicode := ⟨fun _ => true⟩

/-- A source with generators. -/
def starSource : Bytes := bs!"function* f(a) { return a } x = function* () { b }"

/-- C21: a source with generators whose code is read, but not as the same tree. -/
example : ∃ m x, parse 60 starSource = .ok (.ok m) ∧ (∀ n ∈ moduleNodes m, Legible false n) ∧ codegen m false = .ok x ∧
    Accepts parse x (rereadStmts m) ∧ ¬ Accepts parse x (tidyStmts m) := by
  have h : (match parse 60 starSource with
    | .ok (.ok m) => (m.all fun s => allB (legibleB false) 60 (.stmt s)) &&
      (match m with | [.function _ (.mk _ true _ _), _] => true | _ => false)
    | _ => false) = true := by decide +kernel
  split at h
  · rename_i m hm
    rw [Bool.and_eq_true] at h
    have hl := of_allB_module (fun n hn => of_legibleB hn) h.1
    obtain ⟨x, hx⟩ := C22_accepted_no_panic hm false
    refine ⟨m, x, hm, hl, hx, C21_generators_partial hm hl hx, fun h' => ?_⟩
    have h2 := h.2
    split at h2
    · rename_i l n ps b s
      have := (C21_generators_exact_partial hm hl hx).1 h' (.func (.mk n true ps b))
        (List.mem_flatMap.2 ⟨_, List.mem_cons_self, by
          rw [Node.all_eq]
          exact List.mem_cons_of_mem _ (List.mem_flatMap.2 ⟨.func (.mk n true ps b), List.mem_cons_self, by
            rw [Node.all_eq]
            exact List.mem_cons_self⟩)⟩)
      cases this
    · cases h2
  · cases h

/-- Both are accepted, with trees that differ in positions and empty statements only, but not in positions only. -/
def alike (fuel : Nat) (s t : Bytes) : Bool :=
  match parse fuel s, parse fuel t with
  | .ok (.ok m), .ok (.ok m') => eqStmts (tidyStmts m) (tidyStmts m') && !eqStmts (bareStmts m) (bareStmts m')
  | _, _ => false

theorem of_alike {fuel : Nat} {s t : Bytes} {m m' : List Stmt} (h : alike fuel s t = true) (h1 : parse fuel s = .ok (.ok m))
    (h2 : parse fuel t = .ok (.ok m')) : codegen m true = codegen m' true ∧ bareStmts m ≠ bareStmts m' := by
  unfold alike at h
  rw [h1, h2] at h
  simp only [Bool.and_eq_true, Bool.not_eq_true'] at h
  have bare_tidy : ∀ l : List Stmt, codegen (bareStmts (tidyStmts l)) true = codegen l true := fun l => by rw [codegen_bare, codegen_tidy]
  refine ⟨?_, fun e => ?_⟩
  · rw [← bare_tidy m, (eqStmts_iff _ _).1 h.1, bare_tidy]
  · have : eqStmts (bareStmts m) (bareStmts m') = true := by
      rw [e]
      exact (eqStmts_iff _ _).2 rfl
    rw [this] at h
    simp at h

/-- C21: two sources with the same minified code; their trees differ in positions and in an empty statement. -/
example : ∃ m m', parse 60 bs!"a + b;; c" = .ok (.ok m) ∧ parse 60 bs!"(a)+b\nc" = .ok (.ok m') ∧
    (∀ n ∈ moduleNodes m, Safe true n) ∧ (∀ n ∈ moduleNodes m', Safe true n) ∧ codegen m true = codegen m' true ∧
    bareStmts m ≠ bareStmts m' := by
  obtain ⟨m, h1, h2, -⟩ := of_safeSource (fuel := 60) (minify := true) (strict := false) (src := bs!"a + b;; c") (by decide +kernel)
  obtain ⟨m', h3, h4, -⟩ := of_safeSource (fuel := 60) (minify := true) (strict := false) (src := bs!"(a)+b\nc") (by decide +kernel)
  exact ⟨m, m', h1, h3, h2, h4, of_alike (by decide +kernel) h1 h3⟩

/-- C21: the trees of these two sources differ, but their minified code is the same: the generator omits the parentheses. -/
example : ∃ m m', parse 60 bs!"f((a, b))" = .ok (.ok m) ∧ parse 60 bs!"f(a, b)" = .ok (.ok m') ∧ codegen m true = codegen m' true ∧
    bareStmts m ≠ bareStmts m' := by
  have h : (match parse 60 bs!"f((a, b))", parse 60 bs!"f(a, b)" with
    | .ok (.ok m), .ok (.ok m') => decide (codegen m true = codegen m' true) && !eqStmts m m'
    | _, _ => false) = true := by decide +kernel
  split at h
  · rename_i m m' h1 h2
    simp only [Bool.and_eq_true, Bool.not_eq_true', decide_eq_true_eq] at h
    refine ⟨m, m', h1, h2, h.1, fun e => ?_⟩
    rw [(eqStmts_iff _ _).2 e] at h
    simp at h
  · cases h

end Ratel
