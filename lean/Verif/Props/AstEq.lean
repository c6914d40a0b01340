import Verif.Lemmas.AstEq
import Verif.Props.RoundTrip
import Verif.Props.Brackets
/-! C60: `==` of trees. -/
namespace Ratel
open Spec

/-- C60: two modules are equal exactly when they differ in nothing but positions. -/
theorem C60_equal_iff (a b : List Stmt) : eqStmts a b = true ↔ bareStmts a = bareStmts b := eqStmts_iff a b

/-- C60: equality is an equivalence relation. -/
theorem C60_equivalence : (∀ a, eqStmts a a = true) ∧ (∀ a b, eqStmts a b = eqStmts b a) ∧
    ∀ a b c, eqStmts a b = true → eqStmts b c = true → eqStmts a c = true := by
  refine ⟨fun a => (eqStmts_iff a a).mpr rfl, fun a b => ?_, fun a b c h h' => ?_⟩
  · rw [Bool.eq_iff_iff, eqStmts_iff, eqStmts_iff]
    exact eq_comm
  · rw [eqStmts_iff] at *
    exact h.trans h'

section
variable [Unicode]

/-- C60: code, pretty or minified, is the same for equal modules. -/
theorem C60_same_code {a b : List Stmt} (h : eqStmts a b = true) (minify : Bool) : codegen a minify = codegen b minify := by
  rw [← codegen_bare, (eqStmts_iff a b).mp h, codegen_bare]

/-- C60: an accepted source has an equal module if it is laid out in another way, with the same tokens, and line breaks in
front of the same tokens. -/
theorem C60_same_tokens {fuel : Nat} {src : Bytes} {m : List Stmt} (h : parse fuel src = .ok (.ok m)) :
    ∃ i, Spells src i ∧ ∀ src', Spells src' i → ∃ N m', (∀ n, N ≤ n → parse n src' = .ok (.ok m')) ∧ eqStmts m' m = true := by
  obtain ⟨i, h1, h2⟩ := C58_layout h
  refine ⟨i, h1, fun src' h' => ?_⟩
  obtain ⟨N, m', h3, h4, -⟩ := h2 src' h'
  exact ⟨N, m', h3, (eqStmts_iff _ _).mpr h4⟩

/-- C21 in terms of `==`: the tree that is read from generated code is equal to the one the code was generated from. -/
theorem C21_equal_partial {fuel : Nat} {src x : Bytes} {m : List Stmt} {minify : Bool} (h : parse fuel src = .ok (.ok m))
    (hs : ∀ n ∈ moduleNodes m, Safe minify n) (he : ∀ n ∈ moduleNodes m, NotEmpty n) (hx : codegen m minify = .ok x) :
    ∃ N m', (∀ n, N ≤ n → parse n x = .ok (.ok m')) ∧ eqStmts m' m = true := by
  obtain ⟨N, m', h1, h2⟩ := C21_same_tree_partial h hs he hx
  exact ⟨N, m', h2, (eqStmts_iff _ _).mpr h1⟩

end

/-! ### Cases -/

/-- `a + b`, at two places. -/
example : eqStmts [.expr ⟨0, 5⟩ (.binary ⟨0, 5⟩ .Addition (.ident ⟨0, 1⟩ bs!"a") (.ident ⟨4, 5⟩ bs!"b"))]
    [.expr ⟨2, 5⟩ (.binary ⟨2, 5⟩ .Addition (.ident ⟨2, 3⟩ bs!"a") (.ident ⟨4, 5⟩ bs!"b"))] = true := by decide +kernel

/-- `a + b` and `a - b`. -/
example : eqStmts [.expr ⟨0, 5⟩ (.binary ⟨0, 5⟩ .Addition (.ident ⟨0, 1⟩ bs!"a") (.ident ⟨4, 5⟩ bs!"b"))]
    [.expr ⟨0, 5⟩ (.binary ⟨0, 5⟩ .Subtraction (.ident ⟨0, 1⟩ bs!"a") (.ident ⟨4, 5⟩ bs!"b"))] = false := by decide +kernel

/-- `x => x` and `x => { x }`. -/
example : eqStmts [.expr ⟨0, 6⟩ (.arrowE ⟨0, 6⟩ [.ident ⟨0, 1⟩ bs!"x"] (.ident ⟨5, 6⟩ bs!"x"))]
    [.expr ⟨0, 6⟩ (.arrowB ⟨0, 6⟩ [.ident ⟨0, 1⟩ bs!"x"] (.mk ⟨5, 6⟩ [.expr ⟨5, 6⟩ (.ident ⟨5, 6⟩ bs!"x")]))] = false := by
  decide +kernel

end Ratel
