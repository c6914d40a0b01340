import Verif.Lemmas.SoundAll
import Verif.Lemmas.Fuel
import Verif.Props.Grammar
import Verif.Props.Accepted
/-! C43: only programs of the grammar are accepted, with the trees the grammar gives them. -/
namespace Ratel
open Spec

set_option linter.unusedSectionVars false
section
variable [Unicode]

/-- C43: an accepted source is spelled by items that form a program of the grammar, and the tree is that of the grammar. -/
theorem C43_program {fuel : Nat} {src : Bytes} {m : List Stmt} (h : parse fuel src = .ok (.ok m)) :
    ∃ i, Spells src i ∧ G i (.program (bareStmts m)) [] := accepted_program h

/-- C42 and C43: `parse` accepts exactly the programs of the grammar. -/
theorem C43_iff {src : Bytes} {ss : List Stmt} :
    (∃ fuel m, parse fuel src = .ok (.ok m) ∧ bareStmts m = ss) ↔ ∃ i, Spells src i ∧ G i (.program ss) [] := by
  constructor
  · rintro ⟨fuel, m, h, rfl⟩
    exact accepted_program h
  · rintro ⟨i, h1, h2⟩
    obtain ⟨N, ms, h3, h4⟩ := C42_accepts h1 h2
    exact ⟨N, ms, h4 N (Nat.le_refl _), h3⟩

theorem accepts_iff {src : Bytes} {ss : List Stmt} : Accepts parse src ss ↔ ∃ i, Spells src i ∧ G i (.program ss) [] := by
  rw [← C43_iff]
  constructor
  · rintro ⟨N, ms, h1, h2⟩
    exact ⟨N, ms, h2 N (Nat.le_refl _), h1⟩
  · rintro ⟨fuel, m, h, rfl⟩
    obtain ⟨i, h1, h2⟩ := accepted_program h
    exact C42_accepts h1 h2

/-- C43: what is not a program of the grammar is not accepted. -/
theorem C43_rejected {src : Bytes} (h : ∀ i ss, Spells src i → ¬ G i (.program ss) []) (fuel : Nat) :
    ∀ m, parse fuel src ≠ .ok (.ok m) := fun m hm => by
  obtain ⟨i, h1, h2⟩ := accepted_program hm
  exact h i _ h1 h2

/-! ### C19, for anything that follows -/

/-- C19: if what follows `return`, `break` or `continue` after a line break is accepted on its own, then together they are
accepted, and the jump is a statement of its own. -/
theorem C19_newline {kw : Bytes} {s : Stmt} (h : (kw, s) ∈ jumps) {g x : Bytes} {ss : List Stmt}
    (hg : Gap false g x true) (hx : TokenAhead x) (hsemi : next x ≠ #b';') (hp : Accepts parse (g ++ x) ss) :
    Accepts parse (kw ++ (g ++ x)) (s :: ss) := by
  obtain ⟨i, h1, h2⟩ := accepts_iff.1 hp
  exact C19_line_break h hg hx hsemi h1 h2

theorem C19_semicolon' {kw : Bytes} {s : Stmt} (h : (kw, s) ∈ jumps) {g x : Bytes} {b : Bool} {ss : List Stmt}
    (hg : Gap false g (#b';' :: x) b) (hp : Accepts parse x ss) : Accepts parse (kw ++ (g ++ #b';' :: x)) (s :: ss) := by
  obtain ⟨i, h1, h2⟩ := accepts_iff.1 hp
  exact C19_semicolon h hg h1 h2

theorem C19_closing {kw : Bytes} {s : Stmt} (h : (kw, s) ∈ jumps) {g x : Bytes} {b : Bool} {ss : List Stmt}
    (hg : Gap false g (#b'}' :: x) b) (hp : Accepts parse x ss) :
    Accepts parse (#b'{' :: (kw ++ (g ++ #b'}' :: x))) (.block z [s] :: ss) := by
  obtain ⟨i, h1, h2⟩ := accepts_iff.1 hp
  exact C19_brace h hg h1 h2

theorem C19_prefix {t : Written} (ht : Ordered 0 t) {op g x : Bytes} {ss : List Stmt} (hop : op = bs!"++" ∨ op = bs!"--")
    (hg : Gap false g (op ++ x) true) (hsp : isSpace (next g) = true) (hp : Accepts parse (g ++ (op ++ x)) ss) :
    Accepts parse (t.text ++ (g ++ (op ++ x))) (.expr z t.tree :: ss) := by
  obtain ⟨i, h1, h2⟩ := accepts_iff.1 hp
  exact C19_increment ht hop hg hsp h1 h2

/-- No program of the grammar is spelled like a source that is rejected. -/
theorem not_spelled {src : Bytes} {fuel : Nat} {es : List Err} (h : parse fuel src = .ok (.error es)) {i : List Item} {ss : List Stmt}
    (hs : Spells src i) : ¬ G i (.program ss) [] := fun hg => by
  obtain ⟨N, ms, -, h2⟩ := C42_accepts hs hg
  have h3 := h2 (max N fuel) (by omega)
  rw [parse_fuel (n := fuel) (by omega) src (by rw [h]; simp), h] at h3
  cases h3

/-! ### Examples -/

/-- `continue`, a line break, and a sum. -/
example : Accepts parse bs!"continue\n a + b" [.cont z none, .expr z (.binary z .Addition (.ident z bs!"a") (.ident z bs!"b"))] :=
  C19_newline (kw := bs!"continue") (g := bs!"\n ") (x := bs!"a + b") (by simp [jumps]) (.space (by decide) (.space (by decide) .nil))
    (by intro p s h e; cases h <;> simp_all [isSpace]; rename_i h; rw [← e.1] at h; revert h; decide) (by decide)
    (C42_accepts sum_spells sum_program)

end

section
local instance soundExamplesUnicode : Unicode := ⟨fun _ => true⟩

/-- A source with most constructs is a program of the grammar. -/
example : ∃ i ss, Spells richSource i ∧ G i (.program ss) [] := by
  obtain ⟨m, h⟩ : ∃ m, parse 200 richSource = .ok (.ok m) := of_accepted (by decide +kernel)
  obtain ⟨i, h⟩ := C43_program h
  exact ⟨i, _, h⟩

/-- These are not. -/
example {i : List Item} {ss : List Stmt} (hs : Spells bs!"a ? b c" i) : ¬ G i (.program ss) [] := by
  obtain ⟨es, h⟩ : ∃ es, errorsOf (parse 50 bs!"a ? b c") = some es := Option.isSome_iff_exists.1 (by decide +kernel)
  exact not_spelled (of_errorsOf h) hs
example {i : List Item} {ss : List Stmt} (hs : Spells bs!"if (a) else" i) : ¬ G i (.program ss) [] := by
  obtain ⟨es, h⟩ : ∃ es, errorsOf (parse 50 bs!"if (a) else") = some es := Option.isSome_iff_exists.1 (by decide +kernel)
  exact not_spelled (of_errorsOf h) hs

end

end Ratel
