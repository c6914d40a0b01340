import Verif.Props.Compose
import Verif.Props.Join
import Verif.Lemmas.Fuel
import Verif.Lemmas.CodeBare
/-! C78 for sources: the code of two scripts one behind the other. -/
namespace Ratel
open Spec
variable [Unicode]
set_option linter.unusedSectionVars false

theorem accepts_of_run {fuel : Nat} {src : Bytes} {m : List Stmt} (h : parse fuel src = .ok (.ok m)) :
    Accepts parse src (bareStmts m) :=
  ⟨fuel, m, rfl, fun n hn => by rw [parse_fuel hn src (by rw [h]; simp), h]⟩

theorem code_joined {r : Bytes} {ss : List Stmt} {f g : Nat} {p q : Bytes} {m m' : List Stmt}
    (hp : parse f p = .ok (.ok m)) (hq : parse g q = .ok (.ok m')) (hs : ss = bareStmts m ++ bareStmts m') (h : Accepts parse r ss) :
    ∃ N w, (∀ n, N ≤ n → parse n r = .ok (.ok w)) ∧ ∀ minify x y, codegen m minify = .ok x → codegen m' minify = .ok y →
      codegen w minify = .ok (x ++ (if minify ∨ m = [] ∨ m' = [] then [] else [#b'\n']) ++ y) := by
  obtain ⟨N, w, h1, h2⟩ := h
  refine ⟨N, w, h2, fun c x y hx hy => ?_⟩
  rw [← codegen_bare, h1, hs, ← bareStmts_append, codegen_bare]
  refine C78_append ?_ hx hy
  intro n hn
  simp only [moduleNodes, List.flatMap_append, List.mem_append] at hn
  exact hn.elim (accepted_printed hp n) (accepted_printed hq n)

/-- C78: two accepted scripts in one text, with a line break between them, the first with all brackets closed and a semicolon
at the end: the code is that of the first, a line break if it is pretty printed and neither is empty, and that of the second. -/
theorem C78_sources_semicolon {f g : Nat} {p q : Bytes} {i : List Item} {ss m m' : List Stmt} (hi : Complete p i ss)
    (h0 : ∀ b ∈ p, b ≠ 0) (he : EndsWithSemicolon i) (hp : parse f p = .ok (.ok m)) (hq : parse g q = .ok (.ok m')) :
    ∃ N w, (∀ n, N ≤ n → parse n (p ++ #b'\n' :: q) = .ok (.ok w)) ∧
      ∀ minify x y, codegen m minify = .ok x → codegen m' minify = .ok y →
        codegen w minify = .ok (x ++ (if minify ∨ m = [] ∨ m' = [] then [] else [#b'\n']) ++ y) := by
  obtain ⟨N, w, h1, h2⟩ := C42_accepts hi.spells hi.program
  have h3 : bareStmts m = ss := by
    rw [← h1]
    have h4 := h2 (max N f) (Nat.le_max_left ..)
    rw [parse_fuel (Nat.le_max_right N f) p (by rw [hp]; simp), hp] at h4
    cases h4
    rfl
  exact code_joined hp hq (by rw [h3]) (C59_semicolon hi h0 he (accepts_of_run hq))

/-- C78: two accepted scripts in one text, with a line break between them, the first with all brackets closed, the second
starting with a token that cannot continue a statement. -/
theorem C78_sources_line_break {f n : Nat} {p g v r : Bytes} {t : Token} {i : List Item} {ss m m' : List Stmt} (hi : Complete p i ss)
    (h0 : ∀ b ∈ p, b ≠ 0) (hg : Gap true g (v ++ r) true) (hv : Lexeme t v r) (ht : t ∉ continuing)
    (hp : parse f p = .ok (.ok m)) (hq : parse n (g ++ (v ++ r)) = .ok (.ok m')) :
    ∃ N w, (∀ n, N ≤ n → parse n (p ++ #b'\n' :: (g ++ (v ++ r))) = .ok (.ok w)) ∧
      ∀ minify x y, codegen m minify = .ok x → codegen m' minify = .ok y →
        codegen w minify = .ok (x ++ (if minify ∨ m = [] ∨ m' = [] then [] else [#b'\n']) ++ y) := by
  obtain ⟨N, w, h1, h2⟩ := C42_accepts hi.spells hi.program
  have h3 : bareStmts m = ss := by
    rw [← h1]
    have h4 := h2 (max N f) (Nat.le_max_left ..)
    rw [parse_fuel (Nat.le_max_right N f) p (by rw [hp]; simp), hp] at h4
    cases h4
    rfl
  exact code_joined hp hq (by rw [h3]) (C59_line_break hi h0 hg hv ht (accepts_of_run hq))

/-- The hypotheses are met: the script `a + b` twice. -/
example : ∃ N w, (∀ n, N ≤ n → parse n bs!"\n a + b\n\n a + b" = .ok (.ok w)) ∧
    codegen w true = .ok bs!"a+b;a+b;" ∧ codegen w false = .ok bs!"a + b;\na + b;" := by
  obtain ⟨f, m, h1, h2⟩ := C42_accepts sum_spells sum_program
  obtain ⟨N, w, h3, h4⟩ := C78_sources_line_break (p := bs!"\n a + b") (g := bs!"\n ") (v := bs!"a") (r := bs!" + b") (t := wordToken bs!"a")
    sum_complete (by decide) (.space (by decide) (.space (by decide) .nil))
    (.word (c := #b'a') (w := []) (by decide) (by decide) (by decide)) (by decide) (h2 f (Nat.le_refl f)) (h2 f (Nat.le_refl f))
  have c1 : codegen m true = .ok bs!"a+b;" := by rw [← codegen_bare, h1]; decide +kernel
  have c2 : codegen m false = .ok bs!"a + b;" := by rw [← codegen_bare, h1]; decide +kernel
  have hm : m ≠ [] := by rintro rfl; simp [bareStmts] at h1
  refine ⟨N, w, h3, ?_, ?_⟩
  · simpa using h4 true _ _ c1 c1
  · simpa [hm] using h4 false _ _ c2 c2

end Ratel
