import Verif.Lemmas.Brackets
import Verif.Lemmas.CodeBare
import Verif.Props.Sound
/-! C57: brackets match in accepted sources. C58: white space and comments do not matter. -/
namespace Ratel
open Spec

set_option linter.unusedSectionVars false
section
variable [Unicode]

/-- C57: the items of an accepted source are those the tree stands for, and in them every closing bracket closes the
innermost open one; only braces can be left open at the end. -/
theorem C57_brackets_match {fuel : Nat} {src : Bytes} {m : List Stmt} (h : parse fuel src = .ok (.ok m)) :
    ∃ i, Spells src i ∧ G i (.program (bareStmts m)) [] ∧ BracketsMatch i := by
  obtain ⟨i, h1, h2⟩ := C43_program h
  exact ⟨i, h1, h2, h2.brackets⟩

/-- C58: an accepted source can be laid out in any other way with the same tokens, and line breaks in front of the same
tokens: it remains accepted, with the same tree up to positions, and the same code is generated from it. -/
theorem C58_layout {fuel : Nat} {src : Bytes} {m : List Stmt} (h : parse fuel src = .ok (.ok m)) :
    ∃ i, Spells src i ∧ ∀ src', Spells src' i → ∃ N m', (∀ n, N ≤ n → parse n src' = .ok (.ok m')) ∧
      bareStmts m' = bareStmts m ∧ ∀ minify, codegen m' minify = codegen m minify := by
  obtain ⟨i, h1, h2⟩ := C43_program h
  refine ⟨i, h1, fun src' h' => ?_⟩
  obtain ⟨N, m', h3, h4⟩ := C42_accepts h' h2
  exact ⟨N, m', h4, h3, fun b => by rw [← codegen_bare, h3, codegen_bare]⟩

/-! ### Examples -/

/-- A `for` statement with all kinds of brackets. -/
def bracketItems : List Item := [.tok .For bs!"for" .NoSemicolon, .tok .ParenOpen bs!"(" .NoSemicolon,
  .tok .BracketOpen bs!"[" .NoSemicolon, .tok .TemplateOpen bs!"x" .NoSemicolon, .tok .BraceOpen bs!"{" .NoSemicolon,
  .tok .BraceClose bs!"}" .ImplicitSemicolon, .resume false bs!"y", .tok .Identifier bs!"c" .NoSemicolon, .resume true [],
  .tok .BracketClose bs!"]" .NoSemicolon, .tok .ParenClose bs!")" .ImplicitSemicolon, .tok .BraceOpen bs!"{" .NoSemicolon,
  .tok .BraceOpen bs!"{" .NoSemicolon, .tok .BraceClose bs!"}" .ImplicitSemicolon]

/-- Its last brace is not closed. -/
example : BracketsMatch bracketItems ∧ ¬ AllClosed bracketItems := ⟨⟨1, by decide⟩, by unfold AllClosed; decide⟩
example : AllClosed (bracketItems ++ [.tok .BraceClose bs!"}" .ImplicitSemicolon]) := by unfold AllClosed; decide
/-- Mismatches. -/
example : ¬ BracketsMatch [.tok .ParenOpen bs!"(" .NoSemicolon, .tok .BraceClose bs!"}" .ImplicitSemicolon] := by
  rintro ⟨n, h⟩; simp [openAfter, bracketStep] at h
example : ¬ BracketsMatch [.tok .BracketOpen bs!"[" .NoSemicolon] := by
  rintro ⟨n, h⟩
  simp only [openAfter, bracketStep, Option.bind_some, Option.some.injEq] at h
  cases n <;> simp [List.replicate_succ] at h

/-- Two layouts of the same items. -/
theorem sum_spells' : Spells bs!"/* sum */\n\ta+ b // end" sumItems := by
  refine .tok (g := bs!"/* sum */\n\t") (p := bs!"a") (r := bs!"+ b // end") (b := true) (t := .Identifier) ?_ ?_ rfl ?_
  · exact .comment (p := bs!"/* sum */") (g := bs!"\n\t") (.block (s := bs!" sum ") (by decide) (by decide)) (by simp)
      (.space (by decide) (.space (by decide) .nil))
  · exact .word (c := #b'a') (w := []) (by decide) (by decide) (by decide)
  refine .tok (g := []) (p := bs!"+") (r := bs!" b // end") (b := false) (t := .OperatorAddition) .nil ?_ rfl ?_
  · exact .punct (by decide) (by decide) (by decide)
  refine .tok (g := bs!" ") (p := bs!"b") (r := bs!" // end") (b := false) (t := .Identifier) (.space (by decide) .nil) ?_ rfl ?_
  · exact .word (c := #b'b') (w := []) (by decide) (by decide) (by decide)
  exact .eof (g := bs!" // end") (r := []) (b := false)
    (.space (by decide) (.comment (p := bs!"// end") (g := []) (.line (s := bs!" end") (by decide) (.inl rfl)) (by simp) .nil)) rfl

end

section
local instance bracketExamplesUnicode : Unicode := ⟨fun _ => true⟩

/-- Both layouts are accepted. -/
example : (∃ m, parse 50 bs!"\n a + b" = .ok (.ok m)) ∧ ∃ m, parse 50 bs!"/* sum */\n\ta+ b // end" = .ok (.ok m) :=
  ⟨of_accepted (by decide +kernel), of_accepted (by decide +kernel)⟩

/-- A source with all kinds of brackets, and one with two open braces. -/
example : ∃ m, parse 100 bs!"for ([`x${{}}y${c}`];;) {{}" = .ok (.ok m) := of_accepted (by decide +kernel)
example : ∃ m, parse 100 bs!"while (a[0]) { if (b) { c" = .ok (.ok m) := of_accepted (by decide +kernel)

end
end Ratel
