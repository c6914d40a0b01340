import Verif.Lemmas.Breadth
import Verif.Props.Accepted
/-! C67: minified code is at most twice as long as its source. -/
namespace Ratel
open Spec

section
set_option linter.unusedSectionVars false
variable [Unicode]

/-- C67: generating minified code for an accepted program succeeds, and the code is at most twice as long as the source. -/
theorem C67_minified_length {fuel : Nat} {src : Bytes} {m : List Stmt} (h : parse fuel src = .ok (.ok m)) :
    ∃ x, codegen m true = .ok x ∧ x.length ≤ 2 * src.length := by
  obtain ⟨x, hx⟩ := C22_accepted_no_panic h true
  refine ⟨x, hx, ?_⟩
  obtain ⟨i, hi, hg⟩ := C43_program h
  have h1 := spells_breadth hi
  have h2 := spent_le hg
  rw [← codegen_bare] at hx
  have h3 := runMin_length (ps := codeModuleMin (bareStmts m)) hx
  rw [codeModuleMin, flatten_len] at h3
  simp only [spent, breadth] at h2
  omega

end

/-! The bound is reached: by the semicolon that a statement was written without, and by the parentheses around a member of a member. -/

section
local instance breadthUnicode : Unicode := ⟨fun _ => true⟩

/-- Is `x` the code of the source. -/
def minifies (src x : Bytes) : Bool :=
  match parse 100 src with
  | .ok (.ok m) => (match codegen m true with | .ok y => y == x | _ => false)
  | _ => false

example : minifies bs!"a" bs!"a;" = true := by decide +kernel
example : minifies bs!"a\nb\nc" bs!"a;b;c;" = true := by decide +kernel
example : minifies bs!"a.b.c.d" bs!"((a.b).c).d;" = true := by decide +kernel

end
end Ratel
