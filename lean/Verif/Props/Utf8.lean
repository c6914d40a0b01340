import Verif.Lemmas.Flow
import Verif.Props.Accepted
/-! UTF-8: C46 (positions are between characters, texts are valid) and C47 (generated code is valid). Both are what the
`unsafe` conversions from bytes to strings in the lexer and in the code generator rely on. -/
namespace Ratel
open Spec

section
variable [Unicode]
set_option linter.unusedSectionVars false

/-! ### C46 -/

/-- C46, lexer: every token the lexer hands out starts and ends between characters, and its text is valid UTF-8. -/
theorem C46_tokens {src : Bytes} {l : Lex} (hu : Utf8 src) (h : Lexing src l) :
    Boundary src l.tokenStart ∧ Boundary src l.index ∧ Utf8 (slice src l.tokenStart l.index) :=
  ⟨(h.boundary hu).1, (h.boundary hu).2, (h.boundary hu).1.slice (h.boundary hu).2⟩

theorem accepted_fine_node {fuel : Nat} {src : Bytes} {m : List Stmt} (hu : Utf8 src)
    (h : parse fuel src = .ok (.ok m)) {n : Node} (hn : n ∈ moduleNodes m) : Intact src n := by
  simp only [moduleNodes, List.mem_flatMap] at hn
  obtain ⟨s, hs, hn⟩ := hn
  exact accepted_fine hu h s hs n hn

/-- C46, trees: every span recorded in an accepted module starts and ends between characters, so that the source can be
sliced there, and the slice is valid UTF-8. -/
theorem C46_spans {fuel : Nat} {src : Bytes} {m : List Stmt} (hu : Utf8 src) (h : parse fuel src = .ok (.ok m)) {n : Node}
    (hn : n ∈ moduleNodes m) : ∀ l ∈ n.span.toList ++ n.innerSpans,
    Boundary src l.start ∧ Boundary src l.stop ∧ Utf8 (slice src l.start l.stop) := by
  intro l hl
  have := (accepted_fine_node hu h hn).spans l hl
  exact ⟨this.start, this.stop, this.start.slice this.stop⟩

/-- C46, trees: every name and literal of an accepted module is valid UTF-8. -/
theorem C46_texts {fuel : Nat} {src : Bytes} {m : List Stmt} (hu : Utf8 src) (h : parse fuel src = .ok (.ok m)) {n : Node}
    (hn : n ∈ moduleNodes m) : ∀ t ∈ n.texts, Utf8 t := (accepted_fine_node hu h hn).texts

/-- C46, errors: every reported error starts and ends between characters, and its text is valid UTF-8. -/
theorem C46_errors {fuel : Nat} {src : Bytes} {es : List Err} (hu : Utf8 src) (h : parse fuel src = .ok (.error es))
    {e : Err} (he : e ∈ es) : Boundary src e.start ∧ Boundary src e.stop ∧ Utf8 e.raw := by
  obtain ⟨-, -, h3, l, hl, hs⟩ := C12_errors_point_into_source h e he
  simp only [Lex.seen, Seen.mk.injEq] at hs
  obtain ⟨-, -, h4, h5⟩ := hs
  rw [h3, ← h4, ← h5]
  exact C46_tokens hu hl

end

/-! ### C47 -/

theorem Spec.Utf8.flatten {l : List Bytes} (h : ∀ t ∈ l, Utf8 t) : Utf8 l.flatten := by
  induction l with
  | nil => exact .nil
  | cons x l ih => exact (h x (by simp)).append (ih fun t ht => h t (by simp [ht]))

theorem Spec.Spread.utf8 {ts : List Bytes} {y : Bytes} (h : Spread ts y) (ht : ∀ t ∈ ts, Utf8 t) : Utf8 y := by
  induction h with
  | nil => exact .nil
  | text t _ ih => exact (ht t (by simp)).append (ih fun t h => ht t (by simp [h]))
  | blank hb _ ih =>
    rename_i b _ _ _
    refine Utf8.append (s := [b]) (.ascii ?_) (ih ht)
    intro c hc
    simp only [List.mem_singleton] at hc
    subst hc
    revert hb
    exact byte_forall (P := fun b => isBlank b = true → b < 128) (by decide +kernel) c

/-- C47: generated code is valid UTF-8 if the names and literals of the module are. -/
theorem C47_generated_code (m : List Stmt) (h : ∀ n ∈ moduleNodes m, n.isErrorMember = false)
    (ht : ∀ n ∈ moduleNodes m, ∀ t ∈ n.texts, Utf8 t) {minify : Bool} {x : Bytes} (hx : codegen m minify = .ok x) :
    Utf8 x := by
  have hw : ∀ t ∈ written (codeModuleMin m), Utf8 t :=
    codeModuleMin_layout (texts_layout Utf8 fun h => .ascii fun b hb => (h b hb).2) h ht
  obtain ⟨y, hy⟩ := C22_codegen_no_panic m h true
  obtain ⟨z, hz⟩ := C22_codegen_no_panic m h false
  obtain ⟨h1, h2⟩ := C23_pretty_adds_blanks m h hy hz
  cases minify
  · rw [hz] at hx
    cases hx
    exact h2.utf8 hw
  · rw [hy] at hx
    cases hx
    rw [h1]
    exact .flatten hw

/-- C47: the code generated for an accepted module of a valid source is valid UTF-8. -/
theorem C47_accepted [Unicode] {fuel : Nat} {src : Bytes} {m : List Stmt} (hu : Utf8 src) (h : parse fuel src = .ok (.ok m))
    {minify : Bool} {x : Bytes} (hx : codegen m minify = .ok x) : Utf8 x :=
  C47_generated_code m (fun _ hn => (C13_no_placeholders h hn).1) (fun _ hn => C46_texts hu h hn) hx

/-! ### The hypotheses are met -/

section
local instance uni : Unicode := ⟨fun _ => true⟩

/-- The source `é="ß€"`, in 10 bytes. -/
def utf8Example : Bytes := utf8 "é=\"ß€\"".toList

example : Utf8 utf8Example := ⟨_, rfl⟩

/-- It is accepted, and both kinds of code are as expected. -/
example : (match parse 40 utf8Example with
    | .ok (.ok m) => codegen m true == .ok (utf8 "é=\"ß€\";".toList) && codegen m false == .ok (utf8 "é = \"ß€\";".toList)
    | _ => false) = true := by decide +kernel

/-- The source `ß )` has an error at 3. -/
example : errorsOf (parse 40 (utf8 "ß )".toList)) = some [⟨.ParenClose, 3, 4, bs!")"⟩] := by decide +kernel

/-- Position 1, inside `é`, is no boundary. -/
example : ¬Boundary utf8Example 1 := by
  rw [boundary_iff]
  rintro ⟨-, -, h⟩
  exact absurd h.head (by decide +kernel)

end
end Ratel
