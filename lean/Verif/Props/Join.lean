import Verif.Spec.Join
import Verif.Lemmas.SpellJoin
import Verif.Props.Brackets
import Verif.Props.Local
/-! C58: white space and comments in front of a script. C59: scripts put one behind the other. -/
namespace Ratel
open Spec

set_option linter.unusedSectionVars false
section
variable [Unicode]

/-- C58: white space and comments, also with line breaks, can be put in front of any accepted source. -/
theorem C58_leading {g src : Bytes} {b : Bool} {ss : List Stmt} (hg : Gap false g src b) (h : Accepts parse src ss) :
    Accepts parse (g ++ src) ss := by
  obtain ⟨i, h1, h2⟩ := accepts_iff.1 h
  obtain ⟨i', h3, h4⟩ := spells_leading hg h1
  refine C42_accepts h3 ?_
  rcases h4 with rfl | h4
  · exact h2
  · exact h2.program_head h4

theorem leading_line {q : Bytes} {ss : List Stmt} (h : Accepts parse q ss) :
    ∃ k, Spells (#b'\n' :: q) k ∧ G k (.program ss) [] :=
  accepts_iff.1 (C58_leading (g := bs!"\n") (.space (by decide) .nil) h)

theorem continues_of {k : Nat} {t : Token} {rest : List Item} (hl : look rest = t) (hs : semicolon rest = .ImplicitSemicolon)
    (ht : t ∉ continuing) : continues k rest = false := by
  unfold continues
  rw [hl, hs]
  revert ht
  cases t <;> simp [continuing, assignOp, binaryOp]

theorem stop_of {t : Token} {rest : List Item} (hl : look rest = t) (hs : semicolon rest = .ImplicitSemicolon) (ht : t ∉ continuing) :
    Stop rest := by
  refine ⟨fun k => continues_of hl hs ht, hs, ?_⟩
  rw [hl]
  intro h
  refine ht ?_
  revert h
  have : ∀ t ∈ [Token.Semicolon, .Else, .Finally, .Colon, .ParenOpen, .Comma, .OperatorAssign], t ∈ continuing := by decide
  exact this t

/-- C59: a script in which every bracket is closed, a line break, and a script that does not start with a token that can
continue a statement: together they are accepted, and the body is that of the first followed by that of the second. (`g` is
the white space in front of the first token of the second script. If there are comments, there must be a line break behind
the last of them.) -/
theorem C59_line_break {p g w r : Bytes} {t : Token} {i : List Item} {ss ss' : List Stmt} (hp : Complete p i ss)
    (h0 : ∀ b ∈ p, b ≠ 0) (hg : Gap true g (w ++ r) true) (hw : Lexeme t w r) (ht : t ∉ continuing)
    (hq : Accepts parse (g ++ (w ++ r)) ss') : Accepts parse (p ++ #b'\n' :: (g ++ (w ++ r))) (ss ++ ss') := by
  obtain ⟨k, h1, h2⟩ := leading_line hq
  have hg' : Gap false (#b'\n' :: g) (w ++ r) true := .space (by decide) (by simpa using hg)
  obtain ⟨h3, h4⟩ := first_item hg' hw h1
  have h5 : semicolon k = .ImplicitSemicolon := by
    rw [h4, asiBefore, if_neg (by rintro rfl; exact ht (by decide))]; rfl
  refine C42_accepts (spells_join hp.spells h0 hp.program.program_good h1) ?_
  exact h2.program_append hp.program hp.closed.depth (.inr (.inr (.inl (stop_of h3 h5 ht))))

/-- C59: after a script in which every bracket is closed and whose last token is a semicolon, and a line break, any script
can follow. -/
theorem C59_semicolon {p q : Bytes} {i : List Item} {ss ss' : List Stmt} (hp : Complete p i ss) (h0 : ∀ b ∈ p, b ≠ 0)
    (hi : EndsWithSemicolon i) (hq : Accepts parse q ss') : Accepts parse (p ++ #b'\n' :: q) (ss ++ ss') := by
  obtain ⟨k, h1, h2⟩ := leading_line hq
  refine C42_accepts (spells_join hp.spells h0 hp.program.program_good h1) ?_
  exact h2.program_append hp.program hp.closed.depth (.inr (.inr (.inr ⟨hi, h2.program_notElse⟩)))

/-! ### Examples -/

theorem sum_complete : Complete bs!"\n a + b" sumItems [.expr z (.binary z .Addition (.ident z bs!"a") (.ident z bs!"b"))] :=
  ⟨sum_spells, sum_program, by unfold AllClosed; decide⟩

/-- A comment in front of the sum. -/
example : Accepts parse bs!"/* sum */\n a + b" [.expr z (.binary z .Addition (.ident z bs!"a") (.ident z bs!"b"))] :=
  C58_leading (g := bs!"/* sum */") (src := bs!"\n a + b") (b := false)
    (.comment (p := bs!"/* sum */") (g := []) (.block (s := bs!" sum ") (by decide) (by decide)) (by simp) .nil)
    (C42_accepts sum_spells sum_program)

/-- The sum twice. -/
example : Accepts parse bs!"\n a + b\n\n a + b" [.expr z (.binary z .Addition (.ident z bs!"a") (.ident z bs!"b")),
    .expr z (.binary z .Addition (.ident z bs!"a") (.ident z bs!"b"))] :=
  C59_line_break (p := bs!"\n a + b") (g := bs!"\n ") (w := bs!"a") (r := bs!" + b") (t := wordToken bs!"a") sum_complete (by decide)
    (.space (by decide) (.space (by decide) .nil)) (.word (c := #b'a') (w := []) (by decide) (by decide) (by decide)) (by decide)
    (C42_accepts sum_spells sum_program)

/-- A semicolon, and the sum. -/
example : Accepts parse bs!";\n\n a + b" [.empty z, .expr z (.binary z .Addition (.ident z bs!"a") (.ident z bs!"b"))] :=
  C59_semicolon (p := bs!";") (i := [.tok .Semicolon bs!";" .ExplicitSemicolon]) (ss := [.empty z])
    ⟨.tok (g := []) (p := bs!";") (r := []) (b := false) .nil (.punct (by decide) (by decide) (by decide)) rfl
      (.eof (g := []) (r := []) (b := false) .nil rfl), .programMore (.empty ⟨_, _, rfl⟩) .programEnd, by unfold AllClosed; decide⟩
    (by decide) ⟨[], _, _, rfl⟩ (C42_accepts sum_spells sum_program)

end

section
local instance joinExamplesUnicode : Unicode := ⟨fun _ => true⟩

/-- Without the line break behind the comment: both scripts are accepted, but not the one behind the other. -/
theorem C59_comment : (∃ m, parse 50 bs!"a" = .ok (.ok m)) ∧ (∃ m, parse 50 bs!"/**/b" = .ok (.ok m)) ∧
    ∃ es, parse 50 bs!"a\n/**/b" = .ok (.error es) := by
  obtain ⟨es, h⟩ : ∃ es, errorsOf (parse 50 bs!"a\n/**/b") = some es := Option.isSome_iff_exists.1 (by decide +kernel)
  exact ⟨of_accepted (by decide +kernel), of_accepted (by decide +kernel), es, of_errorsOf h⟩

/-- A script that starts with a parenthesis, and a script with an open brace: one statement instead of two. -/
example : (stmtSpans (parse 50 bs!"a\n(b)")).map List.length = some 1 ∧ (stmtSpans (parse 50 bs!"a;\n(b)")).map List.length = some 2 ∧
    (stmtSpans (parse 50 bs!"{a\nb")).map List.length = some 1 ∧ (stmtSpans (parse 50 bs!"{a}\nb")).map List.length = some 2 := by
  decide +kernel

end
end Ratel
