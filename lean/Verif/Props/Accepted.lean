import Verif.Lemmas.AcceptAll
import Verif.Props.Codegen
import Verif.Props.Scope
import Verif.Props.ParserExamples
/-! Properties of the trees of accepted modules: C13, C14, C15, C20, C39, C40, C41, C45, and what follows for code
generation and scope analysis of accepted modules. -/
namespace Ratel
open Spec
variable [Unicode]
set_option linter.unusedSectionVars false

theorem accepted_node {fuel : Nat} {src : Bytes} {m : List Stmt} (h : parse fuel src = .ok (.ok m)) {n : Node}
    (hn : n ∈ moduleNodes m) : Good src n := by
  simp only [moduleNodes, List.mem_flatMap] at hn
  obtain ⟨s, hs, hn⟩ := hn
  exact (accepted_good h).1 s hs n hn

/-- The children of nodes of a module are nodes of it. -/
theorem moduleNodes_children {m : List Stmt} {n c : Node} (hn : n ∈ moduleNodes m) (hc : c ∈ n.children) :
    c ∈ moduleNodes m := by
  have key : ∀ k : Node, n ∈ k.all → c ∈ k.all := by
    refine Node.ind fun k ih h => ?_
    rw [Node.all_eq] at h ⊢
    simp only [List.mem_cons, List.mem_flatMap] at h ⊢
    rcases h with rfl | ⟨d, hd, h⟩
    · exact .inr ⟨c, hc, by rw [Node.all_eq]; simp⟩
    · exact .inr ⟨d, hd, ih d hd h⟩
  simp only [moduleNodes, List.mem_flatMap] at hn ⊢
  obtain ⟨s, hs, hn⟩ := hn
  exact ⟨s, hs, key _ hn⟩

/-- C13: no node of an accepted module is an error member, has an empty name or literal, or has a hole for a
child, except that arrays may have holes. -/
theorem C13_no_placeholders {fuel : Nat} {src : Bytes} {m : List Stmt} (h : parse fuel src = .ok (.ok m)) {n : Node}
    (hn : n ∈ moduleNodes m) :
    n.isErrorMember = false ∧ (∀ x ∈ n.names, x ≠ []) ∧ (n.isArray = false → ∀ c ∈ n.children, c.isHole = false) :=
  let g := (accepted_node h hn).placeholder
  ⟨g.member, g.named, g.noHole⟩

/-- C14: names and literals with spans of their own are the text at that span; template texts are at their
spans without the delimiters; names without spans of their own are verbatim at the place the grammar puts
them. -/
theorem C14_verbatim {fuel : Nat} {src : Bytes} {m : List Stmt} (h : parse fuel src = .ok (.ok m)) {n : Node}
    (hn : n ∈ moduleNodes m) :
    (∀ x ∈ n.written, slice src x.1.start x.1.stop = x.2) ∧
    (∀ q ∈ n.quasis, Spec.Piece (slice src q.loc.start q.loc.stop) q.name) ∧ Located src n :=
  let g := (accepted_node h hn).verbatim
  ⟨g.written, g.quasis, g.located⟩

/-- C14 for identifiers. -/
theorem C14_identifier {fuel : Nat} {src : Bytes} {m : List Stmt} (h : parse fuel src = .ok (.ok m)) {l : Loc}
    {x : Bytes} (hn : .expr (.ident l x) ∈ moduleNodes m) : slice src l.start l.stop = x :=
  (C14_verbatim h hn).1 (l, x) (by simp [Node.written])

/-- C14 for literals. -/
theorem C14_literal {fuel : Nat} {src : Bytes} {m : List Stmt} (h : parse fuel src = .ok (.ok m)) {l : Loc}
    {v : Literal} (hn : .expr (.lit l v) ∈ moduleNodes m) : slice src l.start l.stop = literalText v :=
  (C14_verbatim h hn).1 (l, literalText v) (by simp [Node.written])

/-- C15: every span recorded in an accepted module is in order and in the source. -/
theorem C15_spans_in_source {fuel : Nat} {src : Bytes} {m : List Stmt} (h : parse fuel src = .ok (.ok m)) {n : Node}
    (hn : n ∈ moduleNodes m) : ∀ l ∈ n.span.toList ++ n.innerSpans, l.start ≤ l.stop ∧ l.stop ≤ src.length :=
  (accepted_node h hn).spans

/-- C20: what is assigned to in an accepted module is assignable. -/
theorem C20_assignment {fuel : Nat} {src : Bytes} {m : List Stmt} (h : parse fuel src = .ok (.ok m)) {l : Loc}
    {op : Op} {a b : Expr} (hn : .expr (.binary l op a b) ∈ moduleNodes m) (ho : op ∈ assignOps) : isTarget a = true :=
  (accepted_node h hn).assignable ho

theorem C20_postfix {fuel : Nat} {src : Bytes} {m : List Stmt} (h : parse fuel src = .ok (.ok m)) {l : Loc}
    {op : Op} {a : Expr} (hn : .expr (.postfix l op a) ∈ moduleNodes m) : isTarget a = true :=
  (accepted_node h hn).assignable

/-- C39: operators of an accepted module are of the right kind for their place. -/
theorem C39_binary_operator {fuel : Nat} {src : Bytes} {m : List Stmt} (h : parse fuel src = .ok (.ok m)) {l : Loc}
    {op : Op} {a b : Expr} (hn : .expr (.binary l op a b) ∈ moduleNodes m) : op ∈ infixOps ∨ op ∈ assignOps :=
  (accepted_node h hn).operators

theorem C39_prefix_operator {fuel : Nat} {src : Bytes} {m : List Stmt} (h : parse fuel src = .ok (.ok m)) {l : Loc}
    {op : Op} {a : Expr} (hn : .expr (.prefix l op a) ∈ moduleNodes m) : op ∈ prefixOps :=
  (accepted_node h hn).operators

theorem C39_postfix_operator {fuel : Nat} {src : Bytes} {m : List Stmt} (h : parse fuel src = .ok (.ok m)) {l : Loc}
    {op : Op} {a : Expr} (hn : .expr (.postfix l op a) ∈ moduleNodes m) : op = .Increment ∨ op = .Decrement :=
  (accepted_node h hn).operators

/-- C40: every node of an accepted module has a shape the grammar allows (`WellShaped` lists them). -/
theorem C40_shapes {fuel : Nat} {src : Bytes} {m : List Stmt} (h : parse fuel src = .ok (.ok m)) {n : Node}
    (hn : n ∈ moduleNodes m) : WellShaped n := (accepted_node h hn).shape

/-- C41: spans nest: a child ends in the span of its parent and, the callee of a call excepted, starts there;
children start in their order, and (statements, members of classes and cases excepted) each stops before the next one starts;
bodies in braces enclose their contents; statements of the module start in their order. -/
theorem C41_spans_nest {fuel : Nat} {src : Bytes} {m : List Stmt} (h : parse fuel src = .ok (.ok m)) :
    (∀ n ∈ moduleNodes m, Nested n) ∧ m.Pairwise fun a b => a.loc.start ≤ b.loc.start :=
  ⟨fun _ hn => (accepted_node h hn).nested, (accepted_good h).2⟩

/-- C41 for operands: those of a binary expression do not overlap. -/
theorem C41_operands {fuel : Nat} {src : Bytes} {m : List Stmt} (h : parse fuel src = .ok (.ok m)) {l : Loc}
    {op : Op} {a b : Expr} (hn : .expr (.binary l op a b) ∈ moduleNodes m) :
    l.start ≤ a.loc.start ∧ a.loc.stop ≤ b.loc.start ∧ b.loc.stop ≤ l.stop := by
  have hN := (accepted_node h hn).nested
  refine ⟨hN.start l (by simp [Node.span, Expr.loc]) (.expr a) (by simp [Node.contained, Node.children]) _ (by simp [Node.span]), ?_,
    hN.stop l (by simp [Node.span, Expr.loc]) (.expr b) (by simp [Node.children]) _ (by simp [Node.span])⟩
  simpa [Node.children, Node.listed, Node.span] using hN.apart

/-- C41 for calls: callee and arguments do not overlap. -/
theorem C41_arguments {fuel : Nat} {src : Bytes} {m : List Stmt} (h : parse fuel src = .ok (.ok m)) {l : Loc}
    {c : Expr} {args : List Expr} (hn : .expr (.call l c args) ∈ moduleNodes m) :
    (∀ a ∈ args, c.loc.stop ≤ a.loc.start ∧ a.loc.stop ≤ l.stop) ∧ args.Pairwise fun a b => a.loc.stop ≤ b.loc.start := by
  have hN := (accepted_node h hn).nested
  have hA := hN.apart
  simp [Node.children, Node.listed, Node.span, List.pairwise_map] at hA
  exact ⟨fun a ha => ⟨hA.1 a ha, hN.stop l (by simp [Node.span, Expr.loc]) (.expr a) (by simp [Node.children]; exact .inr ha) _ (by simp [Node.span])⟩,
    hA.2⟩

/-- C45: spans are exact: `Node.opens` and `Node.closes` list, for each kind of node, what is written in the
source at the start and before the stop of its span, `Node.starts` and `Node.stops` which parts share their
start or stop with the node, `Node.braces` which spans are those of a pair of braces. -/
theorem C45_extents {fuel : Nat} {src : Bytes} {m : List Stmt} (h : parse fuel src = .ok (.ok m)) {n : Node}
    (hn : n ∈ moduleNodes m) : Extent src n := (accepted_node h hn).extent

/-- C45 for array literals: the span is that of the brackets. -/
theorem C45_array {fuel : Nat} {src : Bytes} {m : List Stmt} (h : parse fuel src = .ok (.ok m)) {l : Loc}
    {es : List Expr} (hn : .expr (.array l es) ∈ moduleNodes m) :
    slice src l.start (l.start + 1) = bs!"[" ∧ 1 ≤ l.stop ∧ slice src (l.stop - 1) l.stop = bs!"]" :=
  ⟨(C45_extents h hn).opens (l.start, bs!"[") (by simp [Node.opens]),
    (C45_extents h hn).closes (l.stop, bs!"]") (by simp [Node.closes])⟩

/-- C45 for binary expressions: the span is from the start of the left operand to the stop of the right one. -/
theorem C45_binary {fuel : Nat} {src : Bytes} {m : List Stmt} (h : parse fuel src = .ok (.ok m)) {l : Loc}
    {op : Op} {a b : Expr} (hn : .expr (.binary l op a b) ∈ moduleNodes m) :
    l = ⟨a.loc.start, b.loc.stop⟩ := by
  have h1 := (C45_extents h hn).starts (l.start, a.loc.start) (by simp [Node.starts])
  have h2 := (C45_extents h hn).stops (l.stop, b.loc.stop) (by simp [Node.stops])
  cases l; simp_all

/-- C45 for functions: the span is from the word `function` to the closing brace, or, if that is missing, to
the end of the source. -/
theorem C45_function {fuel : Nat} {src : Bytes} {m : List Stmt} (h : parse fuel src = .ok (.ok m)) {l : Loc}
    {f : Func} (hn : .stmt (.function l f) ∈ moduleNodes m) :
    slice src l.start (l.start + 8) = bs!"function" ∧
    (1 ≤ l.stop ∧ slice src (l.stop - 1) l.stop = bs!"}" ∨ Ended src l.stop) := by
  refine ⟨(C45_extents h hn).opens (l.start, bs!"function") (by simp [Node.opens]), ?_⟩
  have h2 := (C45_extents h hn).stops (l.stop, (funcBodyLoc f).stop) (by simp [Node.stops])
  have hf : .func f ∈ moduleNodes m := moduleNodes_children hn (by simp [Node.children])
  have h3 := ((C45_extents h hf).braces (funcBodyLoc f) (by cases f; simp [Node.braces, funcBodyLoc])).2
  simp only at h2
  rw [h2]
  exact h3

/-- C45 for `if` statements: the span is from the word `if` to the stop of the last branch. -/
theorem C45_if {fuel : Nat} {src : Bytes} {m : List Stmt} (h : parse fuel src = .ok (.ok m)) {l : Loc}
    {c : Expr} {a : Stmt} {b : Option Stmt} (hn : .stmt (.ifS l c a b) ∈ moduleNodes m) :
    slice src l.start (l.start + 2) = bs!"if" ∧ l.stop = (b.getD a).loc.stop := by
  refine ⟨(C45_extents h hn).opens (l.start, bs!"if") (by simp [Node.opens]), ?_⟩
  cases b with
  | none => exact (C45_extents h hn).stops (l.stop, a.loc.stop) (by simp [Node.stops])
  | some b => exact (C45_extents h hn).stops (l.stop, b.loc.stop) (by simp [Node.stops])

/-! ### Code generation and scope analysis of accepted modules -/

/-- C22: code generation of an accepted module finishes. -/
theorem C22_accepted_no_panic {fuel : Nat} {src : Bytes} {m : List Stmt} (h : parse fuel src = .ok (.ok m))
    (minify : Bool) : ∃ x, codegen m minify = .ok x :=
  C22_codegen_no_panic m (fun _ hn => (C13_no_placeholders h hn).1) minify

/-- C23 for accepted modules. -/
theorem C23_accepted {fuel : Nat} {src : Bytes} {m : List Stmt} (h : parse fuel src = .ok (.ok m)) :
    ∃ x y, codegen m true = .ok x ∧ codegen m false = .ok y ∧ x = (written (codeModuleMin m)).flatten ∧
      Spread (written (codeModuleMin m)) y := by
  obtain ⟨x, hx⟩ := C22_accepted_no_panic h true
  obtain ⟨y, hy⟩ := C22_accepted_no_panic h false
  exact ⟨x, y, hx, hy, C23_pretty_adds_blanks m (fun _ hn => (C13_no_placeholders h hn).1) hx hy⟩

/-- C24 for accepted modules. -/
theorem C24_accepted {fuel : Nat} {src : Bytes} {m : List Stmt} (h : parse fuel src = .ok (.ok m)) :
    ∃ x, runPretty 0 (codeModulePretty m) = .ok (x, 0) :=
  C24_module_balanced m fun _ hn => (C13_no_placeholders h hn).1

/-- C25 for accepted modules. -/
theorem C25_accepted {fuel : Nat} {src : Bytes} {m : List Stmt} (h : parse fuel src = .ok (.ok m))
    {x : Bytes} (hx : codegen m true = .ok x) (hl : #b'\n' ∈ x) :
    ∃ n ∈ moduleNodes m, ∃ t ∈ n.texts, #b'\n' ∈ t :=
  C25_minified_lines m (fun _ hn => (C13_no_placeholders h hn).1) hx hl

/-- C31 and C32 for accepted modules. -/
theorem C31_C32_accepted {fuel : Nat} {src : Bytes} {m : List Stmt} (h : parse fuel src = .ok (.ok m)) :
    analyze m = .ok (moduleScope m) :=
  C31_C32_analyze m fun _ hn => (C13_no_placeholders h hn).1

end Ratel

/-! ### The hypotheses are met, the conclusions are not trivial -/
namespace Ratel
open Spec

local instance acceptedExamplesUnicode : Unicode := ⟨fun _ => true⟩

/-- A source with most kinds of nodes is accepted. -/
def richSource : Bytes := bs!"import d, {x as y} from 'mod'; a.b[c](1, 0b1, ...e).f += `p${q}r${s}t`; /* c */
  let [f,, g = 2] = [,h], {i, j: k} = {l, 'm': n, [o]: p, q() {}}; lbl: for (var u of v) break lbl;
  class A extends B { constructor(z, ...w) { x = new.target } static get y() {} k = /re/g; }
  function* gen(o = 1) { try { throw -1 } catch (e) { i++ } finally { return (x, y) => x ? y : this } }
  switch (t) { case 1: tag`x`; default: }"

example : ∃ m, parse 200 richSource = .ok (.ok m) := of_accepted (by decide +kernel)

/-- Each condition excludes something. -/
example : ¬ NoPlaceholder (.expr (.ident ⟨0, 0⟩ [])) := fun h => h.named [] (by simp [Node.names]) rfl
example : ¬ NoPlaceholder (.stmt (.throw ⟨0, 5⟩ (.void ⟨0, 0⟩))) := fun h => by
  have := h.noHole rfl (.expr (.void ⟨0, 0⟩)) (by simp [Node.children])
  simp [Node.isHole] at this
example : ¬ Verbatim bs!"ab" (.expr (.ident ⟨0, 2⟩ bs!"a")) := fun h => by
  have := h.written (⟨0, 2⟩, bs!"a") (by simp [Node.written])
  revert this; decide
example : ¬ SpansInside bs!"ab" (.expr (.ident ⟨0, 3⟩ bs!"ab")) := fun h => by
  have := (h ⟨0, 3⟩ (by simp [Node.span, Expr.loc])).2
  revert this; decide
example : ¬ Nested (.stmt (.throw ⟨0, 5⟩ (.ident ⟨6, 7⟩ bs!"a"))) := fun h => by
  have := h.stop ⟨0, 5⟩ (by simp [Node.span, Stmt.loc]) (.expr (.ident ⟨6, 7⟩ bs!"a")) (by simp [Node.children]) ⟨6, 7⟩
    (by simp [Node.span, Expr.loc])
  revert this; decide
example : ¬ Nested (.expr (.array ⟨0, 9⟩ [.ident ⟨1, 3⟩ bs!"a", .ident ⟨2, 4⟩ bs!"b"])) := fun h => by
  have := h.apart
  simp [Node.children, Node.span, Node.listed, Expr.loc] at this
example : ¬ Assignable (.expr (.binary ⟨0, 5⟩ .Assign (.this ⟨0, 4⟩) (.this ⟨0, 4⟩))) := fun h => by
  have := h (by decide)
  simp [isTarget] at this
example : ¬ OperatorsFit (.expr (.prefix ⟨0, 5⟩ .Multiplication (.this ⟨0, 4⟩))) := fun h => by
  revert h; simp [OperatorsFit]; decide
example : ¬ WellShaped (.expr (.seq ⟨0, 5⟩ [.this ⟨0, 4⟩])) := fun h => by simp [WellShaped] at h
example : ¬ Extent bs!"[] ;" (.expr (.array ⟨0, 4⟩ [])) := fun h => by
  have := h.closes (4, bs!"]") (by simp [Node.closes])
  revert this; simp only [Closes]; decide

/-! What `Extent` leaves out, it has to: the spans of the statements below, which are those of their
expressions, are not the extents of their texts. -/

/-- The spans of the statements of an accepted module, and those of their expressions. -/
def statementSpans (src : Bytes) : Option (List (Nat × Nat × Option (Nat × Nat))) :=
  match parse 60 src with
  | .ok (.ok m) => some <| m.map fun s => (s.loc.start, s.loc.stop, match s with
      | .expr _ e => some (e.loc.start, e.loc.stop)
      | _ => none)
  | _ => none

/-- The span of a property access, of a prefix operator, of an arrow function and of a sequence ends with the
token after it. -/
example : statementSpans bs!"a.b  ;" = some [(0, 6, some (0, 6))] := by decide +kernel
example : statementSpans bs!"-a  ;" = some [(0, 5, some (0, 5))] := by decide +kernel
example : statementSpans bs!"a => b  ;" = some [(0, 9, some (0, 9))] := by decide +kernel
example : statementSpans bs!"a, b  ;" = some [(0, 7, some (0, 7))] := by decide +kernel
/-- So statements can overlap, unlike operands, arguments and elements. -/
example : statementSpans bs!"a.b\nccc" = some [(0, 7, some (0, 7)), (4, 7, some (4, 7))] := by decide +kernel
/-- So does that of a declaration. -/
example : statementSpans bs!"var a = 1  ;" = some [(0, 12, none)] := by decide +kernel
/-- The span of a call starts with its parenthesis, that of its statement with the callee. -/
example : statementSpans bs!"abc(1)  ;" = some [(0, 6, some (3, 6))] := by decide +kernel
/-- But not if the callee is no name. -/
example : statementSpans bs!"[](1)  ;" = some [(2, 5, some (2, 5))] := by decide +kernel
/-- The span of an import without bindings starts with the string. -/
example : (statementSpans bs!"import 'x'").map (·.head?) = some (some (7, 10, none)) := by decide +kernel
/-- The closing brace of a block may be missing. -/
example : statementSpans bs!"{ a; " = some [(0, 5, none)] := by decide +kernel
end Ratel
