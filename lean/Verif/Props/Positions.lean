import Verif.Spec.Positions
import Verif.Spec.ReadEstree
import Verif.Lemmas.PlacedJson
import Verif.Props.Accepted
import Verif.Props.Lexer
import Verif.Props.Parser
/-! C71: positions are exact. -/
namespace Ratel
open Spec

set_option linter.unusedSectionVars false
section
variable {L : Loc → Prop} {Q : Shown} [Unicode]

/-- The members of an object. -/
def members : Json → List (String × Json)
  | .obj fs => fs
  | _ => []

theorem Placed.inside {x j : Json} (h : Placed L Q j) (hx : Inside x j) : Placed L Q x := by
  induction hx with
  | self => exact h
  | item hm _ ih => cases h with | arr h => exact ih (h _ hm)
  | member hm _ ih =>
    generalize hj : Json.obj _ = j at h
    cases h <;> simp only [Json.obj.injEq, reduceCtorEq] at hj
    case aux h _ => subst hj; exact ih (h _ hm)
    case node h _ =>
      subst hj
      simp only [List.cons_append, List.nil_append, List.mem_cons, List.mem_append, List.not_mem_nil, or_false,
        Prod.mk.injEq] at hm
      rcases hm with ⟨-, rfl⟩ | hm | ⟨-, rfl⟩ | ⟨-, rfl⟩
      · exact ih (.sym _)
      · exact ih (h _ hm)
      · exact ih (.int _)
      · exact ih (.int _)

omit [Unicode] in
theorem mem_members {l : String} {x : Json} : ∀ {fs : List (String × Json)}, fs.lookup l = some x → (l, x) ∈ fs
  | [], h => by simp at h
  | (k, y) :: fs, h => by
    rw [List.lookup_cons] at h
    split at h
    · rename_i hk
      simp only [beq_iff_eq] at hk
      simp only [Option.some.injEq] at h
      subst h hk
      simp
    · simp [mem_members h]

/-- Only nodes have types and positions. -/
theorem Placed.position {j v : Json} {k : String} (h : Placed L Q j) (hk : k = "type" ∨ k = "start" ∨ k = "end") (hm : (k, v) ∈ members j) :
    ∃ l, L l ∧ ∃ ty fs, Q ty fs l ∧ j = .obj ([("type", .sym ty)] ++ fs ++ [("start", .int l.start), ("end", .int l.stop)]) ∧
        ∀ f ∈ fs, f.1 ≠ "start" ∧ f.1 ≠ "end" := by
  cases h <;> simp only [members, List.not_mem_nil] at hm
  case aux h h' =>
    have := h' _ hm
    rcases hk with rfl | rfl | rfl <;> simp at this
  case node ty fs l hl hq h h' => exact ⟨l, hl, ty, fs, hq, rfl, h'⟩

/-- What a literal or a piece of a template shows at its span. -/
def ShownAt (src : Bytes) : Shown := fun ty fs l =>
  (ty = "Literal" → ∃ r, fs.lookup "raw" = some (.str r) ∧ slice src l.start l.stop = r) ∧
  (ty = "TemplateElement" → ∃ r, fs.lookup "value" = some (.obj [("raw", .str r), ("cooked", .str r)]) ∧
    (slice src l.start l.stop = r ∨ slice src l.start l.stop = r ++ bs!"$"))

omit [Unicode] in
theorem ShownAt.few (src : Bytes) : (ShownAt src).Few := fun _ _ _ h1 h2 => ⟨fun h => absurd h h1, fun h => absurd h h2⟩

/-- The spans of a document. -/
theorem placed_module {fuel : Nat} {src : Bytes} {m : List Stmt} (h : parse fuel src = .ok (.ok m)) {j : Json}
    (hj : genModule m = .ok j) : Placed (fun l => l.start ≤ l.stop ∧ l.stop ≤ src.length) (ShownAt src) j := by
  have hn : ∀ s ∈ m, (Node.stmt s).Forall (NodePlaced (fun l => l.start ≤ l.stop ∧ l.stop ≤ src.length) (ShownAt src)) := by
    intro s hs n hn
    have hm : n ∈ moduleNodes m := by
      simp only [moduleNodes, List.mem_flatMap]
      exact ⟨s, hs, hn⟩
    refine ⟨C15_spans_in_source h hm, fun q hq hs => ?_, ?_, ?_⟩
    · obtain ⟨d, e, ht, hd, he⟩ := (C14_verbatim h hm).2.1 q hq
      have h2 : d.length = 1 := by rcases hd with rfl | rfl <;> rfl
      have h3 : 1 ≤ e.length := by rcases he with rfl | rfl <;> simp
      have hi : q.loc.start ≤ q.loc.stop ∧ q.loc.stop ≤ src.length := by
        refine C15_spans_in_source h hm _ (List.mem_append_right _ ?_)
        revert hq
        cases n <;> simp only [Node.quasis, List.not_mem_nil, false_implies]
        rename_i e
        cases e <;> simp only [List.not_mem_nil, false_implies, Node.innerSpans]
        · exact fun hq => List.mem_map_of_mem hq
        · exact fun hq => List.mem_cons_of_mem _ (List.mem_map_of_mem hq)
      have hl := congrArg List.length ht
      simp only [slice, List.length_take, List.length_drop, List.length_append] at hl
      refine ⟨⟨?_, ?_⟩, fun t => ⟨by simp, fun _ => ⟨q.name, rfl, ?_⟩⟩⟩
      · show q.loc.start + 1 ≤ q.loc.stop - 1
        omega
      · show q.loc.stop - 1 ≤ src.length
        omega
      · have hs : slice src (q.loc.start + 1) (q.loc.stop - 1) = ((slice src q.loc.start q.loc.stop).drop 1).dropLast := by
          simp only [slice, List.dropLast_eq_take, List.drop_take, List.drop_drop, List.take_take, List.length_take,
            List.length_drop]
          congr 1
          omega
        show slice src (q.loc.start + 1) (q.loc.stop - 1) = _ ∨ _ = _
        rw [hs, ht]
        rcases hd with rfl | rfl <;> rcases he with rfl | rfl <;> simp [List.dropLast_append_of_ne_nil]
    · rintro l v rfl fs hf
      exact ⟨fun _ => ⟨_, hf, C14_literal h hm⟩, by simp⟩
    · rintro l e rfl
      have he := C45_extents h hm
      have h1 := he.starts (l.start, e.loc.start) (by simp [Node.starts])
      have h2 := he.stops (l.stop, e.loc.stop) (by simp [Node.stops])
      cases l
      simp only at h1 h2
      rw [h1, h2]
  refine Placing.withLoc ?_ (Placing.inLoc (ShownAt.few src) (by simp) (by simp) (Placing.fieldsCons ⟨by simp, by simp⟩ ?_ Placing.fieldsNil)) j hj
  · have hi : ∀ s ∈ m, s.loc.start ≤ s.loc.stop ∧ s.loc.stop ≤ src.length := fun s hs =>
      C15_spans_in_source h (n := .stmt s) (by
        simp only [moduleNodes, List.mem_flatMap]
        exact ⟨s, hs, by rw [Node.all_eq]; simp⟩) _ (by simp [Node.span])
    have ho := (C41_spans_nest h).2
    clear h hj
    cases m with
    | nil => simp [moduleLoc]
    | cons s ss =>
      simp only [moduleLoc]
      have hl := hi _ (List.getLast_mem (l := s :: ss) (by simp))
      refine ⟨?_, hl.2⟩
      by_cases hs : ss = []
      · subst hs; exact (hi s (by simp)).1
      · rw [List.getLast_cons hs] at hl ⊢
        exact Nat.le_trans ((List.pairwise_cons.1 ho).1 _ (List.getLast_mem hs)) hl.1
  · rw [genStmts_eq]
    exact Placing.array fun s hs => Placing.node (ShownAt.few src) (.stmt s) (hn s hs)

/-! ### The claims -/

/-- C71 for the lexer: at every token of a source of less than 4 GiB, the conversions to 32 bits lose
nothing. -/
theorem C71_lexer {src : Bytes} (hs : src.length < 2 ^ 32) {l : Lex} (h : Lexing src l) :
    asU32 l.tokenStart = l.tokenStart ∧ asU32 l.index = l.index := by
  have := h.wf.start
  have := h.wf.index
  simp only [asU32]
  omega

/-- C71 for trees. -/
theorem C71_tree {fuel : Nat} {src : Bytes} (hs : src.length < 2 ^ 32) {m : List Stmt} (h : parse fuel src = .ok (.ok m))
    {n : Node} (hn : n ∈ moduleNodes m) {l : Loc} (hl : l ∈ n.span.toList ++ n.innerSpans) :
    asU32 l.start = l.start ∧ asU32 l.stop = l.stop := by
  have := C15_spans_in_source h hn l hl
  simp only [asU32]
  omega

/-- C71 for errors. -/
theorem C71_errors {fuel : Nat} {src : Bytes} (hs : src.length < 2 ^ 32) {es : List Err} (h : parse fuel src = .ok (.error es))
    {e : Err} (he : e ∈ es) : asU32 e.start = e.start ∧ asU32 e.stop = e.stop := by
  have := C12_errors_point_into_source h e he
  simp only [asU32]
  omega

/-- The members of a node, and its claims. -/
theorem Placed.node_fields {x : Json} (h : Placed L Q x) {k : String} (hk : k = "type" ∨ k = "start" ∨ k = "end") (hp : field k x ≠ none) :
    ∃ (l : Loc) (ty : String) (fs : List (String × Json)), L l ∧ Q ty fs l ∧ field "type" x = some (.sym ty) ∧
      field "start" x = some (.int l.start) ∧ field "end" x = some (.int l.stop) ∧
      ∀ k v, k ≠ "type" → fs.lookup k = some v → field k x = some v := by
  have hf : ∃ v, (k, v) ∈ members x := by
    cases x <;> simp only [field, ne_eq, not_true_eq_false] at hp
    rename_i fs
    cases hv : fs.lookup k with
    | none => exact absurd hv hp
    | some v => exact ⟨v, mem_members hv⟩
  obtain ⟨v, hv⟩ := hf
  obtain ⟨l, hl, ty, fs, hq, rfl, hn⟩ := h.position hk hv
  have hno : ∀ k, (k = "start" ∨ k = "end") → ∀ r : List (String × Json), (fs ++ r).lookup k = r.lookup k := by
    intro k hk r
    clear hv h hp hq
    induction fs with
    | nil => rfl
    | cons f fs ih =>
      have hf := hn f (by simp)
      have : (k == f.1) = false := by
        rcases hk with rfl | rfl
        · simpa using Ne.symm hf.1
        · simpa using Ne.symm hf.2
      rw [List.cons_append, List.lookup_cons, this]
      exact ih fun f hf => hn f (by simp [hf])
  refine ⟨l, ty, fs, hl, hq, rfl, ?_, ?_, ?_⟩
  · simp only [field, List.cons_append, List.nil_append]
    rw [List.lookup_cons]
    simp only [show ("start" == "type") = false from by decide]
    rw [hno _ (.inl rfl)]
    rfl
  · simp only [field, List.cons_append, List.nil_append]
    rw [List.lookup_cons]
    simp only [show ("end" == "type") = false from by decide]
    rw [hno _ (.inr rfl)]
    rfl
  · clear hv
    intro k v hk hv
    simp only [field, List.cons_append, List.nil_append]
    rw [List.lookup_cons]
    have : (k == "type") = false := by simpa using hk
    simp only [this]
    clear hn hno h hp hq hl
    induction fs with
    | nil => simp at hv
    | cons f fs ih =>
      rw [List.cons_append]
      rw [List.lookup_cons] at hv ⊢
      split at hv
      · exact hv
      · exact ih hv

/-- C71 for documents: every object of the ESTree document of an accepted source that has one of the members
`type`, `start` and `end` has all of them, and the latter are a range of the source. -/
theorem C71_document {fuel : Nat} {src : Bytes} {m : List Stmt} (h : parse fuel src = .ok (.ok m)) {j : Json}
    (hj : genModule m = .ok j) {x : Json} (hx : Inside x j) {k : String} (hk : k = "type" ∨ k = "start" ∨ k = "end")
    (hp : field k x ≠ none) :
    ∃ (ty : String) (a b : Nat), field "type" x = some (.sym ty) ∧ field "start" x = some (.int a) ∧
      field "end" x = some (.int b) ∧ a ≤ b ∧ b ≤ src.length := by
  obtain ⟨l, ty, fs, hl, -, h1, h2, h3, -⟩ := ((placed_module h hj).inside hx).node_fields hk hp
  exact ⟨ty, l.start, l.stop, h1, h2, h3, hl.1, hl.2⟩

/-- C72 for literals: `raw` is the text of the source between `start` and `end`. -/
theorem C72_literals {fuel : Nat} {src : Bytes} {m : List Stmt} (h : parse fuel src = .ok (.ok m)) {j : Json}
    (hj : genModule m = .ok j) {x : Json} (hx : Inside x j) (ht : field "type" x = some (.sym "Literal")) :
    ∃ a b : Nat, field "start" x = some (.int a) ∧ field "end" x = some (.int b) ∧ a ≤ b ∧ b ≤ src.length ∧
      field "raw" x = some (.str (slice src a b)) := by
  obtain ⟨l, ty, fs, hl, hq, h1, h2, h3, h4⟩ := ((placed_module h hj).inside hx).node_fields (.inl rfl) (by rw [ht]; simp)
  rw [ht] at h1
  simp only [Option.some.injEq, Json.sym.injEq] at h1
  obtain ⟨r, hr, rfl⟩ := hq.1 h1.symm
  exact ⟨l.start, l.stop, h2, h3, hl.1, hl.2, h4 _ _ (by simp) hr⟩

/-- C72 for pieces of templates: the text between `start` and `end` is `value.raw`, or, in front of an embedded
expression, `value.raw` and a dollar sign. -/
theorem C72_templates {fuel : Nat} {src : Bytes} {m : List Stmt} (h : parse fuel src = .ok (.ok m)) {j : Json}
    (hj : genModule m = .ok j) {x : Json} (hx : Inside x j) (ht : field "type" x = some (.sym "TemplateElement")) :
    ∃ (a b : Nat) (v : Json) (r : Bytes), field "start" x = some (.int a) ∧ field "end" x = some (.int b) ∧ a ≤ b ∧ b ≤ src.length ∧
      field "value" x = some v ∧ field "raw" v = some (.str r) ∧ (slice src a b = r ∨ slice src a b = r ++ bs!"$") := by
  obtain ⟨l, ty, fs, hl, hq, h1, h2, h3, h4⟩ := ((placed_module h hj).inside hx).node_fields (.inl rfl) (by rw [ht]; simp)
  rw [ht] at h1
  simp only [Option.some.injEq, Json.sym.injEq] at h1
  obtain ⟨r, hr, hs⟩ := hq.2 h1.symm
  exact ⟨l.start, l.stop, _, r, h2, h3, hl.1, hl.2, h4 _ _ (by simp) hr, rfl, hs⟩

/-- C71 for the program: it starts with its first and ends with its last statement; the empty program is at
the start of the source. -/
theorem C71_program {m : List Stmt} {j : Json} (hj : genModule m = .ok j) :
    field "type" j = some (.sym "Program") ∧
    field "start" j = some (.int ((m.head?.map fun s => s.loc.start).getD 0)) ∧
    field "end" j = some (.int ((m.getLast?.map fun s => s.loc.stop).getD 0)) := by
  simp only [genModule, withLoc, inLoc, fields, Out.bind_eq_ok] at hj
  obtain ⟨a, ⟨b, ⟨c, -, d, hd, hb⟩, ha⟩, hj⟩ := hj
  cases hd
  cases hb
  cases ha
  cases hj
  refine ⟨rfl, ?_, ?_⟩
  · cases m <;> rfl
  · cases m with
    | nil => rfl
    | cons s ss =>
      rw [List.getLast?_eq_some_getLast (by simp)]
      rfl

end

section
local instance uniPositions : Unicode := ⟨fun _ => true⟩

/-- A document with a template; its first piece, `x$`, is at 3-5. -/
example : (match parse 60 bs!"a+`x${b}`;" with
    | .ok (.ok m) => (match genModule m with
      | .ok j => (do
          let b ← field "body" j
          let s ← (match b with | .arr (s :: _) => some s | _ => none)
          let e ← field "expression" s
          let r ← field "right" e
          let q ← field "quasis" r
          let p ← (match q with | .arr (p :: _) => some p | _ => none)
          let x ← field "start" p
          let y ← field "end" p
          match x, y with
          | .int 3, .int 5 => some true
          | _, _ => none) == some true
      | _ => false)
    | _ => false) = true := by decide +kernel

/-- A literal at 4-7. -/
example : (match parse 60 bs!"a = 'b'" with
    | .ok (.ok m) => (match genModule m with
      | .ok j => (do
          let b ← field "body" j
          let s ← (match b with | .arr (s :: _) => some s | _ => none)
          let e ← field "expression" s
          let r ← field "right" e
          let t ← field "type" r
          let w ← field "raw" r
          let x ← field "start" r
          let y ← field "end" r
          match t, w, x, y with
          | .sym t, .str w, .int 4, .int 7 => some (t == "Literal" && w == bs!"'b'")
          | _, _, _, _ => none) == some true
      | _ => false)
    | _ => false) = true := by decide +kernel
end

end Ratel
