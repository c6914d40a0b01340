import Verif.Spec.Operators
import Verif.Lemmas.Spell
import Verif.Lemmas.CompleteAll
/-! C42: every program of the grammar is accepted, with the tree the grammar gives it. C18: operators. -/
namespace Ratel
open Spec

set_option linter.unusedSectionVars false
variable [Unicode]

/-- C42: a source that spells a program of the grammar is accepted, and the tree is that of the grammar. -/
theorem C42_accepts {src : Bytes} {i : List Item} {ss : List Stmt} (hs : Spells src i) (hg : G i (.program ss) []) :
    Accepts parse src ss := by
  obtain ⟨l, h1, h2⟩ := hs.stream
  have hp : Complete.Prog i ss [] := Complete.all hg
  obtain ⟨ms, l', h3, -, N, h4⟩ := Complete.program_run hp l h2
  refine ⟨N, ms, h3, fun fuel hf => ?_⟩
  have h4 : program fuel (procs fuel) ⟨l, []⟩ = _ := h4 fuel hf
  have hr : runParser fuel src = .ok (ms, ⟨l', []⟩) := by
    unfold runParser
    rw [h1]
    exact h4
  rw [parse, hr]
  rfl

/-- C42: the grammar is unambiguous. -/
theorem C42_unique {src : Bytes} {i i' : List Item} {ss ss' : List Stmt} (hs : Spells src i) (hg : G i (.program ss) [])
    (hs' : Spells src i') (hg' : G i' (.program ss') []) : ss = ss' := by
  obtain ⟨N, ms, h1, h2⟩ := C42_accepts hs hg
  obtain ⟨N', ms', h1', h2'⟩ := C42_accepts hs' hg'
  have e := (h2 (max N N') (by omega)).symm.trans (h2' (max N N') (by omega))
  simp only [Out.ok.injEq, Except.ok.injEq] at e
  rw [← h1, ← h1', e]

/-! ### Spaced words -/

/-- A word that is the token `t` wherever white space or the end follows. -/
def SpacedTok (t : Token) (p : Bytes) : Prop := special t = false ∧ ∀ r, next r = 0 ∨ isSpace (next r) = true → Lexeme t p r

theorem space_word : ∀ {c : Byte}, c = 0 ∨ isSpace c = true → wordByte c = false ∧ c ≠ #b'/' ∧ c ≠ #b'*' := by
  intro c
  exact byte_forall (P := fun c => c = 0 ∨ isSpace c = true → wordByte c = false ∧ c ≠ #b'/' ∧ c ≠ #b'*') (by decide +kernel) c

theorem spaced_punct {t : Token} {p : Bytes} (h : (p, t) ∈ puncts) : SpacedTok t p := by
  have h1 : ∀ x ∈ puncts, special x.2 = false ∧ ∀ c ∈ extensions x.1, c ≠ 0 ∧ isSpace c = false := by
    decide +kernel
  obtain ⟨h1, h2⟩ := h1 _ h
  refine ⟨h1, fun r hr => .punct h (punct_max ?_) ?_⟩
  · intro hc
    obtain ⟨e1, e2⟩ := h2 _ hc
    rcases hr with hr | hr
    · exact e1 hr
    · rw [hr] at e2; cases e2
  · intro _
    exact (space_word hr).2

theorem special_wordToken (w : Bytes) : special (wordToken w) = false := by
  have h1 : ∀ x ∈ keywords, special x.2 = false := by decide +kernel
  unfold wordToken
  cases h : keywords.lookup w with
  | none => rfl
  | some k => exact h1 _ (Lex.mem_of_lookup h)

theorem spaced_word {c : Byte} {w : Bytes} (hc : wordStart c = true) (hw : ∀ b ∈ w, wordByte b = true) :
    SpacedTok (wordToken (c :: w)) (c :: w) :=
  ⟨special_wordToken _, fun r hr => .word hc hw (space_word hr).1⟩

theorem spaced_name {w : Bytes} (h : IsName w) : SpacedTok .Identifier w := by
  obtain ⟨c, v, rfl, h1, h2, h3⟩ := h
  rw [← h3]
  exact spaced_word h1 h2

/-- The items of words with a blank before each. -/
def spacedItems (l : List (Token × Bytes)) : List Item := l.map fun x => .tok x.1 x.2 (asiBefore x.1 false)

theorem spells_spaced {l : List (Token × Bytes)} (h : ∀ x ∈ l, SpacedTok x.1 x.2) {r : Bytes} {i : List Item}
    (hr : next r = 0 ∨ isSpace (next r) = true) (hi : Spells r i) :
    Spells (l.flatMap (fun x => #b' ' :: x.2) ++ r) (spacedItems l ++ i) := by
  induction l with
  | nil => exact hi
  | cons x l ih =>
    have ih := ih fun y hy => h y (List.mem_cons_of_mem _ hy)
    obtain ⟨h1, h2⟩ := h x (List.mem_cons_self ..)
    have hn : next (l.flatMap (fun x => #b' ' :: x.2) ++ r) = 0 ∨ isSpace (next (l.flatMap (fun x => #b' ' :: x.2) ++ r)) = true := by
      cases l with
      | nil => exact hr
      | cons y l => exact .inr rfl
    have := Spells.tok (g := bs!" ") (b := false) (p := x.2) (.space (by decide) .nil) (h2 _ hn) h1 ih
    simpa [spacedItems, List.append_assoc] using this

/-! ### C18 -/

section
variable {k : Nat} {i j : List Item}

theorem continues_mono {k' : Nat} (hk : k ≤ k') (h : continues k j = false) : continues k' j = false := by
  revert h
  unfold continues
  split
  all_goals (try simp)
  · omega
  · omega
  · intro h1 h2
    constructor
    · intro h3; have := h1 h3; omega
    · revert h2
      cases binaryOp (look j) with
      | none => simp
      | some x => simp; omega

/-- The token of each operator. -/
def opTok (op : Op) : Token := (Token.all.find? fun t => Op.fromToken t == some op).getD .Comma

theorem op_binary {op : Op} {p : Nat} (h : precedence op = some p) :
    binaryOp (opTok op) = some (op, p) ∧ 5 ≤ p ∧ p ≤ 15 := by
  have h1 : ∀ op ∈ Op.all, (match precedence op with
    | some p => decide (binaryOp (opTok op) = some (op, p) ∧ 5 ≤ p ∧ p ≤ 15)
    | none => true) = true := by decide +kernel
  have := h1 op op.mem_all
  rw [h] at this
  exact of_decide_eq_true this

theorem op_unary {op : Op} (h : unaryOperator op = true) : prefixOp (opTok op) = some op := by
  have h1 : ∀ op ∈ Op.all, unaryOperator op = true → prefixOp (opTok op) = some op := by decide +kernel
  exact h1 op op.mem_all h

theorem op_assign {op : Op} (h : assignOperator op = true) : assignOp (opTok op) = some op := by
  have h1 : ∀ op ∈ Op.all, assignOperator op = true → assignOp (opTok op) = some op := by decide +kernel
  exact h1 op op.mem_all h

def opWords : List (Bytes × Token) := [(bs!"in", .OperatorIn), (bs!"instanceof", .OperatorInstanceof),
  (bs!"typeof", .OperatorTypeof), (bs!"void", .OperatorVoid), (bs!"delete", .OperatorDelete)]

theorem op_spaced {op : Op} (h : (precedence op).isSome ∨ unaryOperator op = true ∨ assignOperator op = true) :
    SpacedTok (opTok op) op.asStr := by
  have h1 : ∀ op ∈ Op.all, (precedence op).isSome ∨ unaryOperator op = true ∨ assignOperator op = true →
      (op.asStr, opTok op) ∈ puncts ∨ (op.asStr, opTok op) ∈ opWords := by decide +kernel
  rcases h1 op op.mem_all h with h | h
  · exact spaced_punct h
  · have h2 : ∀ x ∈ opWords, x.1 ≠ [] ∧ wordStart (next x.1) = true ∧ (∀ b ∈ x.1.tail, wordByte b = true) ∧ wordToken x.1 = x.2 := by
      decide +kernel
    obtain ⟨e1, e2, e3, e4⟩ := h2 _ h
    simp only at e1 e2 e3 e4
    cases hs : op.asStr with
    | nil => exact absurd hs e1
    | cons c w =>
      rw [hs] at e2 e3 e4
      rw [← e4]
      exact spaced_word e2 e3

/-- The tokens of an expression. -/
def Spec.Written.toks : Written → List (Token × Bytes)
  | .name w => [(.Identifier, w)]
  | .paren t => (.ParenOpen, bs!"(") :: t.toks ++ [(.ParenClose, bs!")")]
  | .unary op t => (opTok op, op.asStr) :: t.toks
  | .binary op a b => a.toks ++ (opTok op, op.asStr) :: b.toks
  | .cond a b c => a.toks ++ (.OperatorConditional, bs!"?") :: b.toks ++ (.Colon, bs!":") :: c.toks
  | .assign op w b => (.Identifier, w) :: (opTok op, op.asStr) :: b.toks

theorem written_text (t : Written) : t.text = t.toks.flatMap fun x => #b' ' :: x.2 := by
  have : t.words = t.toks.map (·.2) := by
    induction t <;> simp_all [Written.words, Written.toks]
  rw [Written.text, this, List.flatMap_map]

theorem written_spaced {t : Written} (h : Ordered k t) : ∀ x ∈ t.toks, SpacedTok x.1 x.2 := by
  induction t generalizing k with
  | name w => simpa [Written.toks] using spaced_name h
  | paren t ih =>
    intro x hx
    simp only [Written.toks, List.mem_cons, List.mem_append, List.not_mem_nil, or_false] at hx
    rcases hx with (rfl | hx) | rfl
    · exact spaced_punct (by decide)
    · exact ih h x hx
    · exact spaced_punct (by decide)
  | unary op t ih =>
    intro x hx
    simp only [Written.toks, List.mem_cons] at hx
    rcases hx with rfl | hx
    · exact op_spaced (.inr (.inl h.2.1))
    · exact ih h.2.2 x hx
  | binary op a b iha ihb =>
    obtain ⟨p, h1, h2, h3, h4⟩ := h
    intro x hx
    simp only [Written.toks, List.mem_cons, List.mem_append] at hx
    rcases hx with hx | rfl | hx
    · exact iha h3 x hx
    · exact op_spaced (.inl (by rw [h1]; rfl))
    · exact ihb h4 x hx
  | cond a b c iha ihb ihc =>
    obtain ⟨h1, h2, h3, h4⟩ := h
    intro x hx
    simp only [Written.toks, List.mem_cons, List.mem_append] at hx
    rcases hx with (hx | rfl | hx) | rfl | hx
    · exact iha h2 x hx
    · exact spaced_punct (by decide)
    · exact ihb h3 x hx
    · exact spaced_punct (by decide)
    · exact ihc h4 x hx
  | assign op w b ih =>
    obtain ⟨h1, h2, h3, h4⟩ := h
    intro x hx
    simp only [Written.toks, List.mem_cons] at hx
    rcases hx with rfl | rfl | hx
    · exact spaced_name h3
    · exact op_spaced (.inr (.inr h2))
    · exact ih h4 x hx

/-- What may follow an expression of power `k`: for binary operators also one of the same power. -/
def Follow (k : Nat) (j : List Item) : Prop := continues (if 2 ≤ k ∧ k ≤ 15 then k + 1 else k) j = false

theorem Follow.whole (h : Follow k j) {k' : Nat} (hk : k < k' ∨ k ≤ k' ∧ (k ≤ 1 ∨ 16 ≤ k)) : continues k' j = false := by
  refine continues_mono ?_ h
  split <;> omega

theorem follow_of (h : continues k j = false) : Follow k j := continues_mono (by split <;> omega) h

theorem follow_op {op : Op} {p : Nat} (h : precedence op = some p) {l : List (Token × Bytes)} :
    Follow p (spacedItems ((opTok op, op.asStr) :: l) ++ j) := by
  obtain ⟨h1, h2, h3⟩ := op_binary h
  have h0 : ∀ op ∈ Op.all, (match precedence op with
    | some p => decide (∀ a ∈ Asi.all, continues (p + 1) [.tok (opTok op) [] a] = false)
    | none => true) = true := by decide +kernel
  have := h0 op op.mem_all
  rw [h] at this
  have := of_decide_eq_true this (asiBefore (opTok op) false) (Asi.mem_all _)
  unfold Follow
  rw [if_pos (by omega)]
  simpa [spacedItems, continues, look, semicolon, Item.token] using this

theorem follow_tok {t : Token} {p : Bytes} {l : List (Token × Bytes)} (h : ∀ a, continues k [.tok t [] a] = false) :
    continues k (spacedItems ((t, p) :: l) ++ j) = false := by
  simpa [spacedItems, continues, look, semicolon, Item.token] using h (asiBefore t false)

theorem tk_spaced (t : Token) (p : Bytes) (l : List (Token × Bytes)) :
    Tk t (spacedItems ((t, p) :: l) ++ j) (spacedItems l ++ j) := ⟨p, _, rfl⟩

theorem spacedItems_append (a b : List (Token × Bytes)) : spacedItems (a ++ b) = spacedItems a ++ spacedItems b := by
  simp [spacedItems]

theorem written_expr {t : Written} : ∀ {k : Nat} {j : List Item}, Ordered k t → k ≤ 17 → Follow k j →
    G (spacedItems t.toks ++ j) (.expr k t.tree) j := by
  induction t with
  | name w => intro k j h hk hf; exact .ident hk ⟨_, rfl⟩
  | paren t ih =>
    intro k j h hk hf
    have := ih (k := 0) (j := spacedItems [(.ParenClose, bs!")")] ++ j) h (by omega)
      (follow_of (follow_tok (fun a => by cases a <;> decide)))
    refine .paren hk (tk_spaced _ _ _) (m := spacedItems (t.toks ++ [(.ParenClose, bs!")")]) ++ j) ?_ (tk_spaced _ bs!")" [])
    rw [spacedItems_append, List.append_assoc]
    exact .whole this (follow_tok (fun a => by cases a <;> decide))
  | unary op t ih =>
    intro k j h hk hf
    have hc := hf.whole (k' := 16) (by have := h.1; omega)
    exact .prefix h.1 (tk_spaced _ _ _) (op_unary h.2.1) (.whole (ih h.2.2 (by omega) (follow_of hc)) hc)
  | binary op a b iha ihb =>
    intro k j h hk hf
    obtain ⟨p, h1, h2, h3, h4⟩ := h
    obtain ⟨e1, e2, e3⟩ := op_binary h1
    have hc := hf.whole (k' := p + 1) (by omega)
    simp only [Written.toks, spacedItems_append, List.append_assoc]
    exact .binary e1 h2 (iha h3 (by omega) (follow_op h1)) (tk_spaced _ _ _) (.whole (ihb h4 (by omega) (follow_of hc)) hc)
  | cond a b c iha ihb ihc =>
    intro k j h hk hf
    obtain ⟨h1, h2, h3, h4⟩ := h
    have hc := hf.whole (k' := 1) (by omega)
    simp only [Written.toks, spacedItems_append, List.append_assoc]
    have h5 : Ordered 5 a := by
      cases a with
      | name => exact h2
      | paren => exact h2
      | unary => exact ⟨by omega, h2.2⟩
      | binary => obtain ⟨p, e, -, h⟩ := h2; exact ⟨p, e, (op_binary e).2.1, h⟩
      | cond => exact absurd h2.1 (by omega)
      | assign => exact absurd h2.1 (by omega)
    have hcol : continues 1 (spacedItems ((.Colon, bs!":") :: c.toks) ++ j) = false :=
      follow_tok (fun a => by cases a <;> decide)
    exact .cond h1 (iha h5 (by omega) (follow_tok (fun a => by cases a <;> decide))) (tk_spaced _ _ _)
      (.whole (ihb h3 (by omega) (follow_of hcol)) hcol) (tk_spaced _ _ _)
      (.whole (ihc h4 (by omega) (follow_of hc)) hc)
  | assign op w b ih =>
    intro k j h hk hf
    obtain ⟨h1, h2, h3, h4⟩ := h
    have hc := hf.whole (k' := 1) (by omega)
    exact .assign h1 (m := spacedItems ((opTok op, op.asStr) :: b.toks) ++ j) (.ident (by omega) ⟨_, rfl⟩) rfl (tk_spaced _ _ _)
      (op_assign h2) (.whole (ih h4 (by omega) (follow_of hc)) hc)

theorem written_start {t : Written} (h : Ordered k t) :
    ∃ x l, t.toks = x :: l ∧ x.1 ≠ .BraceOpen ∧ x.1 ≠ .Function ∧ x.1 ≠ .Class ∧
      (x.1 = .Identifier → ∀ y ∈ l.head?, y.1 ≠ .Colon) := by
  have hop : ∀ op ∈ Op.all, (unaryOperator op = true → opTok op ≠ .BraceOpen ∧ opTok op ≠ .Function ∧ opTok op ≠ .Class ∧
      opTok op ≠ .Identifier) ∧ opTok op ≠ .Colon := by decide +kernel
  induction t generalizing k with
  | name w => exact ⟨_, _, rfl, by simp⟩
  | paren t ih => exact ⟨_, _, rfl, by simp⟩
  | unary op t ih =>
    obtain ⟨h1, h2, h3, h4⟩ := (hop op op.mem_all).1 h.2.1
    exact ⟨_, _, rfl, h1, h2, h3, fun h => absurd h h4⟩
  | binary op a b iha ihb =>
    obtain ⟨p, h1, h2, h3, h4⟩ := h
    obtain ⟨x, l, e, e1, e2, e3, e4⟩ := iha h3
    refine ⟨x, l ++ (opTok op, op.asStr) :: b.toks, by simp [Written.toks, e], e1, e2, e3, fun hx y hy => ?_⟩
    cases l with
    | nil => simp at hy; subst hy; exact (hop op op.mem_all).2
    | cons z l => exact e4 hx y (by simpa using hy)
  | cond a b c iha ihb ihc =>
    obtain ⟨h1, h2, h3, h4⟩ := h
    obtain ⟨x, l, e, e1, e2, e3, e4⟩ := iha h2
    refine ⟨x, l ++ (.OperatorConditional, bs!"?") :: (b.toks ++ (.Colon, bs!":") :: c.toks), by simp [Written.toks, e], e1, e2, e3, fun hx y hy => ?_⟩
    cases l with
    | nil => simp at hy; subst hy; simp
    | cons z l => exact e4 hx y (by simpa using hy)
  | assign op w b ih => exact ⟨_, _, rfl, by simp, by simp, by simp, by simp; exact (hop op op.mem_all).2⟩

/-- C18: an operator expression whose parentheses respect the precedence of the operators is parsed as the tree it is
written for; binary operators of the same precedence associate to the left. -/
theorem C18_ordered {t : Written} (h : Ordered 0 t) : Accepts parse t.text [.expr z t.tree] := by
  have hsp : Spells ([] : Bytes) [] := .eof (g := []) (r := []) .nil rfl
  have h1 := spells_spaced (written_spaced h) (.inl rfl) hsp
  rw [← written_text, List.append_nil, List.append_nil] at h1
  refine C42_accepts h1 (.programMore (m := []) ?_ .programEnd)
  have hc : continues 0 [] = false := by decide
  have hg := written_expr h (by omega) (follow_of hc)
  rw [List.append_nil] at hg
  obtain ⟨x, l, e, e1, e2, e3, e4⟩ := written_start h
  refine .exprStmt ?_ ?_ ?_ ?_ (.whole hg hc) (.inserted rfl)
  · rw [e]; exact e1
  · rw [e]; exact e2
  · rw [e]; exact e3
  · rw [e]
    intro hx
    cases l with
    | nil => simp [spacedItems, look]
    | cons y l => exact e4 hx y rfl

theorem tree_wrap (b : Bool) (t : Written) : (Written.wrap b t).tree = t.tree := by cases b <;> rfl

theorem tree_minimal (t : Written) : ∀ k, (minimal k t).tree = t.tree := by
  induction t <;> intro k <;> simp_all [minimal, Written.tree, tree_wrap]

theorem ordered_wrap {b : Bool} {t : Written} (h : b = true → Ordered k t) (h' : b = false → Ordered 0 t) : Ordered k (.wrap b t) := by
  cases b
  · exact h' rfl
  · exact h rfl

theorem ordered_minimal {t : Written} (h : Sensible t) : ∀ k, Ordered k (minimal k t) := by
  induction t with
  | name w => intro k; exact h
  | paren t ih => exact ih h
  | unary op t ih =>
    intro k
    exact ordered_wrap (fun e => ⟨by simpa using e, h.1, ih h.2 16⟩) (fun e => ⟨by omega, h.1, ih h.2 16⟩)
  | binary op a b iha ihb =>
    intro k
    obtain ⟨h1, h2, h3⟩ := h
    obtain ⟨p, hp⟩ := Option.isSome_iff_exists.mp h1
    simp only [minimal, hp, Option.getD_some]
    exact ordered_wrap (fun e => ⟨p, hp, by simpa using e, iha h2 p, ihb h3 (p + 1)⟩)
      (fun e => ⟨p, hp, by omega, iha h2 p, ihb h3 (p + 1)⟩)
  | cond a b c iha ihb ihc =>
    intro k
    obtain ⟨h1, h2, h3⟩ := h
    exact ordered_wrap (fun e => ⟨by simpa using e, iha h1 2, ihb h2 1, ihc h3 1⟩)
      (fun e => ⟨by omega, iha h1 2, ihb h2 1, ihc h3 1⟩)
  | assign op w b ih =>
    intro k
    obtain ⟨h1, h2, h3⟩ := h
    exact ordered_wrap (fun e => ⟨by simpa using e, h1, h2, ih h3 1⟩) (fun e => ⟨by omega, h1, h2, ih h3 1⟩)

/-- C18: every tree of operators is what `parse` returns for its spelling with only the necessary parentheses. -/
theorem C18_minimal {t : Written} (h : Sensible t) : Accepts parse (minimal 0 t).text [.expr z t.tree] := by
  rw [← tree_minimal t 0]
  exact C18_ordered (ordered_minimal h 0)

theorem ordered_weaken {t : Written} {k' : Nat} (h : Ordered k t) (hk : k' ≤ k) : Ordered k' t := by
  cases t with
  | name => exact h
  | paren => exact h
  | unary => exact ⟨by have := h.1; omega, h.2⟩
  | binary => obtain ⟨p, h1, h2, h3⟩ := h; exact ⟨p, h1, by omega, h3⟩
  | cond => exact ⟨by have := h.1; omega, h.2⟩
  | assign => exact ⟨by have := h.1; omega, h.2⟩

/-- Chains of binary operators and names. -/
inductive Plain : Written → Prop where
  | name {w : Bytes} : Plain (.name w)
  | binary {op : Op} {a b : Written} (ha : Plain a) (hb : Plain b) : Plain (.binary op a b)

theorem extend_ordered {t : Written} {op : Op} {p : Nat} {w : Bytes} (ht : Plain t) (hp : precedence op = some p) (hw : IsName w) :
    ∀ {k : Nat}, Ordered k t → k ≤ p → Ordered k (extend op p w t) ∧ Plain (extend op p w t) ∧
      (extend op p w t).words = t.words ++ [op.asStr, w] := by
  induction ht with
  | name => intro k h hk; exact ⟨⟨p, hp, hk, h, hw⟩, .binary .name .name, rfl⟩
  | @binary q a b ha hb iha ihb =>
    intro k h hk
    obtain ⟨p', h1, h2, h3, h4⟩ := h
    rw [extend, h1]
    simp only [Option.getD_some]
    by_cases hlt : p' < p
    · rw [if_pos hlt]
      obtain ⟨i1, i2, i3⟩ := ihb h4 (by omega)
      exact ⟨⟨p', h1, h2, h3, i1⟩, .binary ha i2, by simp [Written.words, i3]⟩
    · rw [if_neg hlt]
      exact ⟨⟨p, hp, hk, ⟨p', h1, by omega, h3, h4⟩, hw⟩, .binary (.binary ha hb) .name, by simp [Written.words]⟩

theorem chain_ordered {l : List (Op × Bytes)} (hl : ∀ x ∈ l, (precedence x.1).isSome ∧ IsName x.2) :
    ∀ {t : Written}, Plain t → Ordered 0 t → Ordered 0 (chain t l) ∧
      (chain t l).words = t.words ++ l.flatMap fun x => [x.1.asStr, x.2] := by
  induction l with
  | nil => intro t ht h; exact ⟨h, by simp [chain]⟩
  | cons x l ih =>
    intro t ht h
    obtain ⟨h1, h2⟩ := hl x (List.mem_cons_self ..)
    obtain ⟨p, hp⟩ := Option.isSome_iff_exists.mp h1
    obtain ⟨e1, e2, e3⟩ := extend_ordered ht hp h2 h (by omega)
    obtain ⟨i1, i2⟩ := ih (fun y hy => hl y (List.mem_cons_of_mem _ hy)) e2 e1
    simp only [chain, hp, Option.getD_some]
    exact ⟨i1, by rw [i2, e3]; simp⟩

/-- C18: any chain `w op1 w1 op2 w2 …` of names and binary operators is parsed by precedence: each operator takes as
its left operand as much as does not bind looser than itself. -/
theorem C18_chain {w : Bytes} {l : List (Op × Bytes)} (hw : IsName w) (hl : ∀ x ∈ l, (precedence x.1).isSome ∧ IsName x.2) :
    Accepts parse ((w :: l.flatMap fun x => [x.1.asStr, x.2]).flatMap fun w => #b' ' :: w) [.expr z (chain (.name w) l).tree] := by
  obtain ⟨h1, h2⟩ := chain_ordered hl (t := .name w) .name hw
  have := C18_ordered h1
  rw [Written.text, h2] at this
  exact this

/-- C18, two operators: `a p b q c` is `(a p b) q c` if `q` does not bind tighter than `p`, and `a p (b q c)` otherwise. -/
theorem C18_two {a b c : Bytes} {p q : Op} {m n : Nat} (ha : IsName a) (hb : IsName b) (hc : IsName c)
    (hp : precedence p = some m) (hq : precedence q = some n) :
    Accepts parse (#b' ' :: a ++ #b' ' :: p.asStr ++ #b' ' :: b ++ #b' ' :: q.asStr ++ #b' ' :: c)
      [.expr z (if n ≤ m then .binary z q (.binary z p (.ident z a) (.ident z b)) (.ident z c)
        else .binary z p (.ident z a) (.binary z q (.ident z b) (.ident z c)))] := by
  have := C18_chain (l := [(p, b), (q, c)]) ha (by simp [hp, hq, hb, hc])
  simp only [chain, extend, hp, hq, Option.getD_some] at this
  by_cases h : n ≤ m
  · rw [if_neg (by omega)] at this
    rw [if_pos h]
    simpa [Written.tree] using this
  · rw [if_pos (by omega)] at this
    rw [if_neg h]
    simpa [Written.tree] using this

/-! ### C19 -/

/-- The text starts with a token or with the end of the program. -/
def Spec.TokenAhead (x : Bytes) : Prop := ∀ p s, TriviaPiece p s → x = p ++ s → False

theorem semicolon_lexeme {t : Token} {p r : Bytes} (h : Lexeme t p r) (ht : t = .Semicolon) : p = bs!";" := by
  have hp : ∀ x ∈ puncts, x.2 = .Semicolon → x.1 = bs!";" := by decide
  cases h with
  | punct h => exact hp _ h ht
  | word => have := Lex.closes_wordToken; rename_i c w _ _ _; have := this (c :: w); rw [ht] at this; cases this
  | _ => cases ht

theorem asi_of_break {g x : Bytes} {i : List Item} (hg : Gap false g x true) (hx : TokenAhead x) (hs : Spells (g ++ x) i) :
    semicolon i = .ImplicitSemicolon ∨ next x = #b';' := by
  obtain ⟨l, h1, h2⟩ := hs.stream
  rw [← h2.asi]
  rw [Lex.new, Lex.consume_eq] at h1
  rw [Lex.scanAll_gap hg { Lex.init (g ++ x) with asi := .NoSemicolon } rfl rfl] at h1
  rcases Lex.scanAll_cases { ({ Lex.init (g ++ x) with asi := .NoSemicolon } : Lex).moveTo x ((Lex.init (g ++ x)).index + g.length) with
    asi := asiFlag true } with ⟨p, s, e1, e2, -⟩ | hd
  · exact (hx p s e1 e2).elim
  · obtain ⟨q, ho, hq⟩ := hd.of_ok h1
    have := ho.asi
    simp only [Lex.asiAt, asiFlag] at this
    rw [this]
    split
    · rename_i ht
      have hr : x = q ++ l.rest := ho.rest
      rw [hr, semicolon_lexeme hq ht]
      exact .inr rfl
    · split <;> simp

theorem gap_next {a b : Bool} {g x : Bytes} (hg : Gap a g x b) (h : g ≠ []) : isSpace (next g) = true ∨ next g = #b'/' := by
  cases hg with
  | nil => exact absurd rfl h
  | space h' => exact .inl h'
  | comment hp hc _ =>
    cases hp with
    | space => exact absurd rfl (hc _)
    | line => exact .inr rfl
    | block => exact .inr rfl

theorem gap_change {g x : Bytes} (hg : Gap false g x true) : g ≠ [] := by
  rintro rfl
  generalize hf : false = a at hg
  generalize ht : true = b at hg
  generalize hn : ([] : Bytes) = y at hg
  cases hg with
  | nil => subst hf; cases ht
  | space => cases hn
  | comment hp _ _ => cases hp <;> cases hn

theorem space_not_word {c : Byte} (h : isSpace c = true ∨ c = #b'/') : wordByte c = false := by
  have : ∀ n < 256, isSpace (UInt8.ofNat n) = true ∨ UInt8.ofNat n = #b'/' → wordByte (UInt8.ofNat n) = false := by decide +kernel
  exact byte_forall (P := fun c => isSpace c = true ∨ c = #b'/' → wordByte c = false) this c h

/-- The statements that are complete without their operand. -/
def Spec.jumps : List (Bytes × Stmt) := [(bs!"return", .ret z none), (bs!"break", .brk z none), (bs!"continue", .cont z none)]

theorem jump_stmt {kw : Bytes} {s : Stmt} (h : (kw, s) ∈ jumps) {w : Asi} {m : List Item} (hm : Semi m j) :
    G (.tok (wordToken kw) kw w :: m) (.stmt s) j := by
  simp only [jumps, List.mem_cons, Prod.mk.injEq, List.not_mem_nil, or_false] at h
  rcases h with ⟨rfl, rfl⟩ | ⟨rfl, rfl⟩ | ⟨rfl, rfl⟩
  · exact .ret ⟨_, _, rfl⟩ hm
  · exact .brk ⟨_, _, rfl⟩ hm
  · exact .cont ⟨_, _, rfl⟩ hm

theorem jump_spells {kw : Bytes} {s : Stmt} (h : (kw, s) ∈ jumps) {r : Bytes} (hr : wordByte (next r) = false)
    (hs : Spells r i) : Spells (kw ++ r) (.tok (wordToken kw) kw .NoSemicolon :: i) := by
  have h1 : ∀ x ∈ [bs!"return", bs!"break", bs!"continue"], x ≠ [] ∧ wordStart (next x) = true ∧ (∀ b ∈ x.tail, wordByte b = true) ∧
      closes (wordToken x) = false := by decide +kernel
  obtain ⟨e1, e2, e3, e4⟩ := h1 kw (by
    simp only [jumps, List.mem_cons, Prod.mk.injEq, List.not_mem_nil, or_false] at h
    rcases h with ⟨rfl, -⟩ | ⟨rfl, -⟩ | ⟨rfl, -⟩ <;> simp)
  cases kw with
  | nil => exact absurd rfl e1
  | cons c w =>
    have := Spells.tok (g := []) (b := false) .nil (.word (c := c) (w := w) e2 e3 hr) (special_wordToken _) hs
    have ha : asiBefore (wordToken (c :: w)) false = .NoSemicolon := by
      have : wordToken (c :: w) ≠ .Semicolon := by intro h; rw [h] at e4; cases e4
      simp [asiBefore, this, e4]
    rw [ha] at this
    exact this

/-- C19: `return`, `break` and `continue` end at a line break, whatever statement follows in the next line. -/
theorem C19_line_break {kw : Bytes} {s : Stmt} (h : (kw, s) ∈ jumps) {g x : Bytes} {ss : List Stmt}
    (hg : Gap false g x true) (hx : TokenAhead x) (hsemi : next x ≠ #b';') (hs : Spells (g ++ x) i) (hp : G i (.program ss) []) :
    Accepts parse (kw ++ (g ++ x)) (s :: ss) := by
  have hne := gap_change hg
  have hw : wordByte (next (g ++ x)) = false := by
    rw [next_append hne]
    exact space_not_word (gap_next hg hne)
  refine C42_accepts (jump_spells h hw hs) (.programMore (jump_stmt h (.inserted ?_)) hp)
  rcases asi_of_break hg hx hs with ha | ha
  · exact ha
  · exact absurd ha hsemi

/-- C19: … and at a semicolon. -/
theorem C19_semicolon {kw : Bytes} {s : Stmt} (h : (kw, s) ∈ jumps) {g x : Bytes} {b : Bool} {ss : List Stmt}
    (hg : Gap false g (#b';' :: x) b) (hs : Spells x i) (hp : G i (.program ss) []) :
    Accepts parse (kw ++ (g ++ #b';' :: x)) (s :: ss) := by
  have hw : wordByte (next (g ++ #b';' :: x)) = false := by
    by_cases hne : g = []
    · subst hne; rfl
    · rw [next_append hne]
      exact space_not_word (gap_next hg hne)
  have hl : Lexeme .Semicolon bs!";" x :=
    .punct (by decide) (punct_max (by rw [show extensions bs!";" = [] by decide]; simp)) (fun h => by cases h)
  exact C42_accepts (jump_spells h hw (.tok hg hl rfl hs)) (.programMore (jump_stmt h .written) hp)

/-- C19: … and at the end of the program. -/
theorem C19_end {kw : Bytes} {s : Stmt} (h : (kw, s) ∈ jumps) {g x : Bytes} {b : Bool} (hg : Gap false g x b) (hx : next x = 0) :
    Accepts parse (kw ++ (g ++ x)) [s] := by
  have hw : wordByte (next (g ++ x)) = false := by
    by_cases hne : g = []
    · subst hne; rw [List.nil_append, hx]; decide
    · rw [next_append hne]
      exact space_not_word (gap_next hg hne)
  exact C42_accepts (jump_spells h hw (.eof hg hx)) (.programMore (jump_stmt h (.inserted rfl)) .programEnd)

/-- C19: … and at a closing brace. -/
theorem C19_brace {kw : Bytes} {s : Stmt} (h : (kw, s) ∈ jumps) {g x : Bytes} {b : Bool} {ss : List Stmt}
    (hg : Gap false g (#b'}' :: x) b) (hs : Spells x i) (hp : G i (.program ss) []) :
    Accepts parse (#b'{' :: (kw ++ (g ++ #b'}' :: x))) (.block z [s] :: ss) := by
  have hw : wordByte (next (g ++ #b'}' :: x)) = false := by
    by_cases hne : g = []
    · subst hne; rfl
    · rw [next_append hne]
      exact space_not_word (gap_next hg hne)
  have hl : Lexeme .BraceOpen bs!"{" (kw ++ (g ++ #b'}' :: x)) :=
    .punct (by decide) (punct_max (by rw [show extensions bs!"{" = [] by decide]; simp)) (fun h => by cases h)
  have h1 := jump_spells h hw (.tok hg (brace_lexeme x) rfl hs)
  have h2 := Spells.tok (g := []) (b := false) .nil hl rfl h1
  exact C42_accepts h2 (.programMore (.blockStmt (.block ⟨_, _, rfl⟩ (.stmtsMore (jump_stmt h (.inserted (by cases b <;> rfl)))
    (.stmtsClose ⟨_, _, rfl⟩)) (by simp))) hp)

theorem first_item {g p x : Bytes} {b : Bool} {t : Token} (hg : Gap false g (p ++ x) b) (hp : Lexeme t p x)
    (hs : Spells (g ++ (p ++ x)) i) : look i = t ∧ semicolon i = asiBefore t b := by
  obtain ⟨l, h1, h2⟩ := hs.stream
  obtain ⟨l', e1, e2, -, e4, -, -⟩ := Lex.WF.consume_token (src := g ++ (p ++ x)) (l := Lex.init (g ++ (p ++ x)))
    ⟨rfl, rfl, Nat.zero_le _, Nat.le_refl _, by simp [Lex.init]⟩ hg hp rfl
  rw [Lex.new, e1] at h1
  cases h1
  exact ⟨by rw [← h2.token, e2], by rw [← h2.asi, e4]⟩

/-- C19: `++` and `--` after a line break do not belong to the expression before it. -/
theorem C19_increment {t : Written} (ht : Ordered 0 t) {op g x : Bytes} {ss : List Stmt} (hop : op = bs!"++" ∨ op = bs!"--")
    (hg : Gap false g (op ++ x) true) (hsp : isSpace (next g) = true) (hs : Spells (g ++ (op ++ x)) i) (hp : G i (.program ss) []) :
    Accepts parse (t.text ++ (g ++ (op ++ x))) (.expr z t.tree :: ss) := by
  have hl : ∃ t, Lexeme t op x ∧ (t = .OperatorIncrement ∨ t = .OperatorDecrement) := by
    rcases hop with rfl | rfl
    · exact ⟨_, .punct (t := .OperatorIncrement) (by decide) (punct_max (by rw [show extensions bs!"++" = [] by decide]; simp)) (fun h => by cases h), .inl rfl⟩
    · exact ⟨_, .punct (t := .OperatorDecrement) (by decide) (punct_max (by rw [show extensions bs!"--" = [] by decide]; simp)) (fun h => by cases h), .inr rfl⟩
  obtain ⟨u, hl, hu⟩ := hl
  obtain ⟨h1, h2⟩ := first_item hg hl hs
  have h2 : semicolon i = .ImplicitSemicolon := by rw [h2]; rcases hu with rfl | rfl <;> rfl
  have hc : continues 0 i = false := by
    unfold continues
    rw [h1, h2]
    rcases hu with rfl | rfl <;> rfl
  have hsp' : isSpace (next (g ++ (op ++ x))) = true := by rw [next_append (gap_change hg)]; exact hsp
  have h3 := spells_spaced (written_spaced ht) (.inr hsp') hs
  rw [← written_text] at h3
  refine C42_accepts h3 (.programMore ?_ hp)
  obtain ⟨y, l, e, e1, e2, e3, e4⟩ := written_start ht
  refine .exprStmt ?_ ?_ ?_ ?_ (.whole (written_expr ht (by omega) (follow_of hc)) hc) (.inserted h2)
  · rw [e]; exact e1
  · rw [e]; exact e2
  · rw [e]; exact e3
  · rw [e]
    intro hx
    cases l with
    | nil =>
      change look i ≠ .Colon
      rw [h1]; rcases hu with rfl | rfl <;> decide
    | cons y l => exact e4 hx y rfl

/-! ### Examples -/

theorem isName_of {c : Byte} {v : Bytes} (h : wordStart c = true ∧ v.all wordByte = true ∧ wordToken (c :: v) = .Identifier) :
    IsName (c :: v) := ⟨c, v, rfl, h.1, by simpa using h.2.1, h.2.2⟩

/-- `a = b ? - c * ( d + e ) : f ** g ** h`. -/
def sampleTree : Written := .assign .Assign bs!"a" (.cond (.name bs!"b")
  (.binary .Multiplication (.unary .Subtraction (.name bs!"c")) (.paren (.binary .Addition (.name bs!"d") (.name bs!"e"))))
  (.binary .Exponent (.binary .Exponent (.name bs!"f") (.name bs!"g")) (.name bs!"h")))

example : sampleTree.text = bs!" a = b ? - c * ( d + e ) : f ** g ** h" := by decide

theorem sampleTree_ordered : Ordered 0 sampleTree := by
  have n : ∀ x ∈ bs!"abcdefgh", IsName [x] := by
    have : ∀ x ∈ bs!"abcdefgh", wordStart x = true ∧ ([] : Bytes).all wordByte = true ∧ wordToken [x] = .Identifier := by decide +kernel
    exact fun x hx => isName_of (this x hx)
  refine ⟨by omega, rfl, n _ (by decide), by omega, n _ (by decide), ?_, ?_⟩
  · exact ⟨14, rfl, by omega, ⟨by omega, rfl, n _ (by decide)⟩, 13, rfl, by omega, n _ (by decide), n _ (by decide)⟩
  · exact ⟨15, rfl, by omega, ⟨15, rfl, by omega, n _ (by decide), n _ (by decide)⟩, n _ (by decide)⟩

/-- `a = b ? (-c) * (d + e) : (f ** g) ** h`: the power operator associates to the left, unlike in JavaScript. -/
example : Accepts parse bs!" a = b ? - c * ( d + e ) : f ** g ** h" [.expr z sampleTree.tree] := C18_ordered sampleTree_ordered

/-- A chain and its reading. -/
example : chain (.name bs!"a") [(.Addition, bs!"b"), (.Multiplication, bs!"c"), (.Subtraction, bs!"d"), (.LogicalOr, bs!"e")] =
    .binary .LogicalOr (.binary .Subtraction (.binary .Addition (.name bs!"a") (.binary .Multiplication (.name bs!"b") (.name bs!"c")))
      (.name bs!"d")) (.name bs!"e") := by decide

theorem name_ab : IsName bs!"a" ∧ IsName bs!"b" := by
  have n : ∀ x ∈ bs!"ab", IsName [x] := by
    have : ∀ x ∈ bs!"ab", wordStart x = true ∧ ([] : Bytes).all wordByte = true ∧ wordToken [x] = .Identifier := by decide +kernel
    exact fun x hx => isName_of (this x hx)
  exact ⟨n _ (by decide), n _ (by decide)⟩

/-- The items of `a + b`, with a line break before the `a`. -/
def sumItems : List Item := [.tok .Identifier bs!"a" .ImplicitSemicolon, .tok .OperatorAddition bs!"+" .NoSemicolon,
  .tok .Identifier bs!"b" .NoSemicolon]

theorem sum_spells : Spells bs!"\n a + b" sumItems := by
  have hsp : Spells ([] : Bytes) [] := .eof (g := []) (r := []) .nil rfl
  have h := spells_spaced (l := [(.OperatorAddition, bs!"+"), (.Identifier, bs!"b")])
    (by simpa using ⟨spaced_punct (by decide), spaced_name name_ab.2⟩) (.inl rfl) hsp
  exact Spells.tok (g := bs!"\n ") (b := true) (.space (by decide) (.space (by decide) .nil))
    ((spaced_name name_ab.1).2 _ (.inr rfl)) rfl h

theorem sum_program : G sumItems (.program [.expr z (.binary z .Addition (.ident z bs!"a") (.ident z bs!"b"))]) [] := by
  refine .programMore (.exprStmt (by decide) (by decide) (by decide) (by decide) ?_ (.inserted rfl)) .programEnd
  exact .whole (.binary (t := .OperatorAddition) rfl (by omega) (.ident (by omega) ⟨_, rfl⟩) ⟨_, _, rfl⟩
    (.whole (.ident (by omega) ⟨_, rfl⟩) rfl)) rfl

/-- `return` and, in the next line, `a + b`: two statements. -/
example : Accepts parse bs!"return\n a + b" [.ret z none, .expr z (.binary z .Addition (.ident z bs!"a") (.ident z bs!"b"))] :=
  C19_line_break (kw := bs!"return") (g := bs!"\n ") (x := bs!"a + b") (List.mem_cons_self ..) (.space (by decide) (.space (by decide) .nil))
    (by intro p s h e; cases h <;> simp_all [isSpace]; rename_i h; rw [← e.1] at h; revert h; decide) (by decide) sum_spells sum_program

end
end Ratel
