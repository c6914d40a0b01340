import Verif.Lemmas.Rename
import Verif.Props.Sound
/-! C63: names do not matter. -/
namespace Ratel
open Spec

set_option linter.unusedSectionVars false
section
variable [Unicode] {ρ : Bytes → Bytes}

theorem puncts_plain : ∀ x ∈ puncts, (x.2.isWord = false ∧ x.2 ≠ .LiteralString ∧ x.2 ≠ .LiteralNumber ∧ x.2 ≠ .Import) := by decide +kernel

/-- The texts of keywords, strings and numbers are not renamed. -/
theorem Lexeme.kept (hρ : Renaming ρ) {t : Token} {p r : Bytes} (h : Lexeme t p r)
    (ht : (t.isWord = true ∧ t ≠ .Identifier) ∨ t = .LiteralString ∨ t = .LiteralNumber ∨ t = .Import) : ρ p = p := by
  cases h with
  | punct h => have := puncts_plain _ h; rcases ht with h1 | h1 | h1 | h1 <;> simp_all
  | @word c w _ hc hw hr =>
    by_cases hi : wordToken (c :: w) = .Identifier
    · rw [hi] at ht; rcases ht with h1 | h1 | h1 | h1 <;> simp at h1
    · exact hρ.keyword _ hi
  | unicodeWord => rcases ht with h1 | h1 | h1 | h1 <;> simp at h1
  | number h =>
    cases h with
    | @decimal ds f e _ h0 hd =>
      cases ds with
      | nil => exact absurd rfl h0
      | cons d ds => exact hρ.noWord _ _ (.inr (hd d (List.mem_cons_self ..)))
    | point => exact hρ.noWord _ _ (.inl (by decide))
    | octal => exact hρ.noWord _ _ (.inr (by decide))
    | hex => exact hρ.noWord _ _ (.inr (by decide))
  | string hq => exact hρ.noWord _ _ (.inl (by rcases hq with rfl | rfl <;> decide))
  | _ => rcases ht with h1 | h1 | h1 | h1 <;> first | (exact absurd h1.1 (by decide)) | cases h1

theorem Spells.keeps (hρ : Renaming ρ) {src : Bytes} {i : List Item} (h : Spells src i) : Keeps ρ i := by
  induction h with
  | eof => intro t w a hm; simp at hm
  | @tok g p r b t i hg hp ht h ih =>
    intro t' w a hm ht'
    rcases List.mem_cons.1 hm with he | he
    · cases he; exact Lexeme.kept hρ hp ht'
    · exact ih t' w a he ht'
  | accessor hg hs hc hw hr h ih =>
    intro t' w a hm ht'
    rcases List.mem_cons.1 hm with he | he
    · cases he; rcases ht' with h1 | h1 | h1 | h1 <;> first | (exact absurd h1.1 (by decide)) | cases h1
    · exact ih t' w a he ht'
  | @template g s r b closed i hg hs h ih =>
    intro t' w a hm ht'
    rcases List.mem_cons.1 hm with he | he
    · cases he; cases closed <;> rcases ht' with h1 | h1 | h1 | h1 <;> first | (exact absurd h1.1 (by decide)) | cases h1
    · exact ih t' w a he ht'
  | resume hg hs h ih =>
    intro t' w a hm ht'
    rcases List.mem_cons.1 hm with he | he
    · cases he
    · exact ih t' w a he ht'
  | regex hg hc hp hf hr h ih =>
    intro t' w a hm ht'
    rcases List.mem_cons.1 hm with he | he
    · cases he
    · exact ih t' w a he ht'

/-- C63: if the names of an accepted source are replaced, keywords and contextual words aside, and the tokens are otherwise
the same, then the result is accepted, and its tree is the tree of the source with the names replaced. -/
theorem C63_rename (hρ : Renaming ρ) {fuel : Nat} {src : Bytes} {m : List Stmt} (h : parse fuel src = .ok (.ok m)) :
    ∃ i, Spells src i ∧ ∀ src', Spells src' (i.map (renameItem ρ)) →
      ∃ N m', (∀ n, N ≤ n → parse n src' = .ok (.ok m')) ∧ bareStmts m' = renameStmts ρ (bareStmts m) := by
  obtain ⟨i, h1, h2⟩ := C43_program h
  refine ⟨i, h1, fun src' h' => ?_⟩
  obtain ⟨N, m', h3, h4⟩ := C42_accepts h' (h2.rn hρ (Spells.keeps hρ h1))
  exact ⟨N, m', h4, h3⟩

/-- C63, of all readings of the source as items: a program remains a program. -/
theorem C63_programs (hρ : Renaming ρ) {src src' : Bytes} {i : List Item} {ss : List Stmt} (hs : Spells src i)
    (hg : G i (.program ss) []) (hs' : Spells src' (i.map (renameItem ρ))) :
    Accepts parse src ss ∧ Accepts parse src' (renameStmts ρ ss) :=
  ⟨C42_accepts hs hg, C42_accepts hs' (hg.rn hρ (Spells.keeps hρ hs))⟩

/-! ### Renaming one name -/

/-- `a` gets the name `b`. -/
def renameOne (a b w : Bytes) : Bytes := if w = a then b else w

omit [Unicode] in
/-- Any name that is no contextual word can be given any name that is none. -/
theorem renameOne_renaming {a b : Bytes} (ha : wordToken a = .Identifier) (ha' : ∀ c r, a = c :: r → c ∉ bs!"\"'." ∧ isDigit c = false)
    (hc : a ∉ Spec.contextual) (hb : b ∉ Spec.contextual) : Renaming (renameOne a b) where
  keyword w hw := by
    unfold renameOne
    rw [if_neg]
    rintro rfl
    exact hw ha
  noWord c r h := by
    unfold renameOne
    rw [if_neg]
    intro he
    have := ha' c r he.symm
    rcases h with h | h
    · exact this.1 h
    · rw [this.2] at h; simp at h
  contextual w c h := by
    unfold renameOne
    split
    · rename_i he
      subst he
      constructor
      · rintro rfl; exact absurd h hb
      · rintro rfl; exact absurd h hc
    · exact Iff.rfl

end

section
local instance renameExamplesUnicode : Unicode := ⟨fun _ => true⟩

/-- `x` becomes `total`. -/
theorem rename_example : Renaming (renameOne bs!"x" bs!"total") :=
  renameOne_renaming (by decide) (by intro c r h; cases h; decide) (by decide) (by decide)

/-- The items of `x=a.x`. -/
def renameItems (x : Bytes) : List Item := [.tok .Identifier x .NoSemicolon, .tok .OperatorAssign bs!"=" .NoSemicolon,
  .tok .Identifier bs!"a" .NoSemicolon, .tok .Accessor x .NoSemicolon]

example : (renameItems bs!"x").map (renameItem (renameOne bs!"x" bs!"total")) = renameItems bs!"total" := by decide

theorem rename_before : Spells bs!"x=a.x" (renameItems bs!"x") := by
  refine .tok (g := []) (p := bs!"x") (r := bs!"=a.x") (b := false) (t := .Identifier) .nil ?_ rfl ?_
  · exact .word (c := #b'x') (w := bs!"") (by decide) (by decide) (by decide)
  refine .tok (g := []) (p := bs!"=") (r := bs!"a.x") (b := false) (t := .OperatorAssign) .nil ?_ rfl ?_
  · exact .punct (by decide) (by decide) (by decide)
  refine .tok (g := []) (p := bs!"a") (r := bs!".x") (b := false) (t := .Identifier) .nil ?_ rfl ?_
  · exact .word (c := #b'a') (w := []) (by decide) (by decide) (by decide)
  refine .accessor (g := []) (s := []) (w := bs!"") (r := []) (b := false) (c := #b'x') .nil (by decide) (by decide) (by decide) (by decide) ?_
  exact .eof (g := []) (r := []) (b := false) .nil rfl

theorem rename_after : Spells bs!"total=a.total" (renameItems bs!"total") := by
  refine .tok (g := []) (p := bs!"total") (r := bs!"=a.total") (b := false) (t := .Identifier) .nil ?_ rfl ?_
  · exact .word (c := #b't') (w := bs!"otal") (by decide) (by decide) (by decide)
  refine .tok (g := []) (p := bs!"=") (r := bs!"a.total") (b := false) (t := .OperatorAssign) .nil ?_ rfl ?_
  · exact .punct (by decide) (by decide) (by decide)
  refine .tok (g := []) (p := bs!"a") (r := bs!".total") (b := false) (t := .Identifier) .nil ?_ rfl ?_
  · exact .word (c := #b'a') (w := []) (by decide) (by decide) (by decide)
  refine .accessor (g := []) (s := []) (w := bs!"otal") (r := []) (b := false) (c := #b't') .nil (by decide) (by decide) (by decide) (by decide) ?_
  exact .eof (g := []) (r := []) (b := false) .nil rfl

/-- The tree of `x=a.x`. -/
def renameTree (x : Bytes) : List Stmt := [.expr z (.binary z .Assign (.ident z x) (.member z (.ident z bs!"a") ⟨z, x⟩))]

theorem rename_program (x : Bytes) : G (renameItems x) (.program (renameTree x)) [] := by
  refine .programMore (.exprStmt (by simp [renameItems, look, Item.token]) (by simp [renameItems, look, Item.token]) (by simp [renameItems, look, Item.token]) (fun _ => (by decide : Token.OperatorAssign ≠ .Colon))
    (.whole ?_ rfl) (.inserted rfl)) .programEnd
  exact .assign (op := .Assign) (by decide) (.ident (by decide) ⟨_, rfl⟩) rfl ⟨_, _, rfl⟩ rfl
    (.whole (.member (by decide) (.ident (by decide) ⟨_, rfl⟩) ⟨_, rfl⟩) rfl)

/-- `x=a.x` and `total=a.total`. -/
example : Accepts parse bs!"x=a.x" (renameTree bs!"x") ∧ Accepts parse bs!"total=a.total" (renameTree bs!"total") :=
  C63_programs rename_example rename_before (rename_program _) rename_after

/-- The contextual words have to stay: the first is accepted, the second is not. -/
example : (∃ m, parse 50 bs!"for (x of y) z" = .ok (.ok m)) ∧ ∃ e, parse 50 bs!"for (x on y) z" = .ok (.error e) := by
  refine ⟨of_accepted (by decide +kernel), ?_⟩
  have : (match parse 50 bs!"for (x on y) z" with | .ok (.error _) => true | _ => false) = true := by decide +kernel
  revert this
  cases parse 50 bs!"for (x on y) z" with
  | ok r => cases r with
    | error e => exact fun _ => ⟨e, rfl⟩
    | ok m => simp
  | _ => simp

end
end Ratel
