import Verif.Lemmas.FormedAll
/-! The trees of the grammar are well formed: by induction on the derivation. -/
namespace Ratel
open Spec

set_option linter.unusedSectionVars false
section
variable [Unicode]

theorem nameAt_ok {nk : Naming} {i j : List Item} {n : Name} (h : NameAt nk i n j) (hi : ItemsOk i) : ItemsOk j ∧ NameText n ∧ NamingOk nk n := by
  cases h with
  | never => exact ⟨hi, trivial, rfl⟩
  | given h => exact ⟨(hi.wd h).2, (hi.wd h).1.word rfl, rfl⟩
  | missing => exact ⟨hi, trivial, rfl⟩
  | always h => exact ⟨(hi.wd h).2, (hi.wd h).1.word rfl, rfl⟩

theorem starAt_ok {i j : List Item} {s : Bool} (h : StarAt i s j) (hi : ItemsOk i) : ItemsOk j := by
  cases h with
  | yes h => exact hi.tk h
  | no => exact hi

theorem staticAt_ok {i j : List Item} {s : Bool} (h : StaticAt i s j) (hi : ItemsOk i) : ItemsOk j ∧ (s = false → look j ≠ .Static) := by
  cases h with
  | yes h => exact ⟨hi.tk h, nofun⟩
  | no h => exact ⟨hi, fun _ => h⟩

theorem semi_ok {i j : List Item} (h : Semi i j) (hi : ItemsOk i) : ItemsOk j := by
  cases h with
  | written => exact fun y hy => hi y (.tail _ hy)
  | inserted => exact hi

theorem optSemi_ok {i j : List Item} (h : OptSemi i j) (hi : ItemsOk i) : ItemsOk j := by
  cases h with
  | written h => exact hi.tk h
  | absent => exact hi

theorem word_identifier {v : Bytes} {t : Token} (h : Word t v) (h' : wordToken v = .Static) : t = .Static := by
  rcases h with ⟨c, w, rfl, -, -, rfl⟩ | ⟨-, c, w, rfl, h1, -, -⟩
  · exact h'
  · exfalso
    have h2 : ∀ x ∈ keywords, next x.1 < 128 := by decide +kernel
    unfold wordToken at h'
    cases hl : keywords.lookup (c :: w) with
    | none => rw [hl] at h'; cases h'
    | some t =>
      have := h2 _ (Lex.mem_of_lookup hl)
      exact absurd h1 (UInt8.not_le.2 this)

theorem number_static {v r : Bytes} (h : Number v r) : v ≠ bs!"static" := by
  rintro rfl
  have : ∀ {v r : Bytes}, Number v r → isDigit (next v) = true ∨ next v = #b'.' := by
    intro v r h
    cases h with
    | @decimal ds f e _ h0 h1 =>
      obtain ⟨d, ds, rfl⟩ := List.exists_cons_of_ne_nil h0
      exact .inl (h1 d (by simp))
    | point h0 => exact .inr rfl
    | octal => exact .inl rfl
    | hex => exact .inl rfl
  rcases this h with h | h <;> cases h

theorem word_import {v : Bytes} (h : Word .Import v) : v = bs!"import" := by
  rcases h with ⟨c, w, rfl, -, -, h⟩ | ⟨h, -⟩
  · have h1 : ∀ x ∈ keywords, x.2 = .Import → x.1 = bs!"import" := by decide +kernel
    unfold wordToken at h
    cases hl : keywords.lookup (c :: w) with
    | none => rw [hl] at h; cases h
    | some t =>
      rw [hl] at h
      exact h1 (c :: w, t) (Lex.mem_of_lookup hl) h
  · cases h

theorem importName_ok {i j : List Item} {s : ImportSpec} (h : ImportName i s j) (hi : ItemsOk i) : ItemsOk j ∧ SpecText s ∧ s.isNamed = true := by
  cases h with
  | plain h => exact ⟨(hi.wd h).2, ⟨(hi.wd h).1.word rfl, (hi.wd h).1.word rfl⟩, rfl⟩
  | renamed h h1 h2 =>
    have h3 := hi.wd h
    have h4 := (h3.2.wd h1).2.wd h2
    exact ⟨h4.2, ⟨h3.1.word rfl, h4.1.word rfl⟩, rfl⟩

theorem importNames_ok {i j : List Item} {ss : List ImportSpec} (h : ImportNames i ss j) (hi : ItemsOk i) :
    ItemsOk j ∧ (∀ s ∈ ss, SpecText s ∧ s.isNamed = true) ∧ ss ≠ [] := by
  induction h with
  | last h h1 =>
    obtain ⟨h2, h3⟩ := importName_ok h hi
    exact ⟨h2.tk h1, by simpa using h3, by simp⟩
  | more h h1 h2 ih =>
    obtain ⟨h3, h4⟩ := importName_ok h hi
    obtain ⟨h5, h6, -⟩ := ih (h3.tk h1)
    refine ⟨h5, ?_, by simp⟩
    rintro s (_ | ⟨_, hs⟩)
    · exact h4
    · exact h6 s hs

theorem importGroup_ok {i j : List Item} {ss : List ImportSpec} (h : ImportGroup i ss j) (hi : ItemsOk i) :
    ItemsOk j ∧ (∀ s ∈ ss, SpecText s) ∧ ImportRest ss := by
  cases h with
  | names h h1 =>
    obtain ⟨h2, h3, h4⟩ := importNames_ok h1 (hi.tk h)
    exact ⟨h2, fun s hs => (h3 s hs).1, .inl ⟨h4, fun s hs => (h3 s hs).2⟩⟩
  | all h h1 h2 =>
    have h3 := ((hi.tk h).wd h1).2.wd h2
    refine ⟨h3.2, ?_, .inr ⟨_, _, rfl⟩⟩
    rintro s (_ | ⟨_, hs⟩)
    · exact h3.1.word rfl
    · cases hs

theorem importHead_ok {i j : List Item} {ss : List ImportSpec} (h : ImportHead i ss j) (hi : ItemsOk i) :
    ItemsOk j ∧ (∀ s ∈ ss, SpecText s) ∧ ImportShape ss := by
  cases h with
  | one h =>
    refine ⟨(hi.wd h).2, ?_, .one⟩
    rintro s (_ | ⟨_, hs⟩)
    · exact (hi.wd h).1.word rfl
    · cases hs
  | both h h1 h2 =>
    obtain ⟨h3, h4, h5⟩ := importGroup_ok h2 ((hi.wd h).2.tk h1)
    refine ⟨h3, ?_, .both h5⟩
    rintro s (_ | ⟨_, hs⟩)
    · exact (hi.wd h).1.word rfl
    · exact h4 s hs
  | group h =>
    obtain ⟨h1, h2, h3⟩ := importGroup_ok h hi
    exact ⟨h1, h2, .rest h3⟩

theorem unquoted_ok {w : Bytes} (h : StringText w) : ∃ q, (q = #b'"' ∨ q = #b'\'') ∧ StrBody q (unquoted w) := by
  obtain ⟨q, s, rfl, h1, h2⟩ := h
  refine ⟨q, h1, ?_⟩
  have : unquoted (q :: s ++ [q]) = s := by simp [unquoted]
  rw [this]
  exact h2

theorem literalOf_text {t : Token} {w : Bytes} {v : Literal} (h : literalOf t w = some v) : t ≠ .Identifier ∧ (TextOf t w → LiteralText v) := by
  unfold literalOf at h
  split at h <;> cases h
  all_goals first
    | exact ⟨nofun, fun _ => trivial⟩
    | exact ⟨nofun, fun h => h.string rfl⟩
    | exact ⟨nofun, fun h => h.number rfl⟩
    | exact ⟨nofun, fun h => h.binary rfl⟩

theorem binaryOp_precedence {t : Token} {op : Op} {p : Nat} (h : binaryOp t = some (op, p)) : (precedence op).isSome = true ∧ p ≤ 15 ∧ ∀ l a b, paramOf (.binary l op a b) = none := by
  unfold binaryOp at h
  split at h <;> cases h <;> exact ⟨rfl, by decide, fun _ _ _ => rfl⟩

theorem assignOp_operator {t : Token} {op : Op} (h : assignOp t = some op) : assignOperator op = true ∧ op ≠ .In ∧ t ≠ .Comma ∧ t ≠ .ParenOpen := by
  unfold assignOp at h
  split at h <;> cases h <;> exact ⟨rfl, nofun, nofun, nofun⟩

theorem prefixOp_operator {t : Token} {op : Op} (h : prefixOp t = some op) : unaryOperator op = true ∧ t ≠ .Identifier := by
  unfold prefixOp at h
  split at h <;> cases h <;> exact ⟨rfl, nofun⟩

theorem postfixOp_operator {t : Token} {op : Op} (h : postfixOp t = some op) : (op = .Increment ∨ op = .Decrement) := by
  unfold postfixOp at h
  split at h <;> cases h
  · exact .inl rfl
  · exact .inr rfl

theorem target_proper {e : Expr} (h : target e = true) : proper e = true := by
  cases e <;> first | rfl | cases h

/-- Arrow functions with parameters. -/
theorem arrow_params {i m n : List Item} {e : Expr} {ps : List Pattern} (hh : HeadText i ∨ true = true ∧ Weak i)
    (h : PhraseOk i m (.expr 17 e)) (hp : paramsOf e = some ps) (h1 : Tk .OperatorFatArrow m n) :
    ∀ p ∈ ps, Formed (.pat p) ∧ arrowParam p = true := by
  rcases hh with hh | ⟨-, hh⟩
  · exact (h.2.1 hh).2 ps hp
  · have h2 := h.2.2 hh rfl ps hp
    obtain ⟨w, a, rfl⟩ := h1
    exfalso
    unfold Weak at hh
    split at hh
    · obtain ⟨-, hh⟩ := hh
      simp only [List.tail_cons] at h2
      subst h2
      rcases hh with hh | hh <;> cases hh
    · cases hh

end
end Ratel
