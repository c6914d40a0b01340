import Verif.Spec.Printable
import Verif.Spec.Spelling
import Verif.Lemmas.PrintClass
/-! The texts of the items of a source. -/
namespace Ratel
open Spec

set_option linter.unusedSectionVars false
section
variable [Unicode]

/-- The text of a token. -/
structure TextOf (t : Token) (w : Bytes) : Prop where
  word : t.isWord = true → Word t w
  number : t = .LiteralNumber → ∃ r, Number w r
  binary : t = .LiteralBinary → BinaryText w
  string : t = .LiteralString → StringText w
  accessor : t = .Accessor → PropertyWord w
  template : t = .TemplateOpen ∨ t = .TemplateClosed → TplBody w

def ItemText : Item → Prop
  | .tok t w _ => TextOf t w
  | .regex w _ => RegexText w
  | .resume _ w => TplBody w

theorem decodeFirst_cut {v r : Bytes} {c : Nat} (h : Lex.decodeFirst (v ++ r) = some c) (hv : v ≠ [])
    (hr : wordByte (next r) = false) : Lex.decodeFirst v = some c := by
  have hc : ∀ b, wordByte b = false → Lex.isCont b = false :=
    byte_forall (P := fun b => wordByte b = false → Lex.isCont b = false) (by decide +kernel)
  have h0 : ∀ {y : Byte} {r' : Bytes}, r = y :: r' → Lex.isCont y = false := fun h => hc _ (by rw [h] at hr; exact hr)
  rcases v with _ | ⟨x, _ | ⟨y, _ | ⟨z, _ | ⟨w, v⟩⟩⟩⟩
  · exact absurd rfl hv
  all_goals simp only [Lex.decodeFirst, List.cons_append, List.nil_append] at h ⊢
  all_goals
    first
    | exact h
    | (repeat' split at h
       all_goals first | (cases h; done) | skip
       all_goals first
         | (have := h0 rfl; simp_all)
         | (repeat (first | rw [if_pos (by assumption)] | rw [if_neg (by assumption)])
            assumption))

theorem punct_word : ∀ x ∈ puncts, x.2.isWord = false ∧ x.2 ≠ .LiteralNumber ∧ x.2 ≠ .LiteralBinary ∧ x.2 ≠ .LiteralString ∧
    x.2 ≠ .Accessor ∧ ¬ (x.2 = .TemplateOpen ∨ x.2 = .TemplateClosed) := by decide +kernel

theorem wordToken_kinds (w : Bytes) : wordToken w ≠ .LiteralNumber ∧ wordToken w ≠ .LiteralBinary ∧ wordToken w ≠ .LiteralString ∧
    wordToken w ≠ .Accessor ∧ ¬ (wordToken w = .TemplateOpen ∨ wordToken w = .TemplateClosed) := by
  have h1 : ∀ x ∈ keywords, x.2 ≠ .LiteralNumber ∧ x.2 ≠ .LiteralBinary ∧ x.2 ≠ .LiteralString ∧
    x.2 ≠ .Accessor ∧ ¬ (x.2 = .TemplateOpen ∨ x.2 = .TemplateClosed) := by decide +kernel
  unfold wordToken
  cases hl : keywords.lookup w with
  | none => decide
  | some t => exact h1 (w, t) (Lex.mem_of_lookup hl)

theorem lexeme_text {t : Token} {p r : Bytes} (h : Lexeme t p r) (ht : special t = false) : TextOf t p := by
  cases h with
  | eof => cases ht
  | punct h =>
    obtain ⟨h1, h2, h3, h4, h5, h6⟩ := punct_word _ h
    exact ⟨fun h => Bool.noConfusion (h1.symm.trans h), fun h => absurd h h2, fun h => absurd h h3, fun h => absurd h h4, fun h => absurd h h5, fun h => absurd h h6⟩
  | word hc hw hr =>
    obtain ⟨h2, h3, h4, h5, h6⟩ := wordToken_kinds (_ :: _)
    exact ⟨fun _ => .inl ⟨_, _, rfl, hc, hw, rfl⟩, fun h => absurd h h2, fun h => absurd h h3, fun h => absurd h h4, fun h => absurd h h5, fun h => absurd h h6⟩
  | unicodeWord hc hw ha hr =>
    obtain ⟨x, h1, h2⟩ := ha
    exact ⟨fun _ => .inr ⟨rfl, _, _, rfl, hc, hw, x, decodeFirst_cut h1 (by simp) hr, h2⟩, nofun, nofun, nofun, nofun, nofun⟩
  | number h => exact ⟨nofun, fun _ => ⟨_, h⟩, nofun, nofun, nofun, nofun⟩
  | binary hx hd hr => exact ⟨nofun, nofun, fun _ => ⟨_, _, rfl, hx, hd⟩, nofun, nofun, nofun⟩
  | string hq h => exact ⟨nofun, nofun, nofun, fun _ => ⟨_, _, rfl, hq, h⟩, nofun, nofun⟩
  | templateClosed | templateOpen | accessor => cases ht
  | _ => exact ⟨nofun, nofun, nofun, nofun, nofun, nofun⟩

/-- The items of a source have texts that fit their tokens. -/
theorem spells_texts {src : Bytes} {i : List Item} (h : Spells src i) : ∀ x ∈ i, ItemText x := by
  induction h with
  | eof => nofun
  | tok hg hp ht h ih =>
    rintro x (_ | ⟨_, hx⟩)
    · exact lexeme_text hp ht
    · exact ih x hx
  | accessor hg hs hc hw hr h ih =>
    rintro x (_ | ⟨_, hx⟩)
    · exact ⟨nofun, nofun, nofun, nofun, fun _ => ⟨_, _, rfl, hc, hw⟩, nofun⟩
    · exact ih x hx
  | @template g s r b c i hg hs h ih =>
    rintro x (_ | ⟨_, hx⟩)
    · cases c <;> exact ⟨nofun, nofun, nofun, nofun, nofun, fun _ => hs⟩
    · exact ih x hx
  | resume hg hs h ih =>
    rintro x (_ | ⟨_, hx⟩)
    · exact hs
    · exact ih x hx
  | regex hg hc hp hf hr h ih =>
    rintro x (_ | ⟨_, hx⟩)
    · exact ⟨_, _, _, by simp, hc, hp, hf⟩
    · exact ih x hx

end
end Ratel
