import Verif.Props.Parser
import Verif.Spec.Accepted
/-! The texts that the lexer hands out besides the text of the token: property names and template pieces. -/
namespace Ratel
open Spec

set_option linter.unusedSectionVars false
variable [Unicode]

theorem Lex.WF.consume_start {src : Bytes} {l l' : Lex} (h : l.WF src) (h' : l.consume = .ok l') :
    ∃ p i a, src.drop i = p ++ l'.rest ∧ Lexeme l'.token p l'.rest ∧ l'.tokenAsStr = p ∧
      Lex.scanAll { l.moveTo (p ++ l'.rest) i with asi := a } = .ok l' := by
  rw [Lex.consume_eq] at h'
  obtain ⟨g, p, hs⟩ := (Lex.scanAll_spec _).of_ok h'
  have h0 : Lex.WF src { l with asi := .NoSemicolon } := ⟨h.same, h.rest, h.index, h.start, h.eof⟩
  obtain ⟨hw, hp⟩ := h0.scanned hs
  obtain ⟨a, ha⟩ := Lex.scanAll_trivia hs.trivia { l with asi := .NoSemicolon } hs.rest
  refine ⟨p, l.index + g.length, a, ?_, hs.lexeme, hp, ?_⟩
  · rw [← List.drop_drop, ← h.rest]
    have : l.rest = g ++ (p ++ l'.rest) := hs.rest
    rw [this]; simp
  · rw [← h', ha]; rfl

/-- The name in a property access. -/
theorem Lex.WF.accessor_text {src : Bytes} {l l' : Lex} (h : l.WF src) (h' : l.consume = .ok l') (ht : l'.token = .Accessor) :
    ∃ s c w, l'.tokenAsStr = #b'.' :: s ++ l'.accessorAsStr ∧ l'.accessorAsStr = c :: w ∧ (∀ b ∈ s, b ≤ 0x20) ∧
      wordStart c = true ∧ (∀ b ∈ w, wordByte b = true) := by
  obtain ⟨p, i, a, h1, h2, h3, h4⟩ := h.consume_start h'
  rw [ht] at h2
  obtain ⟨r, rfl⟩ : ∃ r, p = #b'.' :: r := by
    generalize hk : Token.Accessor = t at h2
    generalize l'.rest = rr at h2
    cases h2 with
    | accessor => exact ⟨_, rfl⟩
    | punct hp => subst hk; exact absurd hp (by revert p; simp [puncts])
    | word _ _ _ => exact absurd (wordToken_inv hk.symm (by decide)) (by simp [keywords])
    | _ => simp at hk
  rw [Lex.scanAll, Lex.scan_succ, if_neg (by simp only [next, Lex.rest_moveTo, List.cons_append, List.headD_cons]; decide)] at h4
  have hh : handlerOf (next (#b'.' :: r ++ l'.rest)) = .PRD := by simp only [next, List.cons_append, List.headD_cons]; decide
  simp only [Lex.rest_moveTo, hh] at h4
  generalize hm : ({ (l.moveTo (#b'.' :: r ++ l'.rest) i) with asi := a, tokenStart := i } : Lex) = m at h4
  have h4' : m.prd = .ok l' := by rw [← hm]; exact h4
  have hmr : m.rest = #b'.' :: (r ++ l'.rest) := by rw [← hm]; rfl
  rw [Lex.prd, Lex.bump_moveTo hmr] at h4'
  simp only [Out.bind_ok] at h4'
  split at h4'
  · rename_i hd
    obtain ⟨r', hr', hb, hob⟩ := Lex.bump_of_readByte (l := m.moveTo (r ++ l'.rest) (m.index + 1))
      (by intro hh; rw [hh] at hd; exact absurd hd (by decide))
    rw [hb] at h4'
    simp only [Out.bind_ok] at h4'
    obtain ⟨l2, ds, e, hs1, hs2, hs3, hs4, hs5, hs6⟩ := Lex.readFloat_spec
      ((m.moveTo (r ++ l'.rest) (m.index + 1)).moveTo r' ((m.moveTo (r ++ l'.rest) (m.index + 1)).index + 1))
    rw [hs1] at h4'
    have := Out.ok.inj h4'
    subst this
    rw [hs6] at ht
    cases ht
  split at h4'
  · rename_i hd
    obtain ⟨r', hr', hb, hob⟩ := Lex.bump_of_readByte (l := m.moveTo (r ++ l'.rest) (m.index + 1)) (by rw [hd]; decide)
    rw [hb] at h4'
    simp only [Out.bind_ok] at h4'
    split at h4'
    · rw [Lex.single, Out.bind_eq_ok] at h4'
      obtain ⟨x, -, hx⟩ := h4'
      have := congrArg Lex.token (Out.ok.inj hx)
      rw [ht] at this
      cases this
    · have := congrArg Lex.token (Out.ok.inj h4')
      rw [ht] at this
      cases this
  · obtain ⟨s, c, w, hs, hx⟩ := (Lex.readAccessor_spec _).of_ok h4'
    rcases hx with ⟨hc, hw, ho, -, -, ha⟩ | ⟨-, -, -, -, -, hx⟩
    · have hr : r = s ++ c :: w := by
        have := ho.rest
        simp only [Lex.rest_moveTo] at this
        exact List.append_cancel_right this
      subst hr
      have hi : m.index = i := by rw [← hm]; rfl
      have hsrc : l'.src = src := by
        rw [ho.src]
        have : (m.moveTo ((s ++ c :: w) ++ l'.rest) (m.index + 1)).src = m.src := rfl
        rw [this, ← hm]
        exact h.same
      have hacc : l'.accessorAsStr = c :: w := by
        rw [Lex.accessorAsStr, Lex.sliceSource, hsrc, ha, ho.index]
        simp only [Lex.index_moveTo, hi, List.length_append, List.length_cons]
        rw [show i + 1 + s.length = i + (1 + s.length) by omega, ← List.drop_drop, h1]
        rw [show i + 1 + (s.length + (w.length + 1)) - (i + (1 + s.length)) = w.length + 1 by omega]
        rw [show 1 + s.length = s.length + 1 by omega]
        simp
      refine ⟨s, c, w, ?_, hacc, hs, hc, hw⟩
      rw [h3, hacc]; simp
    · rw [hx] at ht; cases ht

theorem Spec.Lexing.accessor_text {src : Bytes} {l : Lex} (h : Lexing src l) (ht : l.token = .Accessor) :
    ∃ s c w, l.tokenAsStr = #b'.' :: s ++ l.accessorAsStr ∧ l.accessorAsStr = c :: w ∧ (∀ b ∈ s, b ≤ 0x20) ∧
      wordStart c = true ∧ (∀ b ∈ w, wordByte b = true) := by
  cases h with
  | new h => exact Lex.WF.accessor_text (l := Lex.init src) ⟨rfl, rfl, Nat.zero_le _, Nat.le_refl _, by simp [Lex.init]⟩ h ht
  | consume h h' => exact h.wf.accessor_text h' ht
  | template h h' =>
    obtain ⟨p, q, -, ho, h⟩ := (Lex.readTemplateKind_spec _).of_ok h'
    rcases h with h | h | h <;> simp_all
  | regex h h' =>
    obtain ⟨p, c, q, -, ho, h⟩ := (readRegularExpression_spec _).of_ok h'
    rcases h with h | h | h <;> simp_all

/-- `tokenAsStr` after the lexer moved on inside the same token. -/
theorem Lex.WF.over_text {src : Bytes} {l l' : Lex} {p : Bytes} (h : l.WF src) (h' : l'.WF src) (ho : Lex.Over p l l') :
    l'.tokenAsStr = l.tokenAsStr ++ p := by
  rw [h.text, h'.text, slice, slice, ho.tokenStart, ho.index]
  have hr : src.drop l.index = p ++ l'.rest := h.rest ▸ ho.rest
  have : src.take (l.index + p.length) = src.take l.index ++ p := by
    rw [List.take_add, hr]; simp
  rw [this, List.drop_append_of_le_length]
  simp
  have := h.start
  have := h.index
  omega

/-- The template piece after `}`. -/
theorem Spec.Lexing.piece_after_brace {src : Bytes} {l l' : Lex} (h : Lexing src l) (h' : l.readTemplateKind = .ok l')
    (hb : l.tokenAsStr = bs!"}") (ht : l'.token = .TemplateOpen ∨ l'.token = .TemplateClosed) :
    Piece l'.tokenAsStr l'.quasi := by
  obtain ⟨p, q, -, ho, hx⟩ := (Lex.readTemplateKind_spec _).of_ok h'
  have hw := h.wf.over_text (Lexing.template h h').wf ho
  have hq : l.sliceSource l.index (l.index + p.length) = p := by
    rw [Lex.sliceSource, h.wf.same, ← h.wf.rest, ho.rest]
    simp
  rcases hx with ⟨-, rfl, h2⟩ | ⟨-, rfl, h2⟩ | ⟨h1, -⟩
  · exact ⟨bs!"}", bs!"`", by rw [hw, hb, h2, hq]; simp, .inr rfl, .inl rfl⟩
  · exact ⟨bs!"}", bs!"${", by rw [hw, hb, h2, hq]; simp, .inr rfl, .inr rfl⟩
  · rw [h1] at ht; rcases ht with ht | ht <;> cases ht

/-- The first template piece. -/
theorem Lex.WF.piece {src : Bytes} {l l' : Lex} (h : l.WF src) (h' : l.consume = .ok l')
    (ht : l'.token = .TemplateOpen ∨ l'.token = .TemplateClosed) : Piece l'.tokenAsStr l'.quasi := by
  obtain ⟨p, i, a, h1, h2, h3, h4⟩ := h.consume_start h'
  obtain ⟨r, rfl⟩ : ∃ r, p = #b'`' :: r := by
    generalize hk : l'.token = t at h2
    rw [hk] at ht
    generalize l'.rest = rr at h2
    cases h2 with
    | templateOpen => exact ⟨_, rfl⟩
    | templateClosed => exact ⟨_, rfl⟩
    | punct hp => exfalso; clear hk; rcases ht with rfl | rfl <;> exact absurd hp (by revert p; simp [puncts])
    | word _ _ _ => exfalso; rcases ht with ht | ht <;> exact absurd (wordToken_inv ht (by decide)) (by simp [keywords])
    | _ => simp at ht
  rw [Lex.scanAll, Lex.scan_succ, if_neg (by simp only [next, Lex.rest_moveTo, List.cons_append, List.headD_cons]; decide)] at h4
  have hh : handlerOf (next (#b'`' :: r ++ l'.rest)) = .TPL := by simp only [next, List.cons_append, List.headD_cons]; decide
  simp only [Lex.rest_moveTo, hh] at h4
  generalize hm : ({ (l.moveTo (#b'`' :: r ++ l'.rest) i) with asi := a, tokenStart := i } : Lex) = m at h4
  have hmr : m.rest = #b'`' :: (r ++ l'.rest) := by rw [← hm]; rfl
  have h4' : (m.bump >>= Lex.readTemplateKind) = .ok l' := by rw [← hm]; exact h4
  rw [Lex.bump_moveTo hmr] at h4'
  simp only [Out.bind_ok] at h4'
  obtain ⟨p, q, -, ho, hx⟩ := (Lex.readTemplateKind_spec _).of_ok h4'
  have hr : r = p ++ q := by
    have := ho.rest
    simp only [Lex.rest_moveTo] at this
    exact List.append_cancel_right this
  subst hr
  have hi : m.index = i := by rw [← hm]; rfl
  have hs : m.src = src := by rw [← hm]; exact h.same
  have hq : (m.moveTo ((p ++ q) ++ l'.rest) (m.index + 1)).sliceSource (m.moveTo ((p ++ q) ++ l'.rest) (m.index + 1)).index
      ((m.moveTo ((p ++ q) ++ l'.rest) (m.index + 1)).index + p.length) = p := by
    rw [Lex.sliceSource]
    simp only [Lex.index_moveTo, hi]
    have : (m.moveTo ((p ++ q) ++ l'.rest) (i + 1)).src = src := hs
    rw [this, ← List.drop_drop, h1]
    simp
  rcases hx with ⟨-, rfl, h2⟩ | ⟨-, rfl, h2⟩ | ⟨h1, -⟩
  · exact ⟨bs!"`", bs!"`", by rw [h3, h2, hq]; simp, .inl rfl, .inl rfl⟩
  · exact ⟨bs!"`", bs!"${", by rw [h3, h2, hq]; simp, .inl rfl, .inr rfl⟩
  · rw [h1] at ht; rcases ht with ht | ht <;> cases ht

end Ratel
