import Verif.Lemmas.Spell
import Verif.Lemmas.Walk
/-! What the lexer delivers is spelled in the source: the converse of `Spell`. -/
namespace Ratel
open Spec

set_option linter.unusedSectionVars false
variable [Unicode]

/-- What `consume` skipped and read. -/
structure Found (a : Bool) (l l' : Lex) (g p : Bytes) (b : Bool) : Prop where
  rest : l.rest = g ++ (p ++ l'.rest)
  gap : Gap a g (p ++ l'.rest) b
  lexeme : Lexeme l'.token p l'.rest
  asi : l'.asi = asiBefore l'.token b

theorem Lex.scanAll_found (l : Lex) : ∀ (a : Bool) (l' : Lex), l.asi = asiFlag a → Lex.scanAll l = .ok l' →
    ∃ g p b, Found a l l' g p b := by
  generalize hn : l.rest.length = n
  induction n using Nat.strongRecOn generalizing l with
  | ind n ih =>
    subst hn
    intro a l' ha hr
    rcases Lex.scanAll_cases l with ⟨p, s, hp, hl, hne⟩ | h
    · have hlen : s.length < l.rest.length := by
        rw [hl, List.length_append]
        have := List.length_pos_iff.mpr hne
        omega
      by_cases hsp : ∃ b, p = [b]
      · obtain ⟨c, rfl⟩ := hsp
        cases hp with
        | space h =>
          rw [Lex.scanAll_space hl h] at hr
          obtain ⟨g, q, b, k1, k2, k3, k4⟩ := ih s.length hlen
            { l.moveTo s (l.index + 1) with asi := if c = #b'\n' then .ImplicitSemicolon else l.asi } rfl (a || c == #b'\n') l' (by
              by_cases hc : c = #b'\n'
              · subst hc; simp [asiFlag]
              · have : (c == #b'\n') = false := by simpa using hc
                simp [hc, ha, this]) hr
          have k1 : s = g ++ (q ++ l'.rest) := k1
          exact ⟨c :: g, q, b, by rw [hl, k1]; rfl, .space h k2, k3, k4⟩
      · rw [Lex.scanAll_comment hp hl (fun b hb => hsp ⟨b, hb⟩)] at hr
        obtain ⟨g, q, b, k1, k2, k3, k4⟩ := ih s.length hlen { l.moveTo s (l.index + p.length) with asi := .NoSemicolon } rfl false l' rfl hr
        have k1 : s = g ++ (q ++ l'.rest) := k1
        exact ⟨p ++ g, q, b, by rw [hl, k1]; simp, .comment (by rw [← k1]; exact hp) (fun c hc => hsp ⟨c, hc⟩) k2, k3, k4⟩
    · obtain ⟨p, ho, hx⟩ := h.of_ok hr
      refine ⟨[], p, a, by simpa using ho.rest, .nil, hx, ?_⟩
      have := ho.asi
      simp only at this
      rw [this, ha, asiAt_flag]

theorem consume_found {l l' : Lex} (h : l.consume = .ok l') : ∃ g p b, Found false l l' g p b := by
  rw [Lex.consume_eq] at h
  obtain ⟨g, p, b, h1, h2, h3, h4⟩ := Lex.scanAll_found _ false l' rfl h
  exact ⟨g, p, b, h1, h2, h3, h4⟩

section
variable {src : Bytes} {l : Lex}

/-- The flag for inserted semicolons. -/
theorem Proper.flag (h : Proper src l) : ∃ b, l.asi = asiBefore l.token b := by
  have hc : ∀ {l l' : Lex}, l.consume = .ok l' → ∃ b, l'.asi = asiBefore l'.token b := fun h =>
    (consume_found h).elim fun _ h => h.elim fun _ h => h.elim fun b h => ⟨b, h.asi⟩
  induction h with
  | new h => exact hc h
  | consume _ h' _ => exact hc h'
  | template h ht h' ih =>
    obtain ⟨b, hb⟩ := ih
    obtain ⟨p, q, -, ho, h⟩ := (Lex.readTemplateKind_spec _).of_ok h'
    refine ⟨true, ?_⟩
    rw [ho.asi, hb, ht]
    rcases h with ⟨h, -⟩ | ⟨h, -⟩ | ⟨h, -⟩ <;> rw [h] <;> cases b <;> rfl
  | regex h ht h' ih =>
    obtain ⟨b, hb⟩ := ih
    obtain ⟨p, c, q, -, ho, h⟩ := (readRegularExpression_spec _).of_ok h'
    refine ⟨b, ?_⟩
    have := ho.asi
    simp only at this
    rw [this, hb, ht]
    rcases h with ⟨h, -⟩ | ⟨h, -⟩ | ⟨h, -⟩ <;> simp only at h <;> rw [h] <;> cases b <;> rfl

theorem Proper.closing (h : Proper src l) (ht : closes l.token = true) (hs : l.token ≠ .Semicolon) : l.asi = .ImplicitSemicolon := by
  obtain ⟨b, hb⟩ := h.flag
  rw [hb, asiBefore, if_neg hs, ht]
  simp

theorem Proper.explicit (h : Proper src l) : l.asi = .ExplicitSemicolon ↔ l.token = .Semicolon := by
  obtain ⟨b, hb⟩ := h.flag
  rw [hb, asiBefore]
  split
  · simp [*]
  · simp [*]
    split <;> simp

end

/-! ### Inversion of lexemes -/

theorem lexeme_eof {p r : Bytes} (h : Lexeme .EndOfProgram p r) : p = [] ∧ next r = 0 := by
  generalize hk : Token.EndOfProgram = t at h
  cases h with
  | eof h => exact ⟨rfl, h⟩
  | punct hp => subst hk; exact absurd hp (by revert p; simp [puncts])
  | word _ _ _ => exact absurd (wordToken_inv hk.symm (by decide)) (by simp [keywords])
  | _ => simp at hk

theorem lexeme_accessor {p r : Bytes} (h : Lexeme .Accessor p r) : ∃ s c w, p = #b'.' :: s ++ c :: w ∧ (∀ b ∈ s, b ≤ 0x20) ∧
    wordStart c = true ∧ (∀ b ∈ w, wordByte b = true) ∧ wordByte (next r) = false := by
  generalize hk : Token.Accessor = t at h
  cases h with
  | accessor h1 h2 h3 h4 => exact ⟨_, _, _, rfl, h1, h2, h3, h4⟩
  | punct hp => subst hk; exact absurd hp (by revert p; simp [puncts])
  | word _ _ _ => exact absurd (wordToken_inv hk.symm (by decide)) (by simp [keywords])
  | _ => simp at hk

theorem lexeme_template {p r : Bytes} {c : Bool} (h : Lexeme (tplToken c) p r) : ∃ s, p = #b'`' :: s ++ tplEnd c ∧ TplBody s := by
  generalize hk : tplToken c = t at h
  cases h with
  | templateClosed h =>
    cases c
    · simp [tplToken] at hk
    · exact ⟨_, rfl, h⟩
  | templateOpen h =>
    cases c
    · exact ⟨_, rfl, h⟩
    · simp [tplToken] at hk
  | punct hp => subst hk; cases c <;> exact absurd hp (by revert p; simp [puncts, tplToken])
  | word _ _ _ =>
    cases c
    · exact absurd (wordToken_inv hk.symm (by decide)) (by simp [keywords, tplToken])
    · exact absurd (wordToken_inv hk.symm (by decide)) (by simp [keywords, tplToken])
  | _ => cases c <;> simp [tplToken] at hk

theorem lexeme_punct {t : Token} {p q r : Bytes} (h : Lexeme t p r) (ht : (q, t) ∈ puncts) :
    p = q ∧ (∀ x ∈ puncts, x.1 <+: p ++ r → x.1.length ≤ p.length) ∧ (p = bs!"/" → next r ≠ #b'/' ∧ next r ≠ #b'*') := by
  cases h with
  | punct h h1 h2 =>
    have : ∀ x ∈ puncts, ∀ y ∈ puncts, x.2 = y.2 → x.1 = y.1 := by decide +kernel
    exact ⟨this _ h _ ht rfl, h1, h2⟩
  | @word c w _ hc hw hr =>
    exfalso
    have : ∀ x ∈ puncts, x.2 ≠ .Identifier ∧ ∀ y ∈ keywords, y.2 ≠ x.2 := by decide +kernel
    obtain ⟨h1, h2⟩ := this _ ht
    exact h2 _ (wordToken_inv rfl h1) rfl
  | _ => simp [puncts] at ht

theorem text_plain {t : Token} {l : Lex} (h : l.token = t) (hs : special t = false) : l.text = l.tokenAsStr :=
  text_of_plain (by rw [h]; exact hs)

/-- What is left of the source when the lexer has read a token is spelled by the items to come. -/
theorem spells_of_stream {src : Bytes} {l' : Lex} {i : List Item} (h : Stream l' i) (hi : ∀ x ∈ i, x.token ≠ .EndOfProgram) :
    ∀ l : Lex, l.WF src → l.consume = .ok l' → Proper src l' → Spells l.rest i := by
  induction h with
  | @eof m ht ha hr =>
    intro l hw hc hp
    obtain ⟨g, p, b, f⟩ := consume_found hc
    rw [f.rest]
    have hx := f.lexeme
    rw [ht] at hx
    obtain ⟨rfl, hz⟩ := lexeme_eof hx
    exact .eof (by simpa using f.gap) (by simpa using hz)
  | @tok m m' i t w a ht hw ha hc' h ih =>
    intro l hwf hc hp
    have ih := ih (fun x hx => hi x (List.mem_cons_of_mem _ hx)) m hp.lexing.wf hc' (hp.consume hc')
    obtain ⟨g, p, b, f⟩ := consume_found hc
    have hpx : m.tokenAsStr = p := by
      obtain ⟨m2, g1, -, -, -, g5, -⟩ := Lex.WF.consume_token hwf f.gap f.lexeme f.rest
      rw [hc] at g1
      cases g1
      exact g5
    have hx := f.lexeme
    rw [f.rest]
    rw [← ha, f.asi, ht]
    rw [ht] at hx
    by_cases hs : special t = false
    · rw [← hw, text_plain ht hs, hpx]
      exact .tok f.gap hx hs ih
    · have hs' : t = .EndOfProgram ∨ t = .Accessor ∨ t = .TemplateOpen ∨ t = .TemplateClosed := by
        revert hs; cases t <;> simp [special]
      rcases hs' with rfl | rfl | hs'
      · exact absurd rfl (hi _ List.mem_cons_self)
      · obtain ⟨s, c, v, rfl, h1, h2, h3, h4⟩ := lexeme_accessor hx
        have : w = c :: v := by
          obtain ⟨s', c', w', e1, e2, e3, e4, e5⟩ := hp.lexing.accessor_text ht
          rw [← hw, Lex.text, ht]
          simp only
          rw [hpx, e2] at e1
          simp only [List.cons_append, List.cons.injEq, true_and] at e1
          have := (span_unique (P := fun b => decide (b ≤ 0x20)) (by simpa using h1) (by simpa using e3)
            (by simpa using (gt_of_wordStart h2).1) (by simpa using (gt_of_wordStart e4).1) e1).2
          rw [e2, this]
        rw [this]
        exact .accessor f.gap h1 h2 h3 h4 ih
      · obtain ⟨c, rfl⟩ : ∃ c, t = tplToken c := by
          rcases hs' with rfl | rfl
          · exact ⟨false, rfl⟩
          · exact ⟨true, rfl⟩
        obtain ⟨s, rfl, h1⟩ := lexeme_template hx
        have : w = s := by
          obtain ⟨d, e, k1, k2, k3⟩ := hwf.piece hc (by rw [ht]; cases c <;> simp [tplToken])
          rw [hpx] at k1
          have : m.text = m.quasi := by rw [Lex.text, ht]; cases c <;> rfl
          rw [← hw, this]
          exact piece_inv k1 k2 k3
        rw [this]
        exact .template f.gap h1 ih
  | @regex m m1 m' i w a ht ha hr h1 hc' h ih =>
    intro l hwf hc hp
    have hp1 := hp.regex ht hr
    have ih := ih (fun x hx => hi x (List.mem_cons_of_mem _ hx)) m1 hp1.lexing.wf hc' (hp1.consume hc')
    obtain ⟨g, q, b, f⟩ := consume_found hc
    have hx := f.lexeme
    rw [ht] at hx
    obtain ⟨rfl, hmax, hsl⟩ := lexeme_punct (q := bs!"/") hx (by simp [puncts])
    obtain ⟨hsl1, hsl2⟩ := hsl rfl
    obtain ⟨p, c, q, k1, ho, k2⟩ := (readRegularExpression_spec _).of_ok hr
    simp only at ho k2
    rw [h1] at k2
    rcases k2 with ⟨-, rfl, ⟨fs, rfl, hf⟩, hn, hv⟩ | ⟨k2, -⟩ | ⟨k2, -⟩
    · have e : m.rest = p ++ #b'/' :: fs ++ m1.rest := ho.rest
      cases p with
      | nil => simp [e, next] at hsl1
      | cons c p =>
        have hceq : c ∉ bs!"=/*" := by
          simp only [e, next, List.cons_append, List.headD_cons] at hsl1 hsl2
          simp [hsl1, hsl2]
          rintro rfl
          have := hmax (bs!"/=", .OperatorDivideAssign) (by simp [puncts]) (by rw [e]; exact ⟨p ++ #b'/' :: fs ++ m1.rest, by simp⟩)
          simp at this
        have hv' : w = #b'/' :: c :: p ++ #b'/' :: fs := by
          obtain ⟨m2, g1, -, -, -, g5, g6⟩ := Lex.WF.consume_token hwf f.gap f.lexeme f.rest
          rw [hc] at g1
          cases g1
          have hidx := ho.index
          have ht' := g6.text
          rw [g5, slice] at ht'
          have hlen := congrArg List.length ht'
          have hi2 := g6.index
          simp at hlen
          have hst : m.tokenStart = m.index - 1 := by omega
          rw [hst, List.drop_take, show m.index - (m.index - 1) = 1 by omega] at ht'
          have e1 : src.drop (m.index - 1) = #b'/' :: m.rest := by
            rw [g6.rest]
            have e : src.drop (m.index - 1) = (src.drop (m.index - 1)).take 1 ++ (src.drop (m.index - 1)).drop 1 := (List.take_append_drop 1 _).symm
            rw [e, List.drop_drop, show m.index - 1 + 1 = m.index by omega, ← ht']
            rfl
          rw [hv, Lex.sliceSource, g6.same, e1, hidx, e]
          have : m.index + (c :: p ++ #b'/' :: fs).length - (m.index - 1) = (#b'/' :: c :: p ++ #b'/' :: fs).length := by
            simp; omega
          rw [this, show #b'/' :: (c :: p ++ #b'/' :: fs ++ m1.rest) = (#b'/' :: c :: p ++ #b'/' :: fs) ++ m1.rest by simp, List.take_left]
        rw [f.rest, hv', ← ha, f.asi, ht, e]
        have := Spells.regex (g := g) (b := b) (by have := f.gap; rw [e] at this; simpa using this) hceq k1 hf hn ih
        simpa using this
    · simp at k2
    · simp at k2
  | @resume m m1 m' i w c ht ha hr h1 hw hc' h ih =>
    intro l hwf hc hp
    have hp1 := hp.template ht hr
    have ih := ih (fun x hx => hi x (List.mem_cons_of_mem _ hx)) m1 hp1.lexing.wf hc' (hp1.consume hc')
    obtain ⟨g, q, b, f⟩ := consume_found hc
    have hx := f.lexeme
    rw [ht] at hx
    obtain ⟨rfl, -⟩ := lexeme_punct (q := bs!"}") hx (by simp [puncts])
    obtain ⟨p, q, hpb, ho, hk⟩ := (Lex.readTemplateKind_spec _).of_ok hr
    have hq : m.sliceSource m.index (m.index + p.length) = p := by
      rw [Lex.sliceSource, hp.lexing.wf.same, ← hp.lexing.wf.rest, ho.rest]; simp
    rw [h1] at hk
    have key : q = tplEnd c ∧ w = p := by
      rcases hk with ⟨k1, rfl, k2⟩ | ⟨k1, rfl, k2⟩ | ⟨k1, -, -⟩
      · cases c <;> simp at k1
        exact ⟨rfl, by rw [← hw, k2, hq]⟩
      · cases c <;> simp at k1
        exact ⟨rfl, by rw [← hw, k2, hq]⟩
      · cases c <;> simp at k1
    obtain ⟨rfl, rfl⟩ := key
    rw [f.rest, ho.rest]
    have := Spells.resume (g := g) (b := b) (by have := f.gap; rw [ho.rest] at this; simpa using this) hpb ih
    simpa using this

end Ratel
