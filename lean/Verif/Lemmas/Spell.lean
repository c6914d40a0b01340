import Verif.Spec.Spelling
import Verif.Lemmas.Run
import Verif.Lemmas.Text
/-! The lexer delivers the items that are spelled in the source. -/
namespace Ratel
open Spec

set_option linter.unusedSectionVars false
variable [Unicode]

def asiFlag (b : Bool) : Asi := if b then .ImplicitSemicolon else .NoSemicolon

theorem asiAt_flag (t : Token) (b : Bool) : Lex.asiAt t (asiFlag b) = asiBefore t b := by
  unfold Lex.asiAt asiBefore asiFlag
  cases b <;> cases closes t <;> simp

theorem Lex.scanAll_gap {a b : Bool} {g r : Bytes} (hg : Gap a g r b) :
    ∀ l : Lex, l.rest = g ++ r → l.asi = asiFlag a →
      Lex.scanAll l = Lex.scanAll { l.moveTo r (l.index + g.length) with asi := asiFlag b } := by
  induction hg with
  | nil => intro l hl ha; simp at hl; subst hl; rw [← ha]; rfl
  | @space a b c g r h hg ih =>
    intro l hl ha
    rw [Lex.scanAll_space hl h]
    refine (ih { l.moveTo (g ++ r) (l.index + 1) with asi := if c = #b'\n' then .ImplicitSemicolon else l.asi } rfl ?_).trans ?_
    · rw [ha]
      by_cases hc : c = #b'\n'
      · subst hc; simp [asiFlag]
      · simp [hc, asiFlag]
    · simp [Lex.moveTo, Nat.add_assoc, Nat.add_comm 1]
  | @comment a b p g r hp hc hg ih =>
    intro l hl ha
    rw [Lex.scanAll_comment hp (by rw [hl]; simp) (fun b hb => hc b hb)]
    refine (ih { l.moveTo (g ++ r) (l.index + p.length) with asi := .NoSemicolon } rfl rfl).trans ?_
    simp [Lex.moveTo, Nat.add_assoc]

/-- The lexer at the beginning of a lexeme. -/
theorem Lex.scanAll_token {l : Lex} {t : Token} {p r : Bytes} (h : Lexeme t p r) (hl : l.rest = p ++ r) :
    ∃ l', Lex.scanAll l = .ok l' ∧ l'.src = l.src ∧ l'.token = t ∧ l'.rest = r ∧ l'.tokenStart = l.index ∧
      l'.index = l.index + p.length ∧ l'.asi = Lex.asiAt t l.asi := by
  obtain ⟨l', h1, h2, h3, h4, h5, h6⟩ := Lex.scanAll_complete h hl
  refine ⟨l', h1, h2, h3, h4, h5, h6, ?_⟩
  rcases Lex.scanAll_cases l with ⟨p', s, hp, hl', hne⟩ | hd
  · have := h.no_trivia (g := p') (s := s) (by simpa using Trivia.cons (g := []) (by simpa using hp) .nil) (by rw [← hl, hl'])
    exact absurd this hne
  · obtain ⟨q, ho, -⟩ := hd.of_ok h1
    have := ho.asi
    simp only at this
    rw [this, h3]

/-- One call of `consume`. -/
theorem Lex.WF.consume_token {src : Bytes} {l : Lex} (hw : l.WF src) {g p r : Bytes} {b : Bool} {t : Token}
    (hg : Gap false g (p ++ r) b) (hp : Lexeme t p r) (hl : l.rest = g ++ (p ++ r)) :
    ∃ l', l.consume = .ok l' ∧ l'.token = t ∧ l'.rest = r ∧ l'.asi = asiBefore t b ∧ l'.tokenAsStr = p ∧ l'.WF src := by
  have e := Lex.scanAll_gap hg { l with asi := .NoSemicolon } hl rfl
  obtain ⟨l', h1, h2, h3, h4, h5, h6, h7⟩ :=
    Lex.scanAll_token (l := { ({ l with asi := .NoSemicolon } : Lex).moveTo (p ++ r) (l.index + g.length) with asi := asiFlag b }) hp rfl
  have hc : l.consume = .ok l' := by rw [Lex.consume_eq, e]; exact h1
  have h0 : Lex.WF src { l with asi := .NoSemicolon } := ⟨hw.same, hw.rest, hw.index, hw.start, hw.eof⟩
  have hs := h1
  rw [← e] at hs
  obtain ⟨g', p', hs⟩ := (Lex.scanAll_spec _).of_ok hs
  obtain ⟨hw', hp'⟩ := h0.scanned hs
  refine ⟨l', hc, h3, h4, by rw [h7]; exact asiAt_flag t b, ?_, hw'⟩
  have h5 : l'.tokenStart = l.index + g.length := h5
  have h6 : l'.index = l.index + g.length + p.length := h6
  rw [hw'.text, slice, h5, h6]
  have hd : src.drop (l.index + g.length) = p ++ r := by
    rw [← List.drop_drop, ← hw.rest, hl]; simp
  rw [List.drop_take, hd, Nat.add_sub_cancel_left, List.take_left]

theorem piece_inv {s s' d e : Bytes} {c : Bool} {x : Byte} (h : x :: s ++ tplEnd c = d ++ s' ++ e)
    (hd : d = bs!"`" ∨ d = bs!"}") (he : e = bs!"`" ∨ e = bs!"${") : s' = s := by
  have h1 : s ++ tplEnd c = s' ++ e := by
    rcases hd with rfl | rfl <;> (simp only [List.cons_append, List.nil_append, List.cons.injEq] at h; exact h.2)
  have hl := congrArg List.getLast? h1
  cases c <;> rcases he with rfl | rfl <;> simp [tplEnd] at hl h1
  · simpa using h1.symm
  · exact h1.symm

theorem tplEnd_stop (c : Bool) (r : Bytes) : TplStop (tplEnd c ++ r) := by
  cases c
  · exact Or.inr (Or.inr (Or.inl ⟨r, rfl⟩))
  · exact Or.inr (Or.inl rfl)

theorem readTemplateKind_body {src : Bytes} {l : Lex} (hw : l.WF src) {s r : Bytes} {c : Bool} (hs : TplBody s)
    (hl : l.rest = s ++ (tplEnd c ++ r)) :
    ∃ l', l.readTemplateKind = .ok l' ∧ l'.token = tplToken c ∧ l'.rest = r ∧ l'.quasi = s := by
  have hne : tplEnd c ++ r ≠ [] := by cases c <;> simp [tplEnd]
  have h := Lex.readTemplateKind_spec l
  generalize hx : l.readTemplateKind = x at h
  cases x with
  | oob =>
    have := Lex.templateGo_none h
    rw [hl] at this
    have := (tplBody_unique (x' := []) hs this (tplEnd_stop c r) (Or.inl rfl) (by simp)).2
    exact absurd this hne
  | panic => exact h.elim
  | timeout => exact h.elim
  | ok l' =>
    obtain ⟨p, q, hp, ho, hk⟩ := h
    have e : s ++ (tplEnd c ++ r) = p ++ (q ++ l'.rest) := by rw [← hl, ho.rest]; simp
    have hst : TplStop (q ++ l'.rest) := by
      rcases hk with ⟨-, rfl, -⟩ | ⟨-, rfl, -⟩ | ⟨-, rfl, h3⟩
      · exact Or.inr (Or.inl rfl)
      · exact Or.inr (Or.inr (Or.inl ⟨_, rfl⟩))
      · exact Or.inr (Or.inr (Or.inr ⟨_, rfl, h3⟩))
    obtain ⟨rfl, e2⟩ := tplBody_unique hs hp (tplEnd_stop c r) hst e
    have hq : l.sliceSource l.index (l.index + s.length) = s := by
      rw [Lex.sliceSource, hw.same, ← hw.rest, hl]; simp
    refine ⟨l', rfl, ?_⟩
    rcases hk with ⟨h1, rfl, h2⟩ | ⟨h1, rfl, h2⟩ | ⟨h1, rfl, h2⟩
    · cases c <;> simp [tplEnd] at e2
      exact ⟨h1, e2.symm, by rw [h2, hq]⟩
    · cases c <;> simp [tplEnd] at e2
      exact ⟨h1, e2.symm, by rw [h2, hq]⟩
    · cases c <;> simp [tplEnd] at e2

theorem text_of_plain {l : Lex} (h : special l.token = false) : l.text = l.tokenAsStr := by
  unfold Lex.text
  split <;> simp_all [special]

theorem slash_lexeme {c : Byte} {r : Bytes} (hc : c ∉ bs!"=/*") : Lexeme .OperatorDivision bs!"/" (c :: r) := by
  refine .punct (by decide) (punct_max ?_) ?_
  · intro h
    have : extensions bs!"/" = bs!"=" := by decide
    rw [this] at h
    exact hc (by simp [next] at h ⊢; simp [h])
  · intro _
    constructor <;> (intro h; simp only [next, List.headD_cons] at h; subst h; exact hc (by decide))

theorem brace_lexeme (r : Bytes) : Lexeme .BraceClose bs!"}" r :=
  .punct (by decide) (punct_max (by rw [show extensions bs!"}" = [] by decide]; simp)) (fun h => by cases h)

theorem Spec.Spells.stream_of {txt : Bytes} {i : List Item} (h : Spells txt i) (src : Bytes) :
    ∀ l : Lex, l.WF src → (∀ l', l.consume = .ok l' → Lexing src l') → l.rest = txt →
      ∃ l', l.consume = .ok l' ∧ Stream l' i := by
  induction h with
  | @eof g r b hg hr =>
    intro l hw hx hl
    obtain ⟨l', h1, h2, h3, h4, h5, -⟩ := hw.consume_token (p := []) (by simpa using hg) (.eof hr) (by simpa using hl)
    exact ⟨l', h1, .eof h2 (by rw [h4]; cases b <;> rfl) (by rw [h3]; exact hr)⟩
  | @tok g p r b t i hg hp ht h ih =>
    intro l hw hx hl
    obtain ⟨l', h1, h2, h3, h4, h5, h6⟩ := hw.consume_token hg hp hl
    obtain ⟨l2, h7, h8⟩ := ih l' h6 (fun _ h => .consume (hx _ h1) h) h3
    exact ⟨l', h1, .tok h2 (by rw [text_of_plain (by rw [h2]; exact ht), h5]) h4 h7 h8⟩
  | @accessor g s w r b c i hg hs hc hw' hr h ih =>
    intro l hw hx hl
    obtain ⟨l', h1, h2, h3, h4, h5, h6⟩ := hw.consume_token hg (.accessor hs hc hw' hr) hl
    obtain ⟨l2, h7, h8⟩ := ih l' h6 (fun _ h => .consume (hx _ h1) h) h3
    refine ⟨l', h1, .tok h2 ?_ h4 h7 h8⟩
    obtain ⟨s', c', w', e1, e2, e3, e4, e5⟩ := (hx _ h1).accessor_text h2
    rw [Lex.text, h2]
    simp only
    rw [h5, e2] at e1
    simp only [List.cons_append, List.cons.injEq, true_and] at e1
    have := (span_unique (P := fun b => decide (b ≤ 0x20)) (by simpa using hs) (by simpa using e3)
      (by simpa using (gt_of_wordStart hc).1) (by simpa using (gt_of_wordStart e4).1) e1).2
    rw [e2, this]
  | @template g s r b c i hg hs h ih =>
    intro l hw hx hl
    have hp : Lexeme (tplToken c) (#b'`' :: s ++ tplEnd c) r := by
      cases c
      · exact .templateOpen hs
      · exact .templateClosed hs
    obtain ⟨l', h1, h2, h3, h4, h5, h6⟩ := hw.consume_token hg hp hl
    obtain ⟨l2, h7, h8⟩ := ih l' h6 (fun _ h => .consume (hx _ h1) h) h3
    refine ⟨l', h1, .tok h2 ?_ h4 h7 h8⟩
    obtain ⟨d, e, k1, k2, k3⟩ := hw.piece h1 (by rw [h2]; cases c <;> simp [tplToken])
    rw [h5] at k1
    have : l'.text = l'.quasi := by rw [Lex.text, h2]; cases c <;> rfl
    rw [this]
    exact piece_inv k1 k2 k3
  | @resume g s r b c i hg hs h ih =>
    intro l hw hx hl
    obtain ⟨l', h1, h2, h3, h4, h5, h6⟩ := hw.consume_token (p := bs!"}") (r := s ++ (tplEnd c ++ r))
      (by simpa using hg) (brace_lexeme _) (by simpa using hl)
    obtain ⟨l1, k1, k2, k3, k4⟩ := readTemplateKind_body h6 hs h3
    have hlx := Lexing.template (hx _ h1) k1
    obtain ⟨l2, h7, h8⟩ := ih l1 hlx.wf (fun _ h => .consume hlx h) k3
    exact ⟨l', h1, .resume h2 (by rw [h4]; cases b <;> rfl) k1 (by rw [k2]; rfl) k4 h7 h8⟩
  | @regex g p f r b c i hg hc hp hf hr h ih =>
    intro l hw hx hl
    obtain ⟨l', h1, h2, h3, h4, h5, h6⟩ := hw.consume_token (p := bs!"/") (r := c :: p ++ #b'/' :: f ++ r)
      (by simpa using hg) (slash_lexeme hc) (by simpa using hl)
    have hlx := hx _ h1
    have hd : src.drop l'.index = (c :: p) ++ #b'/' :: (f ++ r) := by rw [← h6.rest, h3]; simp
    obtain ⟨l1, v, k1, k2, k3, k4⟩ := C38_regex hlx hp hf hr hd
    have hlx1 := Lexing.regex hlx k1
    have hr1 : l1.rest = r := by
      rw [hlx1.wf.rest, k3, Nat.add_assoc, Nat.add_assoc, ← List.drop_drop, hd]
      have : (c :: p).length + (1 + f.length) = ((c :: p) ++ #b'/' :: f).length := by simp; omega
      rw [this, show c :: p ++ #b'/' :: (f ++ r) = (c :: p ++ #b'/' :: f) ++ r by simp, List.drop_left]
    have hv : v = #b'/' :: c :: p ++ #b'/' :: f := by
      have hi : 0 < l'.index := by
        have := h6.text
        rw [h5, slice] at this
        have := congrArg List.length this
        simp at this
        omega
      have e1 : src.drop (l'.index - 1) = #b'/' :: (c :: p ++ #b'/' :: (f ++ r)) := by
        have ht := h6.text
        rw [h5, slice] at ht
        have hlen := congrArg List.length ht
        have hidx := h6.index
        simp at hlen
        have hst : l'.tokenStart = l'.index - 1 := by omega
        rw [hst, List.drop_take] at ht
        have e : src.drop (l'.index - 1) = (src.drop (l'.index - 1)).take 1 ++ (src.drop (l'.index - 1)).drop 1 := (List.take_append_drop 1 _).symm
        rw [e, List.drop_drop, show l'.index - 1 + 1 = l'.index by omega, hd]
        rw [show l'.index - (l'.index - 1) = 1 by omega] at ht
        rw [← ht]; rfl
      rw [k4, slice, List.drop_take, e1, k3]
      have : l'.index + (c :: p).length + 1 + f.length - (l'.index - 1) = (#b'/' :: c :: p ++ #b'/' :: f).length := by
        simp; omega
      rw [this, show #b'/' :: (c :: p ++ #b'/' :: (f ++ r)) = (#b'/' :: c :: p ++ #b'/' :: f) ++ r by simp, List.take_left]
    obtain ⟨l2, h7, h8⟩ := ih l1 hlx1.wf (fun _ h => .consume hlx1 h) hr1
    subst hv
    exact ⟨l', h1, .regex h2 h4 k1 k2 h7 h8⟩

/-- The lexer of a source delivers its items. -/
theorem Spec.Spells.stream {src : Bytes} {i : List Item} (h : Spells src i) : ∃ l, Lex.new src = .ok l ∧ Stream l i :=
  Spec.Spells.stream_of h src (Lex.init src) ⟨rfl, rfl, Nat.zero_le _, Nat.le_refl _, by simp [Lex.init]⟩ (fun _ h => .new h) rfl

end Ratel
