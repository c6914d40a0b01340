import Verif.Lemmas.SpellJoin
import Verif.Lemmas.Unspell
/-! Taking away the white space and the comments in front of a source. -/
namespace Ratel
open Spec

set_option linter.unusedSectionVars false

theorem block_comment_unique : ∀ {s s' r r' : Bytes}, ¬ bs!"*/" <:+: s → ¬ bs!"*/" <:+: s' →
    s ++ (bs!"*/" ++ r) = s' ++ (bs!"*/" ++ r') → s = s' ∧ r = r'
  | [], [], r, r', _, _, e => ⟨rfl, by simpa using e⟩
  | [], c :: s', r, r', _, h', e => by
    exfalso
    simp only [List.nil_append, List.cons_append, List.cons.injEq] at e
    obtain ⟨rfl, e⟩ := e
    cases s' with
    | nil => simp at e
    | cons d s' =>
      simp only [List.cons_append, List.cons.injEq] at e
      obtain ⟨rfl, e⟩ := e
      exact h' ⟨[], s', rfl⟩
  | c :: s, [], r, r', h, _, e => by
    exfalso
    simp only [List.nil_append, List.cons_append, List.cons.injEq] at e
    obtain ⟨rfl, e⟩ := e
    cases s with
    | nil => simp at e
    | cons d s =>
      simp only [List.cons_append, List.cons.injEq] at e
      obtain ⟨rfl, e⟩ := e
      exact h ⟨[], s, rfl⟩
  | c :: s, d :: s', r, r', h, h', e => by
    simp only [List.cons_append, List.cons.injEq] at e
    obtain ⟨rfl, e⟩ := e
    obtain ⟨rfl, rfl⟩ := block_comment_unique (fun ⟨a, b, e⟩ => h ⟨c :: a, b, by simp [← e]⟩)
      (fun ⟨a, b, e⟩ => h' ⟨c :: a, b, by simp [← e]⟩) e
    exact ⟨rfl, rfl⟩

theorem line_comment_unique : ∀ {s s' r r' : Bytes}, (∀ b ∈ s, b ≠ 0 ∧ b ≠ #b'\n') → (∀ b ∈ s', b ≠ 0 ∧ b ≠ #b'\n') →
    (next r = 0 ∨ next r = #b'\n') → (next r' = 0 ∨ next r' = #b'\n') → s ++ r = s' ++ r' → s = s' ∧ r = r'
  | [], [], r, r', _, _, _, _, e => ⟨rfl, e⟩
  | [], c :: s', r, r', _, h', hr, _, e => by
    exfalso
    rw [List.nil_append] at e
    subst e
    have := h' c List.mem_cons_self
    simp [next, this.1, this.2] at hr
  | c :: s, [], r, r', h, _, _, hr, e => by
    exfalso
    rw [List.nil_append] at e
    subst e
    have := h c List.mem_cons_self
    simp [next, this.1, this.2] at hr
  | c :: s, d :: s', r, r', h, h', hr, hr', e => by
    simp only [List.cons_append, List.cons.injEq] at e
    obtain ⟨rfl, e⟩ := e
    obtain ⟨rfl, rfl⟩ := line_comment_unique (fun b hb => h b (List.mem_cons_of_mem _ hb))
      (fun b hb => h' b (List.mem_cons_of_mem _ hb)) hr hr' e
    exact ⟨rfl, rfl⟩

theorem slash_not_space : isSpace #b'/' = false := by decide

/-- The text determines its first piece of white space or comment. -/
theorem piece_unique {p p' r r' : Bytes} (h : TriviaPiece p r) (h' : TriviaPiece p' r') (e : p ++ r = p' ++ r') : p = p' ∧ r = r' := by
  cases h <;> cases h'
  case space.space => simp only [List.cons_append, List.nil_append, List.cons.injEq] at e; exact ⟨by rw [e.1], e.2⟩
  case line.line h1 h2 _ h3 h4 =>
    simp only [List.cons_append, List.cons.injEq, true_and] at e
    obtain ⟨rfl, rfl⟩ := line_comment_unique h1 h3 h2 h4 e
    exact ⟨rfl, rfl⟩
  case block.block h1 h2 _ h3 h4 =>
    simp only [List.cons_append, List.cons.injEq, true_and, List.append_assoc] at e
    obtain ⟨rfl, rfl⟩ := block_comment_unique h2 h4 e
    exact ⟨rfl, rfl⟩
  all_goals
    exfalso
    simp only [List.cons_append, List.nil_append, List.cons.injEq] at e
    obtain ⟨e1, e⟩ := e
    first
      | (rename_i h _ _; subst e1; simp [slash_not_space] at h; done)
      | (rename_i h _ _ _; subst e1; simp [slash_not_space] at h; done)
      | (rename_i h; subst e1; simp [slash_not_space] at h; done)
      | (rename_i h; rw [← e1] at h; simp [slash_not_space] at h; done)
      | (obtain ⟨e2, -⟩ := e; revert e2; decide)

/-- No white space and no comment in front. -/
def Spec.NoGap (t : Bytes) : Prop := ∀ p r, TriviaPiece p r → t = p ++ r → False

variable [Unicode]

theorem gap_split {a b : Bool} {g r : Bytes} (hg : Gap a g r b) : ∀ {a1 b1 : Bool} {g1 t : Bytes}, NoGap t → Gap a1 g1 t b1 →
    g ++ r = g1 ++ t → ∀ a2, ∃ g2 b2, r = g2 ++ t ∧ Gap a2 g2 t b2 := by
  induction hg with
  | nil => exact fun ht h e a2 => (gap_flag h a2).elim fun b2 h2 => ⟨_, b2, e, h2⟩
  | @space a b c g r hc hg ih =>
    intro a1 b1 g1 t ht h e a2
    cases h with
    | nil => exact (ht [c] (g ++ r) (.space hc) (by rw [List.nil_append] at e; rw [← e]; rfl)).elim
    | @space _ _ c1 g1 _ hc1 h1 =>
      simp only [List.cons_append, List.cons.injEq] at e
      exact ih ht h1 e.2 a2
    | @comment _ _ p1 g1 _ hp hc1 h1 =>
      rw [List.append_assoc] at e
      obtain ⟨e1, e2⟩ := piece_unique (.space hc) hp (p := [c]) (r := g ++ r) e
      exact (hc1 c e1.symm).elim
  | @comment a b p g r hp hc hg ih =>
    intro a1 b1 g1 t ht h e a2
    rw [List.append_assoc] at e
    cases h with
    | nil => exact (ht p (g ++ r) hp (by rw [List.nil_append] at e; exact e.symm)).elim
    | @space _ _ c1 g1 _ hc1 h1 =>
      obtain ⟨e1, e2⟩ := piece_unique hp (.space hc1) (p' := [c1]) (r' := g1 ++ t) e
      exact (hc c1 e1).elim
    | @comment _ _ p1 g1 _ hp1 hc1 h1 =>
      rw [List.append_assoc] at e
      obtain ⟨e1, e2⟩ := piece_unique hp hp1 e
      exact ih ht h1 e2 a2

theorem lexeme_noGap {t : Token} {p r : Bytes} (h : Lexeme t p r) : NoGap (p ++ r) := by
  intro q s hq e
  have := h.no_trivia (.cons (p := q) (g := []) (by simpa using hq) .nil) (by simpa using e)
  rw [List.append_nil] at this
  subst this
  cases hq

theorem spells_behind {g src : Bytes} {c : Bool} {i : List Item} (hg : Gap false g src c) (h : Spells (g ++ src) i) :
    ∃ i', Spells src i' ∧ (i' = i ∨ Same i i') := by
  generalize hx : g ++ src = x at h
  cases h with
  | @eof g1 r _ hg' hr =>
    obtain ⟨g2, b2, rfl, h2⟩ := gap_split hg (lexeme_noGap (p := []) (.eof hr)) hg' hx false
    exact ⟨_, .eof h2 hr, .inl rfl⟩
  | tok hg' hp ht h =>
    obtain ⟨g2, b2, rfl, h2⟩ := gap_split hg (lexeme_noGap hp) hg' hx false
    exact ⟨_, .tok h2 hp ht h, .inr ⟨_, _, _, .tok, rfl, rfl⟩⟩
  | accessor hg' hs hc hw hr h =>
    obtain ⟨g2, b2, rfl, h2⟩ := gap_split hg (lexeme_noGap (.accessor hs hc hw hr)) hg' hx false
    exact ⟨_, .accessor h2 hs hc hw hr h, .inr ⟨_, _, _, .tok, rfl, rfl⟩⟩
  | @template g1 s r _ cl _ hg' hs h =>
    have hn : NoGap (#b'`' :: s ++ tplEnd cl ++ r) := by
      cases cl
      · exact lexeme_noGap (.templateOpen hs)
      · exact lexeme_noGap (.templateClosed hs)
    obtain ⟨g2, b2, rfl, h2⟩ := gap_split hg hn hg' hx false
    exact ⟨_, .template h2 hs h, .inr ⟨_, _, _, .tok, rfl, rfl⟩⟩
  | @resume g1 s r _ cl _ hg' hs h =>
    have hn : NoGap (#b'}' :: s ++ tplEnd cl ++ r) := by
      have := lexeme_noGap (brace_lexeme (s ++ tplEnd cl ++ r))
      simpa using this
    obtain ⟨g2, b2, rfl, h2⟩ := gap_split hg hn hg' hx false
    exact ⟨_, .resume h2 hs h, .inl rfl⟩
  | @regex g1 p f r _ c _ hg' hc hp hf hr h =>
    have hn : NoGap (#b'/' :: c :: p ++ #b'/' :: f ++ r) := by
      have := lexeme_noGap (slash_lexeme (r := p ++ #b'/' :: f ++ r) hc)
      simpa using this
    obtain ⟨g2, b2, rfl, h2⟩ := gap_split hg hn hg' hx false
    exact ⟨_, .regex h2 hc hp hf hr h, .inr ⟨_, _, _, .regex, rfl, rfl⟩⟩

end Ratel
