import Verif.Lemmas.Truncate
import Verif.Spec.Spelling
import Verif.Lemmas.Heads
/-! Texts put one behind the other, with a line break between them. -/
namespace Ratel
open Spec

set_option linter.unusedSectionVars false
section
variable [Unicode]

/-- Nothing more is known about what follows than the line break or the old text. -/
theorem next_join (r y : Bytes) : next (r ++ #b'\n' :: y) = next r ∨ r = [] ∧ next (r ++ #b'\n' :: y) = #b'\n' := by
  cases r with
  | nil => exact .inr ⟨rfl, rfl⟩
  | cons => exact .inl rfl

theorem prefix_join {a b x : Bytes} (hx : #b'\n' ∉ x) (h : x <+: a ++ #b'\n' :: b) : x <+: a := by
  induction a generalizing x with
  | nil =>
    cases x with
    | nil => exact List.nil_prefix
    | cons c x =>
      obtain ⟨t, ht⟩ := h
      obtain ⟨rfl, -⟩ := List.cons.inj ht
      simp at hx
  | cons c a ih =>
    cases x with
    | nil => exact List.nil_prefix
    | cons d x =>
      rw [List.cons_append, List.cons_prefix_cons] at h
      rw [List.cons_prefix_cons]
      exact ⟨h.1, ih (fun h => hx (List.mem_cons_of_mem _ h)) h.2⟩

theorem exponent_join {e r y : Bytes} (h : Exponent e r) : Exponent e (r ++ #b'\n' :: y) := by
  rcases next_join r y with hn | ⟨rfl, hn⟩
  · cases h with
    | none h1 h2 => exact .none (hn ▸ h1) (hn ▸ h2)
    | some he hs hd hr h => exact .some he hs hd (hn ▸ hr) (hn ▸ h)
  · cases h with
    | none h1 h2 => exact .none (by rw [hn]; decide) (by rw [hn]; decide)
    | some he hs hd hr h => exact .some he hs hd (by rw [hn]; decide) (fun _ _ => by rw [hn]; decide)

theorem number_join {p r y : Bytes} (h : Number p r) : Number p (r ++ #b'\n' :: y) := by
  rcases next_join r y with hn | ⟨rfl, hn⟩
  · cases h with
    | decimal h0 hd hf he hr h hz => exact .decimal h0 hd hf (exponent_join he) (hn ▸ hr) (hn ▸ h) (hn ▸ hz)
    | point h0 hd he hr => exact .point h0 hd (exponent_join he) (hn ▸ hr)
    | octal hx hd hr => exact .octal hx hd (hn ▸ hr)
    | hex hx hd hr => exact .hex hx hd (hn ▸ hr)
  · cases h with
    | decimal h0 hd hf he hr h hz =>
      exact .decimal h0 hd hf (exponent_join he) (fun _ => by rw [hn]; decide) (fun _ _ => by rw [hn]; decide)
        (fun _ _ _ => by rw [hn]; decide)
    | point h0 hd he hr => exact .point h0 hd (exponent_join he) (fun _ => by rw [hn]; decide)
    | octal hx hd hr => exact .octal hx hd (by rw [hn]; decide)
    | hex hx hd hr => exact .hex hx hd (by rw [hn]; decide)

theorem word_join {r : Bytes} (y : Bytes) (h : wordByte (next r) = false) : wordByte (next (r ++ #b'\n' :: y)) = false := by
  rcases next_join r y with hn | ⟨rfl, hn⟩
  · rwa [hn]
  · rw [hn]; decide
theorem flag_join {r : Bytes} (y : Bytes) (h : isFlag (next r) = false) : isFlag (next (r ++ #b'\n' :: y)) = false := by
  rcases next_join r y with hn | ⟨rfl, hn⟩
  · rwa [hn]
  · rw [hn]; decide

theorem lexeme_join {t : Token} {p r y : Bytes} (h : Lexeme t p r) (h0 : t ≠ .EndOfProgram) (h1 : t ≠ .UnexpectedEndOfProgram) :
    Lexeme t p (r ++ #b'\n' :: y) := by
  cases h with
  | eof => exact absurd rfl h0
  | punct h hmax hc =>
    refine .punct h (fun x hx hp => hmax x hx ?_) fun e => ?_
    · rw [← List.append_assoc] at hp
      exact prefix_join ((by decide : ∀ x ∈ puncts, #b'\n' ∉ x.1) x hx) hp
    · rcases next_join r y with hn | ⟨rfl, hn⟩
      · rw [hn]; exact hc e
      · rw [hn]; decide
  | word hc hw hr => exact .word hc hw (word_join y hr)
  | unicodeWord hc hw ha hr =>
    obtain ⟨c', h2, h3⟩ := ha
    exact .unicodeWord hc hw ⟨c', by rw [← List.append_assoc]; exact Lex.decodeFirst_ext h2 _, h3⟩ (word_join y hr)
  | number h => exact .number (number_join h)
  | binary hx hd hr =>
    refine .binary hx hd ?_
    rcases next_join r y with hn | ⟨rfl, hn⟩
    · rwa [hn]
    · rw [hn]; decide
  | string hq h => exact .string hq h
  | templateClosed h => exact .templateClosed h
  | templateOpen h => exact .templateOpen h
  | accessor hs hc hw hr => exact .accessor hs hc hw (word_join y hr)
  | badByte h => exact .badByte h
  | badChar h ha =>
    obtain ⟨c', h2, h3⟩ := ha
    refine .badChar ?_ ⟨c', Lex.decodeFirst_ext h2 _, h3⟩
    rcases next_join r y with hn | ⟨rfl, hn⟩
    · rwa [hn]
    · exact absurd h (by decide)
  | badDots h =>
    refine .badDots ?_
    rcases next_join r y with hn | ⟨rfl, hn⟩
    · rwa [hn]
    · rw [hn]; decide
  | badDot hs hr hr' h128 h0 =>
    rcases next_join r y with hn | ⟨rfl, hn⟩
    · exact .badDot hs (hn ▸ hr) (hn ▸ hr') (hn ▸ h128) (hn ▸ h0)
    · exact absurd hr (by decide)
  | _ => exact absurd rfl h1

theorem trivia_congr {p r r' : Bytes} (h : TriviaPiece p r) (hn : next r = next r') : TriviaPiece p r' := by
  cases h with
  | space h => exact .space h
  | line h hr => exact .line h (hn ▸ hr)
  | block h h' => exact .block h h'

theorem next_append (g : Bytes) {r r' : Bytes} (hn : next r = next r') : next (g ++ r) = next (g ++ r') := by
  cases g with
  | nil => exact hn
  | cons => rfl

theorem gap_congr {a b : Bool} {g r r' : Bytes} (h : Gap a g r b) (hn : next r = next r') : Gap a g r' b := by
  induction h with
  | nil => exact .nil
  | space h _ ih => exact .space h (ih hn)
  | comment hp hc _ ih => exact .comment (trivia_congr hp (next_append _ hn)) hc (ih hn)

/-- White space and comments at the end of a text, and white space and comments after the line break. -/
theorem gap_join {a b c : Bool} {g g' r : Bytes} (h : Gap a g [] c) (h' : Gap false (#b'\n' :: g') r b) :
    Gap a (g ++ #b'\n' :: g') r b := by
  have h2 : Gap true g' r b := by
    generalize hf : false = f at h'
    generalize hg : #b'\n' :: g' = x at h'
    cases h' with
    | nil => cases hg
    | space h hg' =>
      obtain ⟨rfl, rfl⟩ := List.cons.inj hg
      simpa using hg'
    | comment hp hc _ =>
      cases hp with
      | space => exact absurd rfl (hc _)
      | line => cases hg
      | block => cases hg
  generalize hr : ([] : Bytes) = x at h
  induction h with
  | nil => exact .space (by decide) (by simpa using h2)
  | space h _ ih => exact .space h (ih hr)
  | @comment a b p g r' hp hc _ ih =>
    subst hr
    rw [List.append_assoc]
    refine .comment ?_ hc (ih rfl)
    cases hp with
    | space h => exact absurd rfl (hc _)
    | line h hr =>
      refine .line h ?_
      cases g with
      | nil => exact .inr rfl
      | cons => exact hr
    | block h h' => exact .block h h'

/-- No token starts with a line break. -/
theorem gap_cons {g x y : Bytes} {b : Bool} (hg : Gap false g x b) (h : g ++ x = #b'\n' :: y) (hx : next x ≠ #b'\n') :
    ∃ g', g = #b'\n' :: g' ∧ y = g' ++ x := by
  cases g with
  | nil => cases x with
    | nil => cases h
    | cons c x => exact absurd (List.cons.inj h).1 hx
  | cons c g => obtain ⟨rfl, rfl⟩ := List.cons.inj h; exact ⟨g, rfl, rfl⟩

theorem lexeme_first {t : Token} {p r : Bytes} (h : Lexeme t p r) (h0 : t ≠ .EndOfProgram) : ∃ c s, p ++ r = c :: s ∧ c ≠ #b'\n' := by
  have hw : ∀ c : Byte, wordStart c = true ∨ 128 ≤ c → c ≠ #b'\n' :=
    byte_forall (P := fun c => wordStart c = true ∨ 128 ≤ c → c ≠ #b'\n') (by decide +kernel)
  have hd : ∀ c : Byte, isDigit c = true → c ≠ #b'\n' := byte_forall (P := fun c => isDigit c = true → c ≠ #b'\n') (by decide +kernel)
  cases h with
  | eof => exact absurd rfl h0
  | punct h =>
    have : ∀ x ∈ puncts, x.1 ≠ [] ∧ next x.1 ≠ #b'\n' := by decide
    have := this _ h
    cases p with
    | nil => exact absurd rfl this.1
    | cons c p => exact ⟨c, _, rfl, this.2⟩
  | word hc => exact ⟨_, _, rfl, hw _ (.inl hc)⟩
  | unicodeWord hc => exact ⟨_, _, rfl, hw _ (.inr hc)⟩
  | number h =>
    cases h with
    | @decimal ds f e _ h0 h1 =>
      cases ds with
      | nil => exact absurd rfl h0
      | cons d ds => exact ⟨d, _, rfl, hd d (h1 d (by simp))⟩
    | point => exact ⟨_, _, rfl, by decide⟩
    | octal => exact ⟨_, _, rfl, by decide⟩
    | hex => exact ⟨_, _, rfl, by decide⟩
  | badChar h =>
    cases r with
    | nil => exact absurd h (by decide)
    | cons c r => exact ⟨c, r, rfl, hw _ (.inr h)⟩
  | badByte h => rcases h with rfl | rfl | rfl <;> exact ⟨_, _, rfl, by decide⟩
  | string hq => rcases hq with rfl | rfl <;> exact ⟨_, _, rfl, by decide⟩
  | openString hq => rcases hq with rfl | rfl <;> exact ⟨_, _, rfl, by decide⟩
  | openStringEsc hq => rcases hq with rfl | rfl <;> exact ⟨_, _, rfl, by decide⟩
  | _ => exact ⟨_, _, rfl, by decide⟩

/-- White space and comments in front of a line break. -/
theorem spells_gap {g y : Bytes} {c : Bool} {i : List Item} (hg : Gap false g [] c) (h : Spells (#b'\n' :: y) i) :
    Spells (g ++ #b'\n' :: y) i := by
  generalize hx : #b'\n' :: y = x at h
  cases h with
  | eof hg' hr =>
    obtain ⟨g', rfl, rfl⟩ := gap_cons hg' hx.symm (by rw [hr]; decide)
    rw [← List.append_assoc]; exact .eof (gap_join hg hg') hr
  | tok hg' hp ht h =>
    obtain ⟨g', rfl, rfl⟩ := gap_cons hg' hx.symm (by
      obtain ⟨c, s, e, hc⟩ := lexeme_first hp (by rintro rfl; cases ht)
      rw [e]; exact hc)
    rw [← List.append_assoc]; exact .tok (gap_join hg hg') hp ht h
  | accessor hg' hs hc hw hr h =>
    obtain ⟨g', rfl, rfl⟩ := gap_cons hg' hx.symm (by simp [next])
    rw [← List.append_assoc]; exact .accessor (gap_join hg hg') hs hc hw hr h
  | template hg' hs h =>
    obtain ⟨g', rfl, rfl⟩ := gap_cons hg' hx.symm (by simp [next])
    rw [← List.append_assoc]; exact .template (gap_join hg hg') hs h
  | resume hg' hs h =>
    obtain ⟨g', rfl, rfl⟩ := gap_cons hg' hx.symm (by simp [next])
    rw [← List.append_assoc]; exact .resume (gap_join hg hg') hs h
  | regex hg' hc hp hf hr h =>
    obtain ⟨g', rfl, rfl⟩ := gap_cons hg' hx.symm (by simp [next])
    rw [← List.append_assoc]; exact .regex (gap_join hg hg') hc hp hf hr h

/-- Two texts with a line break between them. -/
theorem spells_join {p y : Bytes} {i k : List Item} (hp : Spells p i) (h0 : ∀ b ∈ p, b ≠ 0)
    (hi : ∀ x ∈ i, x.token ≠ .UnexpectedEndOfProgram) (h : Spells (#b'\n' :: y) k) : Spells (p ++ #b'\n' :: y) (i ++ k) := by
  induction hp with
  | @eof g r b hg hr =>
    cases r with
    | nil => rw [List.append_nil]; exact spells_gap hg h
    | cons c r => exact absurd hr (h0 c (by simp))
  | @tok g p r b t i hg hp ht _ ih =>
    have ht' : t ≠ .EndOfProgram := by rintro rfl; cases ht
    have hp' := lexeme_join (y := y) hp ht' (hi (.tok t p (asiBefore t b)) (by simp))
    have ih := ih (fun b hb => h0 b (by simp [hb])) (fun x hx => hi x (List.mem_cons_of_mem _ hx))
    have hn : next (p ++ r) = next (p ++ (r ++ #b'\n' :: y)) := by
      obtain ⟨c, s, e, -⟩ := lexeme_first hp ht'
      rw [← List.append_assoc, e]; rfl
    have := Spells.tok (gap_congr hg hn) hp' ht ih
    simpa using this
  | @accessor g s w r b c i hg hs hc hw hr _ ih =>
    have ih := ih (fun b hb => h0 b (by simp [hb])) (fun x hx => hi x (List.mem_cons_of_mem _ hx))
    have := Spells.accessor (g := g) (s := s) (w := w) (c := c) (r := r ++ #b'\n' :: y) (gap_congr hg (by simp [next])) hs hc hw (word_join y hr) ih
    simpa using this
  | @template g s r b closed i hg hs _ ih =>
    have ih := ih (fun b hb => h0 b (by simp [hb])) (fun x hx => hi x (List.mem_cons_of_mem _ hx))
    have := Spells.template (closed := closed) (g := g) (s := s) (r := r ++ #b'\n' :: y) (gap_congr hg (by simp [next])) hs ih
    simpa using this
  | @resume g s r b closed i hg hs _ ih =>
    have ih := ih (fun b hb => h0 b (by simp [hb])) (fun x hx => hi x (List.mem_cons_of_mem _ hx))
    have := Spells.resume (closed := closed) (b := b) (g := g) (s := s) (r := r ++ #b'\n' :: y) (gap_congr hg (by simp [next])) hs ih
    simpa using this
  | @regex g p f r b c i hg hc hp hf hr _ ih =>
    have ih := ih (fun b hb => h0 b (by simp [hb])) (fun x hx => hi x (List.mem_cons_of_mem _ hx))
    have := Spells.regex (g := g) (p := p) (f := f) (c := c) (r := r ++ #b'\n' :: y) (gap_congr hg (by simp [next])) hc hp hf (flag_join y hr) ih
    simpa using this

/-! ### White space and comments in front -/

theorem gap_flag {a b : Bool} {g r : Bytes} (h : Gap a g r b) : ∀ a', ∃ b', Gap a' g r b' := by
  induction h with
  | nil => exact fun a' => ⟨a', .nil⟩
  | @space _ _ c _ _ h _ ih =>
    intro a'
    obtain ⟨b', h'⟩ := ih (a' || c == #b'\n')
    exact ⟨b', .space h h'⟩
  | comment hp hc hg _ => exact fun a' => ⟨_, .comment hp hc hg⟩

theorem gap_append {a b c : Bool} {f g g' r : Bytes} (h : Gap a g f c) (hf : f = g' ++ r) (h' : Gap false g' r b) :
    ∃ b', Gap a (g ++ g') r b' := by
  induction h with
  | nil => exact gap_flag h' _
  | space h _ ih =>
    obtain ⟨b', h2⟩ := ih hf
    exact ⟨b', .space h h2⟩
  | comment hp hc _ ih =>
    obtain ⟨b', h2⟩ := ih hf
    refine ⟨b', ?_⟩
    rw [List.append_assoc]
    exact .comment (by rwa [List.append_assoc, ← hf]) hc h2

theorem spells_leading {g src : Bytes} {c : Bool} {i : List Item} (hg : Gap false g src c) (h : Spells src i) :
    ∃ i', Spells (g ++ src) i' ∧ (i' = i ∨ Same i i') := by
  cases h with
  | eof hg' hr =>
    obtain ⟨b', h'⟩ := gap_append hg rfl hg'
    exact ⟨_, by rw [← List.append_assoc]; exact .eof h' hr, .inl rfl⟩
  | tok hg' hp ht h =>
    obtain ⟨b', h'⟩ := gap_append hg rfl hg'
    exact ⟨_, by rw [← List.append_assoc]; exact .tok h' hp ht h, .inr ⟨_, _, _, .tok, rfl, rfl⟩⟩
  | accessor hg' hs hc hw hr h =>
    obtain ⟨b', h'⟩ := gap_append hg rfl hg'
    exact ⟨_, by rw [← List.append_assoc]; exact .accessor h' hs hc hw hr h, .inr ⟨_, _, _, .tok, rfl, rfl⟩⟩
  | template hg' hs h =>
    obtain ⟨b', h'⟩ := gap_append hg rfl hg'
    exact ⟨_, by rw [← List.append_assoc]; exact .template h' hs h, .inr ⟨_, _, _, .tok, rfl, rfl⟩⟩
  | resume hg' hs h =>
    obtain ⟨b', h'⟩ := gap_append hg rfl hg'
    exact ⟨_, by rw [← List.append_assoc]; exact .resume h' hs h, .inl rfl⟩
  | regex hg' hc hp hf hr h =>
    obtain ⟨b', h'⟩ := gap_append hg rfl hg'
    exact ⟨_, by rw [← List.append_assoc]; exact .regex h' hc hp hf hr h, .inr ⟨_, _, _, .regex, rfl, rfl⟩⟩

end
end Ratel
