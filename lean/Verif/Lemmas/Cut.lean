import Verif.Lemmas.Utf8
import Verif.Lemmas.Text
/-! The lexer cuts the source at character boundaries. -/
namespace Ratel
open Spec

set_option linter.unusedSectionVars false
variable [Unicode] {src p r : Bytes} {l l' : Lex}

/-- The text `p` in front of `r` is empty, ends with an ASCII byte, or is followed by one (or by the end). -/
def Cut (p r : Bytes) : Prop := p = [] ∨ (∃ q b, p = q ++ [b] ∧ b < 128) ∨ next r < 128

theorem Cut.utf8 (h : Cut p r) (hu : Utf8 (p ++ r)) : Utf8 r := by
  rcases h with rfl | ⟨q, b, rfl, hb⟩ | h
  · exact hu
  · rw [List.append_assoc] at hu
    rw [← List.append_assoc] at hu
    have hu' : Utf8 (q ++ b :: r) := by simpa using hu
    exact (Utf8.cut hu (hu'.after hb)).2
  · exact (hu.cut (isCont_ascii h)).2

theorem next_zero (h : next r = 0) : next r < 128 := by rw [h]; decide

theorem ascii_of_wordByte {b : Byte} : wordByte b = false → b < 128 :=
  byte_forall (P := fun b => wordByte b = false → b < 128) (by decide +kernel) b

theorem Spec.TriviaPiece.cut (h : TriviaPiece p r) : Cut p r := by
  cases h with
  | @space b r h =>
    exact .inr (.inl ⟨[], b, rfl, byte_forall (P := fun b => isSpace b = true → b < 128) (by decide +kernel) b h⟩)
  | line h hr =>
    refine .inr (.inr ?_)
    rcases hr with hr | hr <;> rw [hr] <;> decide
  | @block s r _ _ => exact .inr (.inl ⟨#b'/' :: #b'*' :: s ++ bs!"*", #b'/', by simp, by decide⟩)

theorem Trivia.utf8 (h : Trivia p r) (hu : Utf8 (p ++ r)) : Utf8 r := by
  induction h with
  | nil => exact hu
  | cons hp _ ih => exact ih (hp.cut.utf8 (by simpa using hu))

/-- Texts that end with a byte of a class of ASCII bytes. -/
theorem Cut.all {P : Byte → Bool} (hP : ∀ b, P b = true → b < 128) (h : ∀ b ∈ p, P b = true) : Cut p r := by
  rcases List.eq_nil_or_concat p with rfl | ⟨q, b, rfl⟩
  · exact .inl rfl
  · exact .inr (.inl ⟨q, b, by simp, hP b (h b (by simp))⟩)

theorem Cut.append {q : Bytes} (h : Cut q r) (hn : q ≠ []) : Cut (p ++ q) r := by
  rcases h with rfl | ⟨q, b, rfl, hb⟩ | h
  · exact absurd rfl hn
  · exact .inr (.inl ⟨p ++ q, b, by simp, hb⟩)
  · exact .inr (.inr h)

/-- All bytes are ASCII. -/
def Ascii (p : Bytes) : Prop := ∀ b ∈ p, b < 128

theorem Ascii.cut (h : Ascii p) : Cut p r := .all (P := fun b => b < 128) (fun b hb => by simpa using hb) fun b hb => by simpa using h b hb

theorem ascii_digits : (∀ b ∈ p, isDigit b = true) → Ascii p := fun h b hb =>
  byte_forall (P := fun b => isDigit b = true → b < 128) (by decide +kernel) b (h b hb)
theorem ascii_hex : (∀ b ∈ p, isHex b = true) → Ascii p := fun h b hb =>
  byte_forall (P := fun b => isHex b = true → b < 128) (by decide +kernel) b (h b hb)
theorem ascii_octal : (∀ b ∈ p, isOctal b = true) → Ascii p := fun h b hb =>
  byte_forall (P := fun b => isOctal b = true → b < 128) (by decide +kernel) b (h b hb)
theorem ascii_binary : (∀ b ∈ p, isBinaryDigit b = true) → Ascii p := fun h b hb =>
  byte_forall (P := fun b => isBinaryDigit b = true → b < 128) (by decide +kernel) b (h b hb)

theorem Ascii.append {q : Bytes} (h : Ascii p) (h' : Ascii q) : Ascii (p ++ q) := fun b hb => by
  rcases List.mem_append.1 hb with hb | hb
  · exact h b hb
  · exact h' b hb
theorem Ascii.nil : Ascii [] := by simp [Ascii]
theorem Ascii.cons {b : Byte} (h : b < 128) (h' : Ascii p) : Ascii (b :: p) := by
  intro x hx
  rcases List.mem_cons.1 hx with rfl | hx
  · exact h
  · exact h' x hx

theorem Fraction.ascii (h : Fraction p) : Ascii p := by
  cases h with
  | none => exact .nil
  | some h => exact .cons (by decide) (ascii_digits h)

theorem Exponent.ascii (h : Exponent p r) : Ascii p := by
  cases h with
  | none => exact .nil
  | some he hs hd =>
    refine .append (.cons ?_ ?_) (ascii_digits hd)
    · rcases he with rfl | rfl <;> decide
    · cases hs
      · exact .nil
      · exact .cons (by decide) .nil
      · exact .cons (by decide) .nil

theorem Number.ascii (h : Number p r) : Ascii p := by
  cases h with
  | decimal _ hd hf he => exact .append (.append (ascii_digits hd) (Fraction.ascii hf)) (Exponent.ascii he)
  | point h0 hd he =>
    refine .append (.cons (by decide) (.cons ?_ (ascii_digits hd))) (Exponent.ascii he)
    exact ascii_digits (p := [_]) (by simpa using h0) _ (by simp)
  | octal hx hd => exact .cons (by decide) (.cons (by rcases hx with rfl | rfl <;> decide) (ascii_octal hd))
  | hex hx hd => exact .cons (by decide) (.cons (by rcases hx with rfl | rfl <;> decide) (ascii_hex hd))

theorem Lexeme.cut {t : Token} (h : Lexeme t p r) : Cut p r := by
  have hw : ∀ {r}, wordByte (next r) = false → next r < 128 := ascii_of_wordByte
  have hq : ∀ {q : Byte}, q = #b'"' ∨ q = #b'\'' → q < 128 := by rintro q (rfl | rfl) <;> decide
  cases h with
  | eof => exact .inl rfl
  | @punct t p r h =>
    have : ∀ x ∈ puncts, ∀ b ∈ x.1, b < 128 := by decide +kernel
    exact Ascii.cut (this _ h)
  | word _ _ hr => exact .inr (.inr (hw hr))
  | unicodeWord _ _ _ hr => exact .inr (.inr (hw hr))
  | number h => exact (Number.ascii h).cut
  | binary hx hd => exact Ascii.cut (.cons (by decide) (.cons (by rcases hx with rfl | rfl <;> decide) (ascii_binary hd)))
  | @string q s r h => exact .inr (.inl ⟨q :: s, q, by simp, hq h⟩)
  | @templateClosed s r h => exact .inr (.inl ⟨#b'`' :: s, #b'`', by simp, by decide⟩)
  | @templateOpen s r h => exact .inr (.inl ⟨#b'`' :: s ++ bs!"$", #b'{', by simp, by decide⟩)
  | accessor _ _ _ hr => exact .inr (.inr (hw hr))
  | badByte h => exact Ascii.cut (.cons (by rcases h with rfl | rfl | rfl <;> decide) .nil)
  | badChar => exact .inl rfl
  | badDots => exact Ascii.cut (.cons (by decide) (.cons (by decide) .nil))
  | badDot _ _ _ h => exact .inr (.inr h)
  | openString _ _ hr => exact .inr (.inr (next_zero hr))
  | openStringEsc _ _ hr => exact .inr (.inr (next_zero hr))
  | openTemplate _ hr => exact .inr (.inr (next_zero hr))
  | openComment _ _ hr => exact .inr (.inr (next_zero hr))

theorem Spec.Boundary.step {p r : Bytes} {i : Nat} (hb : Boundary src i) (hd : src.drop i = p ++ r) (hu : Utf8 p) (hr : Utf8 r) :
    Boundary src (i + p.length) := by
  rw [boundary_iff] at hb ⊢
  have hl := congrArg List.length hd
  simp at hl
  refine ⟨by omega, ?_, ?_⟩
  · rw [List.take_add, hd]
    simpa using hb.2.1.append hu
  · rw [← List.drop_drop, hd]
    simpa using hr

theorem Lex.Over.boundary {q : Bytes} (h : Lex.Over q l l') (hl : l.WF src) (hb : Boundary src l.index) (hc : Cut q l'.rest) :
    Boundary src l'.index := by
  have hu := (boundary_iff.1 hb).2.2
  rw [← hl.rest, h.rest] at hu
  have hr := hc.utf8 hu
  rw [h.index]
  exact hb.step (by rw [← hl.rest, h.rest]) (hu.cut hr.head).1 hr

theorem Lex.Scanned.boundary {g p : Bytes} (h : Lex.Scanned l l' g p) (hl : l.WF src) (hb : Boundary src l.index) :
    Boundary src l'.tokenStart ∧ Boundary src l'.index := by
  have hu := (boundary_iff.1 hb).2.2
  rw [← hl.rest, h.rest] at hu
  have h1 := Trivia.utf8 h.trivia hu
  have h2 := (Lexeme.cut h.lexeme).utf8 h1
  have h3 : Boundary src l'.tokenStart := by
    rw [h.tokenStart]
    exact hb.step (by rw [← hl.rest, h.rest]) (hu.cut h1.head).1 h1
  refine ⟨h3, ?_⟩
  rw [h.index, ← h.tokenStart]
  refine h3.step (r := l'.rest) ?_ (h1.cut h2.head).1 h2
  rw [h.tokenStart, ← List.drop_drop, ← hl.rest, h.rest]
  simp

theorem Spec.Utf8.boundary_zero (h : Utf8 src) : Boundary src 0 := boundary_iff.2 ⟨by simp, .nil, h⟩

/-- In valid UTF-8, every token starts and ends at a character boundary. -/
theorem Spec.Lexing.boundary (hu : Utf8 src) (h : Lexing src l) : Boundary src l.tokenStart ∧ Boundary src l.index := by
  have hc : ∀ {l l' : Lex}, l.WF src → Boundary src l.index → l.consume = .ok l' →
      Boundary src l'.tokenStart ∧ Boundary src l'.index := by
    intro l l' h hb h'
    rw [Lex.consume_eq] at h'
    obtain ⟨g, p, hs⟩ := (Lex.scanAll_spec _).of_ok h'
    have h0 : Lex.WF src { l with asi := .NoSemicolon } := ⟨h.same, h.rest, h.index, h.start, h.eof⟩
    exact hs.boundary h0 hb
  induction h with
  | @new l h =>
    rw [Lex.new] at h
    exact hc (l := Lex.init src) ⟨rfl, rfl, Nat.zero_le _, Nat.le_refl _, by simp [Lex.init]⟩ hu.boundary_zero h
  | consume h h' ih => exact hc h.wf ih.2 h'
  | template h h' ih =>
    obtain ⟨p, q, -, ho, hx⟩ := (Lex.readTemplateKind_spec _).of_ok h'
    refine ⟨ho.tokenStart ▸ ih.1, ho.boundary h.wf ih.2 ?_⟩
    rcases hx with ⟨-, rfl, -⟩ | ⟨-, rfl, -⟩ | ⟨-, rfl, -⟩
    all_goals refine Cut.append (Ascii.cut ?_) (by simp)
    all_goals (intro b hb; revert b hb; decide)
  | @regex l l' v h h' ih =>
    obtain ⟨p, c, q, -, ho, hx⟩ := (readRegularExpression_spec _).of_ok h'
    refine ⟨ho.tokenStart ▸ ih.1, ho.boundary h.wf ih.2 ?_⟩
    rcases hx with ⟨-, -, ⟨fs, rfl, hf⟩, -⟩ | ⟨-, rfl, -⟩ | ⟨-, rfl, -⟩
    · refine Cut.append (Ascii.cut (.cons (by decide) fun b hb => ?_)) (by simp)
      exact byte_forall (P := fun b => isFlag b = true → b < 128) (by decide +kernel) b (hf b hb)
    all_goals refine Cut.append (Ascii.cut ?_) (by simp)
    all_goals (intro b hb; revert b hb; decide)

end Ratel
