import Verif.Lemmas.Consume
/-! The lexical grammar is unambiguous (outside non-ASCII words), and the lexer is complete for it. -/
namespace Ratel.Spec
set_option linter.unusedSectionVars false
variable [Unicode]

theorem span_unique {P : Byte → Bool} {a a' b b' : Bytes} (ha : ∀ x ∈ a, P x = true) (ha' : ∀ x ∈ a', P x = true)
    (hb : ∀ x ∈ b.head?, P x = false) (hb' : ∀ x ∈ b'.head?, P x = false) (h : a ++ b = a' ++ b') :
    a = a' ∧ b = b' := by
  induction a generalizing a' with
  | nil =>
    cases a' with
    | nil => exact ⟨rfl, h⟩
    | cons x a' =>
      simp at h
      have := hb x (by simp [h])
      rw [ha' x (by simp)] at this
      simp at this
  | cons y a ih =>
    cases a' with
    | nil =>
      simp at h
      have := hb' y (by simp [← h])
      rw [ha y (by simp)] at this
      simp at this
    | cons x a' =>
      simp at h
      obtain ⟨rfl, h⟩ := h
      obtain ⟨h1, h2⟩ := ih (fun x hx => ha x (by simp [hx])) (fun x hx => ha' x (by simp [hx])) h
      exact ⟨by rw [h1], h2⟩

theorem head_of_next {P : Byte → Bool} {b : Bytes} (h : P (next b) = false) : ∀ x ∈ b.head?, P x = false := by
  cases b with
  | nil => simp
  | cons c b => simpa [next] using h

/-- What can follow the inside of a string literal. -/
def StrStop (q : Byte) (x : Bytes) : Prop := next x = q ∨ next x = 0 ∨ ∃ y, x = #b'\\' :: y ∧ next y = 0

theorem strBody_unique {q : Byte} (hq : q ≠ #b'\\') {s s' x x' : Bytes} (h : StrBody q s) (h' : StrBody q s')
    (hx : StrStop q x) (hx' : StrStop q x') (e : s ++ x = s' ++ x') : s = s' ∧ x = x' := by
  have stop_plain : ∀ {c : Byte} {r x : Bytes}, c ≠ q → c ≠ #b'\\' → c ≠ 0 → StrStop q x → x = c :: r → False := by
    rintro c r x h1 h2 h3 hx rfl
    rcases hx with hx | hx | ⟨y, hx, -⟩
    · exact h1 hx
    · exact h3 hx
    · simp at hx; exact h2 hx.1
  have stop_esc : ∀ {c : Byte} {r x : Bytes}, c ≠ 0 → StrStop q x → x = #b'\\' :: c :: r → False := by
    rintro c r x h1 hx rfl
    rcases hx with hx | hx | ⟨y, hx, hy⟩
    · exact hq hx.symm
    · simp [next] at hx
    · simp at hx; subst hx; exact h1 hy
  induction h generalizing s' with
  | nil =>
    cases h' with
    | nil => exact ⟨rfl, e⟩
    | plain h1 h2 h3 _ => exact (stop_plain h1 h2 h3 hx (by simpa using e)).elim
    | esc h1 _ => exact (stop_esc h1 hx (by simpa using e)).elim
  | plain h1 h2 h3 h ih =>
    cases h' with
    | nil => exact (stop_plain h1 h2 h3 hx' (by simpa using e.symm)).elim
    | plain _ _ _ h' =>
      simp at e
      obtain ⟨rfl, e⟩ := e
      obtain ⟨rfl, rfl⟩ := ih h' e
      exact ⟨rfl, rfl⟩
    | esc _ _ => simp at e; exact absurd e.1 h2
  | esc h1 h ih =>
    cases h' with
    | nil => exact (stop_esc h1 hx' (by simpa using e.symm)).elim
    | plain _ h2 _ _ => simp at e; exact absurd e.1.symm h2
    | esc _ h' =>
      simp at e
      obtain ⟨rfl, e⟩ := e
      obtain ⟨rfl, rfl⟩ := ih h' e
      exact ⟨rfl, rfl⟩

/-- What can follow the text of a template. -/
def TplStop (x : Bytes) : Prop :=
  x = [] ∨ x.head? = some #b'`' ∨ (∃ y, x = #b'$' :: #b'{' :: y) ∨ ∃ y, x = #b'\\' :: y ∧ next y = 0

theorem TplStop.head {x : Bytes} (h : TplStop x) : x.head? ≠ some #b'{' := by
  rcases h with rfl | h | ⟨y, rfl⟩ | ⟨y, rfl, -⟩
  · simp
  · rw [h]; decide
  · simp
  · simp

theorem tplBody_unique {s s' x x' : Bytes} (h : TplBody s) (h' : TplBody s')
    (hx : TplStop x) (hx' : TplStop x') (e : s ++ x = s' ++ x') : s = s' ∧ x = x' := by
  have stop_plain : ∀ {c : Byte} {r x : Bytes}, c ≠ #b'`' → c ≠ #b'\\' → c ≠ #b'$' → TplStop x → x = c :: r → False := by
    rintro c r x h1 h2 h3 hx rfl
    rcases hx with hx | hx | ⟨y, hx⟩ | ⟨y, hx, -⟩
    · simp at hx
    · simp at hx; exact h1 hx
    · simp at hx; exact h3 hx.1
    · simp at hx; exact h2 hx.1
  have stop_esc : ∀ {c : Byte} {r x : Bytes}, c ≠ 0 → TplStop x → x = #b'\\' :: c :: r → False := by
    rintro c r x h1 hx rfl
    rcases hx with hx | hx | ⟨y, hx⟩ | ⟨y, hx, hy⟩
    · simp at hx
    · simp at hx
    · simp at hx
    · simp at hx; subst hx; exact h1 hy
  have stop_dollar : ∀ {r x x' : Bytes}, r.head? ≠ some #b'{' → TplStop x → TplStop x' → x = #b'$' :: (r ++ x') → False := by
    rintro r x x' h1 hx hx' rfl
    rcases hx with hx | hx | ⟨y, hx⟩ | ⟨y, hx, hy⟩
    · simp at hx
    · simp at hx
    · simp at hx
      cases r with
      | nil => exact hx'.head (by simp at hx; simp [hx])
      | cons c r => simp at hx; exact h1 (by simp [hx.1])
    · simp at hx
  induction h generalizing s' with
  | nil =>
    cases h' with
    | nil => exact ⟨rfl, e⟩
    | plain h1 h2 h3 _ => exact (stop_plain h1 h2 h3 hx (by simpa using e)).elim
    | dollar h1 _ => exact (stop_dollar h1 hx hx' (by simpa using e)).elim
    | esc h1 _ => exact (stop_esc h1 hx (by simpa using e)).elim
  | plain h1 h2 h3 h ih =>
    cases h' with
    | nil => exact (stop_plain h1 h2 h3 hx' (by simpa using e.symm)).elim
    | plain _ _ _ h' =>
      simp at e
      obtain ⟨rfl, e⟩ := e
      obtain ⟨rfl, rfl⟩ := ih h' e
      exact ⟨rfl, rfl⟩
    | dollar _ _ => simp at e; exact absurd e.1 h3
    | esc _ _ => simp at e; exact absurd e.1 h2
  | dollar h1 h ih =>
    cases h' with
    | nil => exact (stop_dollar h1 hx' hx (by simpa using e.symm)).elim
    | plain _ _ h3 _ => simp at e; exact absurd e.1.symm h3
    | dollar _ h' =>
      simp at e
      obtain ⟨rfl, rfl⟩ := ih h' e
      exact ⟨rfl, rfl⟩
    | esc _ _ => simp at e
  | esc h1 h ih =>
    cases h' with
    | nil => exact (stop_esc h1 hx' (by simpa using e.symm)).elim
    | plain _ h2 _ _ => simp at e; exact absurd e.1.symm h2
    | dollar _ _ => simp at e
    | esc _ h' =>
      simp at e
      obtain ⟨rfl, e⟩ := e
      obtain ⟨rfl, rfl⟩ := ih h' e
      exact ⟨rfl, rfl⟩

/-! ### Numbers -/

theorem digit_head {b : Bytes} (h : isDigit (next b) = false) : ∀ x ∈ b.head?, isDigit x = false := head_of_next h

theorem Exponent.next {e r : Bytes} (h : Exponent e r) (hr : e = [] → isDigit (next r) = false) :
    isDigit (Spec.next (e ++ r)) = false := by
  cases h with
  | none => exact hr rfl
  | some he => rcases he with rfl | rfl <;> rfl

theorem sign_digits {s s' ds ds' r r' : Bytes} (hs : Sign s) (hs' : Sign s') (hd : ∀ b ∈ ds, isDigit b = true)
    (hd' : ∀ b ∈ ds', isDigit b = true) (hr : isDigit (next r) = false) (hr' : isDigit (next r') = false)
    (hn : s = [] → ds = [] → next r ≠ #b'+' ∧ next r ≠ #b'-')
    (hn' : s' = [] → ds' = [] → next r' ≠ #b'+' ∧ next r' ≠ #b'-')
    (e : s ++ (ds ++ r) = s' ++ (ds' ++ r')) : s = s' ∧ ds = ds' ∧ r = r' := by
  have key : ∀ {ds r : Bytes} {c : Byte} {x : Bytes}, (∀ b ∈ ds, isDigit b = true) →
      (ds = [] → next r ≠ #b'+' ∧ next r ≠ #b'-') → ds ++ r = c :: x → c = #b'+' ∨ c = #b'-' → False := by
    intro ds r c x h1 h2 h3 h4
    cases ds with
    | nil =>
      simp at h3
      subst h3
      have := h2 rfl
      simp [next] at this
      rcases h4 with rfl | rfl
      · exact this.1 rfl
      · exact this.2 rfl
    | cons d ds =>
      simp at h3
      have := h1 d (by simp)
      rw [h3.1] at this
      rcases h4 with rfl | rfl <;> exact absurd this (by decide)
  have fin : ∀ (s : Bytes), s ++ (ds ++ r) = s ++ (ds' ++ r') → ds = ds' ∧ r = r' := by
    intro s e
    exact span_unique hd hd' (digit_head hr) (digit_head hr') (List.append_cancel_left e)
  cases hs <;> cases hs'
  · exact ⟨rfl, fin _ e⟩
  · exact (key hd (hn rfl) (by simpa using e) (Or.inl rfl)).elim
  · exact (key hd (hn rfl) (by simpa using e) (Or.inr rfl)).elim
  · exact (key hd' (hn' rfl) (by simpa using e.symm) (Or.inl rfl)).elim
  · exact ⟨rfl, fin _ e⟩
  · simp at e
  · exact (key hd' (hn' rfl) (by simpa using e.symm) (Or.inr rfl)).elim
  · simp at e
  · exact ⟨rfl, fin _ e⟩

theorem exponent_unique {x x' r r' : Bytes} (h : Exponent x r) (h' : Exponent x' r') (e : x ++ r = x' ++ r') :
    x = x' ∧ r = r' := by
  cases h with
  | none h1 h2 =>
    cases h' with
    | none => exact ⟨rfl, e⟩
    | some he =>
      simp at e
      subst e
      simp [next] at h1 h2
      rcases he with rfl | rfl
      · exact absurd rfl h1
      · exact absurd rfl h2
  | some he hs hd hr hn =>
    cases h' with
    | none h1 h2 =>
      simp at e
      subst e
      simp [next] at h1 h2
      rcases he with rfl | rfl
      · exact absurd rfl h1
      · exact absurd rfl h2
    | some he' hs' hd' hr' hn' =>
      simp only [List.cons_append, List.cons.injEq, List.append_assoc] at e
      obtain ⟨rfl, e⟩ := e
      obtain ⟨rfl, rfl, rfl⟩ := sign_digits hs hs' hd hd' hr hr' hn hn' e
      exact ⟨rfl, rfl⟩

/-- Decimal literals that start with a digit. -/
def Decimal (p r : Bytes) : Prop := ∃ ds f e, p = ds ++ f ++ e ∧ ds ≠ [] ∧ (∀ b ∈ ds, isDigit b = true) ∧ Fraction f ∧
  Exponent e r ∧ (e = [] → isDigit (next r) = false) ∧ (f = [] → e = [] → next r ≠ #b'.') ∧
  (ds = bs!"0" → f = [] → e = [] → next r ∉ bs!"bBoOxX")

theorem fraction_exponent {f f' x x' r r' : Bytes} (hf : Fraction f) (hf' : Fraction f') (hx : Exponent x r)
    (hx' : Exponent x' r') (hr : x = [] → isDigit (next r) = false) (hr' : x' = [] → isDigit (next r') = false)
    (hn : f = [] → x = [] → next r ≠ #b'.') (hn' : f' = [] → x' = [] → next r' ≠ #b'.')
    (e : f ++ (x ++ r) = f' ++ (x' ++ r')) : f = f' ∧ x = x' ∧ r = r' := by
  have key : ∀ {x r y : Bytes}, Exponent x r → (x = [] → next r ≠ #b'.') → x ++ r = #b'.' :: y → False := by
    intro x r y h1 h2 h3
    cases h1 with
    | none => simp at h3; subst h3; exact h2 rfl rfl
    | some he => simp at h3; rcases he with rfl | rfl <;> exact absurd h3.1 (by decide)
  cases hf with
  | none =>
    cases hf' with
    | none => exact ⟨rfl, exponent_unique hx hx' (by simpa using e)⟩
    | some => exact (key hx (hn rfl) (by simpa using e)).elim
  | some hd =>
    cases hf' with
    | none => exact (key hx' (hn' rfl) (by simpa using e.symm)).elim
    | some hd' =>
      simp only [List.cons_append, List.cons.injEq, true_and] at e
      obtain ⟨rfl, e2⟩ := span_unique hd hd' (digit_head (hx.next hr)) (digit_head (hx'.next hr')) e
      exact ⟨rfl, exponent_unique hx hx' e2⟩

theorem frac_head {f x r : Bytes} (hf : Fraction f) (hx : Exponent x r) (hr : x = [] → isDigit (next r) = false) :
    isDigit (next (f ++ (x ++ r))) = false := by
  cases hf with
  | none => exact hx.next hr
  | some => rfl

theorem decimal_unique {p p' r r' : Bytes} (h : Decimal p r) (h' : Decimal p' r') (e : p ++ r = p' ++ r') : p = p' := by
  obtain ⟨ds, f, x, rfl, -, hd, hf, hx, hr, hn, -⟩ := h
  obtain ⟨ds', f', x', rfl, -, hd', hf', hx', hr', hn', -⟩ := h'
  simp only [List.append_assoc] at e
  obtain ⟨rfl, e2⟩ := span_unique hd hd' (digit_head (frac_head hf hx hr)) (digit_head (frac_head hf' hx' hr')) e
  obtain ⟨rfl, rfl, rfl⟩ := fraction_exponent hf hf' hx hx' hr hr' hn hn' e2
  rfl

/-- `0x`, `0o`, `0b` literals. -/
def Prefixed (t : Token) (p r : Bytes) : Prop := ∃ x ds, p = #b'0' :: x :: ds ∧
  ((t = .LiteralBinary ∧ (x = #b'b' ∨ x = #b'B') ∧ (∀ b ∈ ds, isBinaryDigit b = true) ∧ isBinaryDigit (next r) = false) ∨
   (t = .LiteralNumber ∧ (x = #b'o' ∨ x = #b'O') ∧ (∀ b ∈ ds, isOctal b = true) ∧ isOctal (next r) = false) ∨
   (t = .LiteralNumber ∧ (x = #b'x' ∨ x = #b'X') ∧ (∀ b ∈ ds, isHex b = true) ∧ isHex (next r) = false))

theorem prefixed_unique {t t' : Token} {p p' r r' : Bytes} (h : Prefixed t p r) (h' : Prefixed t' p' r')
    (e : p ++ r = p' ++ r') : t = t' ∧ p = p' := by
  obtain ⟨x, ds, rfl, h⟩ := h
  obtain ⟨x', ds', rfl, h'⟩ := h'
  simp only [List.cons_append, List.cons.injEq, true_and] at e
  obtain ⟨rfl, e⟩ := e
  rcases h with ⟨rfl, hx, hd, hr⟩ | ⟨rfl, hx, hd, hr⟩ | ⟨rfl, hx, hd, hr⟩ <;>
    rcases h' with ⟨rfl, hx', hd', hr'⟩ | ⟨rfl, hx', hd', hr'⟩ | ⟨rfl, hx', hd', hr'⟩ <;>
    first
      | (obtain ⟨rfl, -⟩ := span_unique hd hd' (head_of_next hr) (head_of_next hr') e; exact ⟨rfl, rfl⟩)
      | (exfalso; rcases hx with rfl | rfl <;> simp at hx')

theorem decimal_prefixed {t : Token} {p p' r r' : Bytes} (h : Decimal p r) (h' : Prefixed t p' r') (e : p ++ r = p' ++ r') :
    False := by
  obtain ⟨ds, f, x, rfl, h0, hd, hf, hx, hr, hn, hz⟩ := h
  obtain ⟨c, ds', rfl, h'⟩ := h'
  have hc : c ∈ bs!"bBoOxX" := by
    rcases h' with ⟨-, rfl | rfl, -⟩ | ⟨-, rfl | rfl, -⟩ | ⟨-, rfl | rfl, -⟩ <;> decide
  have hc' : isDigit c = false := by
    rcases h' with ⟨-, rfl | rfl, -⟩ | ⟨-, rfl | rfl, -⟩ | ⟨-, rfl | rfl, -⟩ <;> decide
  simp only [List.append_assoc, List.cons_append] at e
  obtain ⟨rfl, e⟩ := span_unique (a' := [#b'0']) (b' := c :: (ds' ++ r')) hd (by decide) (digit_head (frac_head hf hx hr))
    (by simpa using hc') e
  cases hf with
  | none =>
    cases hx with
    | none =>
      simp at e
      subst e
      exact hz rfl rfl rfl hc
    | some he =>
      simp at e
      rw [← e.1] at hc
      rcases he with rfl | rfl <;> exact absurd hc (by decide)
  | some =>
    simp at e
    rw [← e.1] at hc
    exact absurd hc (by decide)

end Ratel.Spec

namespace Ratel.Spec
set_option linter.unusedSectionVars false
variable [Unicode]

/-! ### Classes of first bytes -/

inductive Cls where
  | eof | space | punct | slash | word | digit | quote | tick | dot | bad | uni
deriving DecidableEq

def cls (b : Byte) : Cls :=
  if b = 0 then .eof else if isSpace b then .space else if wordStart b then .word else if isDigit b then .digit
  else if b = #b'"' ∨ b = #b'\'' then .quote else if b = #b'`' then .tick else if b = #b'.' then .dot
  else if b = #b'/' then .slash else if b = #b'#' ∨ b = #b'@' ∨ b = 0x7f then .bad else if 128 ≤ b then .uni
  else .punct

def Punct (t : Token) (p r : Bytes) : Prop :=
  (p, t) ∈ puncts ∧ (∀ x ∈ puncts, x.1 <+: p ++ r → x.1.length ≤ p.length) ∧ (p = bs!"/" → next r ≠ #b'/' ∧ next r ≠ #b'*')

def OpenComment (p r : Bytes) : Prop :=
  ∃ s, p = #b'/' :: #b'*' :: s ∧ (∀ b ∈ s, b ≠ 0) ∧ ¬ bs!"*/" <:+: s ∧ next r = 0

/-- The lexemes whose first byte is in a class. -/
def Shape : Cls → Token → Bytes → Bytes → Prop
  | .eof, t, p, _ => t = .EndOfProgram ∧ p = []
  | .space, _, _, _ => False
  | .punct, t, p, r => Punct t p r
  | .slash, t, p, r => Punct t p r ∨ (t = .UnexpectedEndOfProgram ∧ OpenComment p r)
  | .word, t, p, r => t = wordToken p ∧ (∀ b ∈ p, wordByte b = true) ∧ wordByte (next r) = false
  | .digit, t, p, r => (t = .LiteralNumber ∧ Decimal p r) ∨ Prefixed t p r
  | .quote, t, p, r => ∃ q s x, p ++ r = q :: s ++ x ∧ (q = #b'"' ∨ q = #b'\'') ∧ StrBody q s ∧ StrStop q x ∧
      ((t = .LiteralString ∧ p = q :: s ++ [q] ∧ next x = q) ∨
       (t = .UnexpectedEndOfProgram ∧ p = q :: s ∧ next x = 0) ∨
       (t = .UnexpectedEndOfProgram ∧ p = q :: s ++ [#b'\\'] ∧ next x = #b'\\'))
  | .tick, t, p, r => ∃ s x, p ++ r = #b'`' :: s ++ x ∧ TplBody s ∧ TplStop x ∧ x ≠ [] ∧
      ((t = .TemplateClosed ∧ p = #b'`' :: s ++ [#b'`'] ∧ next x = #b'`') ∨
       (t = .TemplateOpen ∧ p = #b'`' :: s ++ bs!"${" ∧ next x = #b'$') ∨
       (t = .UnexpectedEndOfProgram ∧ p = #b'`' :: s ++ [#b'\\'] ∧ next x = #b'\\'))
  | .dot, t, p, r => (t = .OperatorSpread ∧ p = bs!"...") ∨ (t = .UnexpectedToken ∧ p = bs!".." ∧ next r ≠ #b'.') ∨
      (∃ d ds e, t = .LiteralNumber ∧ p = #b'.' :: d :: ds ++ e ∧ isDigit d = true ∧ (∀ b ∈ ds, isDigit b = true) ∧
        Exponent e r ∧ (e = [] → isDigit (next r) = false)) ∨
      (∃ s c x, p ++ r = #b'.' :: s ++ c :: x ∧ (∀ b ∈ s, b ≤ 0x20) ∧ 0x20 < c ∧ c < 128 ∧
        (s = [] → isDigit c = false ∧ c ≠ #b'.') ∧
        ((t = .Accessor ∧ wordStart c = true ∧ ∃ w, p = #b'.' :: s ++ c :: w ∧ (∀ b ∈ w, wordByte b = true) ∧ wordByte (next r) = false) ∨
         (t = .UnexpectedToken ∧ wordStart c = false ∧ p = #b'.' :: s)))
  | .bad, t, p, _ => t = .UnexpectedToken ∧ ∃ c, p = [c]
  | .uni, t, p, r => (t = .UnexpectedToken ∧ p = [] ∧ AlphanumericFirst (p ++ r) false) ∨
      (t = .Identifier ∧ (∀ b ∈ p, wordByte b = true) ∧ AlphanumericFirst (p ++ r) true ∧ wordByte (next r) = false)

theorem cls_puncts : ∀ x ∈ puncts, cls (next x.1) = .punct ∨ (cls (next x.1) = .slash) ∨ (x = (bs!"...", .OperatorSpread)) := by
  decide

theorem next_append {a b : Bytes} (h : a ≠ []) : next (a ++ b) = next a := by
  cases a with
  | nil => exact absurd rfl h
  | cons x a => rfl

theorem puncts_ne : ∀ x ∈ puncts, x.1 ≠ [] := by decide

theorem cls_word {c : Byte} (h : wordStart c = true) : cls c = .word :=
  byte_forall (P := fun c => wordStart c = true → cls c = .word) (by decide +kernel) c h

theorem cls_digit {c : Byte} (h : isDigit c = true) : cls c = .digit :=
  byte_forall (P := fun c => isDigit c = true → cls c = .digit) (by decide +kernel) c h

theorem cls_uni {c : Byte} (h : 128 ≤ c) : cls c = .uni :=
  byte_forall (P := fun c => 128 ≤ c → cls c = .uni) (by decide +kernel) c h

theorem cls_space {c : Byte} (h : isSpace c = true) : cls c = .space :=
  byte_forall (P := fun c => isSpace c = true → cls c = .space) (by decide +kernel) c h

theorem gt_of_wordStart : ∀ {c : Byte}, wordStart c = true → 0x20 < c ∧ c < 128 ∧ isDigit c = false ∧ c ≠ #b'.' :=
  fun {c} => byte_forall (P := fun c => wordStart c = true → 0x20 < c ∧ c < 128 ∧ isDigit c = false ∧ c ≠ #b'.') (by decide +kernel) c

theorem Lexeme.shape {t : Token} {p r : Bytes} (h : Lexeme t p r) : Shape (cls (next (p ++ r))) t p r := by
  cases h with
  | eof h => rw [List.nil_append, h]; exact ⟨rfl, rfl⟩
  | punct h hmax hc =>
    rw [next_append (puncts_ne _ h)]
    rcases cls_puncts _ h with h1 | h1 | h1
    · rw [h1]; exact ⟨h, hmax, hc⟩
    · rw [h1]; exact Or.inl ⟨h, hmax, hc⟩
    · simp at h1
      rw [h1.1, h1.2]
      exact Or.inl ⟨rfl, rfl⟩
  | word hc hw hr =>
    rw [next_append (by simp)]
    simp only [next, List.headD_cons]
    rw [cls_word hc]
    refine ⟨rfl, ?_, hr⟩
    intro b hb
    simp at hb
    rcases hb with rfl | hb
    · exact Lex.wordByte_of_start hc
    · exact hw b hb
  | unicodeWord hc hw ha hr =>
    rw [next_append (by simp)]
    simp only [next, List.headD_cons]
    rw [cls_uni hc]
    refine Or.inr ⟨rfl, ?_, ha, hr⟩
    intro b hb
    simp at hb
    rcases hb with rfl | hb
    · simp [wordByte, hc]
    · exact hw b hb
  | number h =>
    cases h with
    | @decimal ds f e _ h0 hd hf he hr hn hz =>
      cases ds with
      | nil => exact absurd rfl h0
      | cons d ds =>
        simp only [List.cons_append, next, List.headD_cons]
        rw [cls_digit (hd d (by simp))]
        exact Or.inl ⟨rfl, _, _, _, by simp, h0, hd, hf, he, hr, hn, hz⟩
    | point h0 hd he hr => exact Or.inr (Or.inr (Or.inl ⟨_, _, _, rfl, rfl, h0, hd, he, hr⟩))
    | octal hx hd hr => exact Or.inr ⟨_, _, rfl, Or.inr (Or.inl ⟨rfl, hx, hd, hr⟩)⟩
    | hex hx hd hr => exact Or.inr ⟨_, _, rfl, Or.inr (Or.inr ⟨rfl, hx, hd, hr⟩)⟩
  | binary hx hd hr => exact Or.inr ⟨_, _, rfl, Or.inl ⟨rfl, hx, hd, hr⟩⟩
  | @string q s r hq h =>
    have : cls (next (q :: s ++ [q] ++ r)) = .quote := by simp only [List.cons_append, next, List.headD_cons]; rcases hq with rfl | rfl <;> rfl
    rw [this]
    exact ⟨q, s, q :: r, by simp, hq, h, Or.inl rfl, Or.inl ⟨rfl, rfl, rfl⟩⟩
  | templateClosed h => exact ⟨_, #b'`' :: r, by simp, h, Or.inr (Or.inl rfl), by simp, Or.inl ⟨rfl, rfl, rfl⟩⟩
  | templateOpen h => exact ⟨_, #b'$' :: #b'{' :: r, by simp, h, Or.inr (Or.inr (Or.inl ⟨r, rfl⟩)), by simp, Or.inr (Or.inl ⟨rfl, rfl, rfl⟩)⟩
  | @accessor s c w _ hs hc hw hr =>
    obtain ⟨h1, h2, h3, h4⟩ := gt_of_wordStart hc
    exact Or.inr (Or.inr (Or.inr ⟨s, c, w ++ r, by simp, hs, h1, h2, fun _ => ⟨h3, h4⟩, Or.inl ⟨rfl, hc, w, rfl, hw, hr⟩⟩))
  | badByte h => rcases h with rfl | rfl | rfl <;> exact ⟨rfl, _, rfl⟩
  | badChar h ha => rw [List.nil_append, cls_uni h]; exact Or.inl ⟨rfl, rfl, ha⟩
  | badDots h => exact Or.inr (Or.inl ⟨rfl, rfl, h⟩)
  | @badDot s _ hs hr hr' h128 h0 =>
    cases r with
    | nil => exact absurd hr (by decide)
    | cons c r => exact Or.inr (Or.inr (Or.inr ⟨s, c, r, by simp, hs, hr, h128, h0, Or.inr ⟨rfl, hr', rfl⟩⟩))
  | @openString q s _ hq h hr =>
    have : cls (next (q :: s ++ r)) = .quote := by simp only [List.cons_append, next, List.headD_cons]; rcases hq with rfl | rfl <;> rfl
    rw [this]
    exact ⟨q, s, r, by simp, hq, h, Or.inr (Or.inl hr), Or.inr (Or.inl ⟨rfl, rfl, hr⟩)⟩
  | @openStringEsc q s _ hq h hr =>
    have : cls (next (q :: s ++ [#b'\\'] ++ r)) = .quote := by simp only [List.cons_append, next, List.headD_cons]; rcases hq with rfl | rfl <;> rfl
    rw [this]
    exact ⟨q, s, #b'\\' :: r, by simp, hq, h, Or.inr (Or.inr ⟨r, rfl, hr⟩), Or.inr (Or.inr ⟨rfl, rfl, rfl⟩)⟩
  | openTemplate h hr => exact ⟨_, #b'\\' :: r, by simp, h, Or.inr (Or.inr (Or.inr ⟨r, rfl, hr⟩)), by simp, Or.inr (Or.inr ⟨rfl, rfl, rfl⟩)⟩
  | openComment h h' hr => exact Or.inr ⟨rfl, _, rfl, h, h', hr⟩

theorem puncts_inj : ∀ x ∈ puncts, ∀ y ∈ puncts, x.1 = y.1 → x.2 = y.2 := by decide +kernel

theorem punct_unique {t t' : Token} {p p' r r' : Bytes} (h : Punct t p r) (h' : Punct t' p' r') (e : p ++ r = p' ++ r') :
    t = t' ∧ p = p' := by
  have h1 := h.2.1 _ h'.1 (by rw [e]; simp)
  have h2 := h'.2.1 _ h.1 (by rw [← e]; simp)
  have : p = p' := (List.append_inj e (by simp at h1 h2; omega)).1
  exact ⟨puncts_inj _ h.1 _ h'.1 this, this⟩

theorem punct_slash : ∀ x ∈ puncts, next x.1 = #b'/' → x.1 = bs!"/" ∨ x.1 = bs!"/=" := by decide

theorem punct_openComment {t : Token} {p p' r r' : Bytes} (h : Punct t p r) (h' : OpenComment p' r') (e : p ++ r = p' ++ r') : False := by
  obtain ⟨s, rfl, -⟩ := h'
  have hn : next p = #b'/' := by
    rw [← next_append (b := r) (puncts_ne _ h.1), e]; rfl
  rcases punct_slash _ h.1 hn with hp | hp <;> simp only at hp <;> subst hp
  · have := (h.2.2 rfl).2
    simp at e
    rw [e] at this
    exact this rfl
  · simp at e

theorem lexeme_unique {t t' : Token} {p p' r r' : Bytes} (h : Lexeme t p r) (h' : Lexeme t' p' r')
    (e : p ++ r = p' ++ r') : t = t' ∧ p = p' := by
  have hs := h.shape
  have hs' := h'.shape
  rw [← e] at hs'
  generalize cls (next (p ++ r)) = k at hs hs'
  cases k with
  | eof => exact ⟨hs.1.trans hs'.1.symm, hs.2.trans hs'.2.symm⟩
  | space => exact hs.elim
  | punct => exact punct_unique hs hs' e
  | slash =>
    rcases hs with hs | ⟨rfl, hs⟩ <;> rcases hs' with hs' | ⟨rfl, hs'⟩
    · exact punct_unique hs hs' e
    · exact (punct_openComment hs hs' e).elim
    · exact (punct_openComment hs' hs e.symm).elim
    · obtain ⟨s, rfl, h1, h2, h3⟩ := hs
      obtain ⟨s', rfl, h1', h2', h3'⟩ := hs'
      simp only [List.cons_append, List.cons.injEq, true_and] at e
      obtain ⟨rfl, -⟩ := span_unique (P := fun b => b != 0) (by simpa using h1) (by simpa using h1')
        (head_of_next (by simp [h3])) (head_of_next (by simp [h3'])) e
      exact ⟨rfl, rfl⟩
  | word =>
    obtain ⟨rfl, h1, h2⟩ := hs
    obtain ⟨rfl, h1', h2'⟩ := hs'
    obtain ⟨rfl, -⟩ := span_unique h1 h1' (head_of_next h2) (head_of_next h2') e
    exact ⟨rfl, rfl⟩
  | digit =>
    rcases hs with ⟨rfl, hs⟩ | hs <;> rcases hs' with ⟨rfl, hs'⟩ | hs'
    · exact ⟨rfl, decimal_unique hs hs' e⟩
    · exact (decimal_prefixed hs hs' e).elim
    · exact (decimal_prefixed hs' hs e.symm).elim
    · exact prefixed_unique hs hs' e
  | quote =>
    obtain ⟨q, s, x, e1, hq, hb, hx, hh⟩ := hs
    obtain ⟨q', s', x', e1', hq', hb', hx', hh'⟩ := hs'
    rw [e1, e1'] at e
    simp only [List.cons_append, List.cons.injEq] at e
    obtain ⟨rfl, e⟩ := e
    obtain ⟨rfl, rfl⟩ := strBody_unique (by rcases hq with rfl | rfl <;> decide) hb hb' hx hx' e
    clear hx hx'
    rcases hh with ⟨rfl, rfl, h1⟩ | ⟨rfl, rfl, h1⟩ | ⟨rfl, rfl, h1⟩ <;>
      rcases hh' with ⟨rfl, rfl, h1'⟩ | ⟨rfl, rfl, h1'⟩ | ⟨rfl, rfl, h1'⟩ <;>
      first
        | exact ⟨rfl, rfl⟩
        | (exfalso; rw [h1] at h1'; revert h1'; rcases hq with rfl | rfl <;> decide)
  | tick =>
    obtain ⟨s, x, e1, hb, hx, -, hh⟩ := hs
    obtain ⟨s', x', e1', hb', hx', -, hh'⟩ := hs'
    rw [e1, e1'] at e
    simp only [List.cons_append, List.cons.injEq, true_and] at e
    obtain ⟨rfl, rfl⟩ := tplBody_unique hb hb' hx hx' e
    rcases hh with ⟨rfl, rfl, h1⟩ | ⟨rfl, rfl, h1⟩ | ⟨rfl, rfl, h1⟩ <;>
      rcases hh' with ⟨rfl, rfl, h1'⟩ | ⟨rfl, rfl, h1'⟩ | ⟨rfl, rfl, h1'⟩ <;>
      first
        | exact ⟨rfl, rfl⟩
        | (exfalso; rw [h1] at h1'; revert h1'; decide)
  | dot =>
    have two : ∀ {s : Bytes} {c d : Byte} {x y : Bytes}, (∀ b ∈ s, b ≤ 0x20) → (s = [] → isDigit c = false ∧ c ≠ #b'.') →
        (isDigit d = true ∨ d = #b'.') → s ++ c :: x = d :: y → False := by
      intro s c d x y h1 h2 h3 h4
      cases s with
      | nil =>
        simp at h4
        obtain ⟨rfl, -⟩ := h4
        have := h2 rfl
        rcases h3 with h3 | h3
        · rw [h3] at this; simp at this
        · exact this.2 h3
      | cons b s =>
        simp at h4
        obtain ⟨rfl, -⟩ := h4
        have := h1 b (by simp)
        revert h3 this
        clear h1 h2
        revert b
        exact byte_forall (by decide +kernel)
    rcases hs with ⟨rfl, rfl⟩ | ⟨rfl, rfl, h1⟩ | ⟨d, ds, x, rfl, rfl, h1, h2, h3, h4⟩ | ⟨s, c, x, e1, h1, h2, h3, h4, h5⟩ <;>
      rcases hs' with ⟨rfl, rfl⟩ | ⟨rfl, rfl, h1'⟩ | ⟨d', ds', x', rfl, rfl, h1', h2', h3', h4'⟩ | ⟨s', c', x', e1', h1', h2', h3', h4', h5'⟩
    · exact ⟨rfl, rfl⟩
    · exfalso; simp at e; rw [← e] at h1'; exact h1' rfl
    · exfalso; simp at e; rw [← e.1] at h1'; exact absurd h1' (by decide)
    · exfalso; rw [e1'] at e; simp at e; exact two h1' h4' (Or.inr rfl) e.symm
    · exfalso; simp at e; rw [e] at h1; exact h1 rfl
    · exact ⟨rfl, rfl⟩
    · exfalso; simp at e; rw [← e.1] at h1'; exact absurd h1' (by decide)
    · exfalso; rw [e1'] at e; simp at e; exact two h1' h4' (Or.inr rfl) e.symm
    · exfalso; simp at e; rw [e.1] at h1; exact absurd h1 (by decide)
    · exfalso; simp at e; rw [e.1] at h1; exact absurd h1 (by decide)
    · simp only [List.cons_append, List.cons.injEq, true_and, List.append_assoc] at e
      obtain ⟨rfl, e⟩ := e
      obtain ⟨rfl, e2⟩ := span_unique h2 h2' (digit_head (h3.next h4)) (digit_head (h3'.next h4')) e
      obtain ⟨rfl, rfl⟩ := exponent_unique h3 h3' e2
      exact ⟨rfl, rfl⟩
    · exfalso; rw [e1'] at e; simp at e; exact two h1' h4' (Or.inl h1) e.symm
    · exfalso; rw [e1] at e; simp at e; exact two h1 h4 (Or.inr rfl) e
    · exfalso; rw [e1] at e; simp at e; exact two h1 h4 (Or.inr rfl) e
    · exfalso; rw [e1] at e; simp at e; exact two h1 h4 (Or.inl h1') e
    · have e0 := e
      rw [e1, e1'] at e
      simp only [List.cons_append, List.cons.injEq, true_and] at e
      have gt : ∀ c : Byte, 0x20 < c → decide (c ≤ 0x20) = false := byte_forall (by decide +kernel)
      obtain ⟨rfl, e2⟩ := span_unique (P := fun b => decide (b ≤ 0x20)) (by simpa using h1) (by simpa using h1')
        (by intro y hy; simp at hy; subst hy; exact gt _ h2) (by intro y hy; simp at hy; subst hy; exact gt _ h2') e
      simp only [List.cons.injEq] at e2
      obtain ⟨rfl, rfl⟩ := e2
      rcases h5 with ⟨rfl, g1, w, rfl, g2, g3⟩ | ⟨rfl, g1, rfl⟩ <;> rcases h5' with ⟨rfl, g1', w', rfl, g2', g3'⟩ | ⟨rfl, g1', rfl⟩
      · simp only [List.cons_append, List.append_assoc, List.cons.injEq, true_and, List.append_cancel_left_eq] at e0
        obtain ⟨rfl, -⟩ := span_unique g2 g2' (head_of_next g3) (head_of_next g3') e0
        exact ⟨rfl, rfl⟩
      · rw [g1] at g1'; simp at g1'
      · rw [g1] at g1'; simp at g1'
      · exact ⟨rfl, rfl⟩
  | bad =>
    obtain ⟨rfl, c, rfl⟩ := hs
    obtain ⟨rfl, c', rfl⟩ := hs'
    simp at e
    exact ⟨rfl, by rw [e.1]⟩
  | uni =>
    have key : ∀ {x : Bytes}, AlphanumericFirst x true → AlphanumericFirst x false → False := by
      rintro x ⟨c, h1, h2⟩ ⟨c', h1', h2'⟩
      rw [h1] at h1'
      simp at h1'
      rw [h1', h2'] at h2
      simp at h2
    rcases hs with ⟨rfl, rfl, h1⟩ | ⟨rfl, h1, h2, h3⟩ <;> rcases hs' with ⟨rfl, rfl, h1'⟩ | ⟨rfl, h1', h2', h3'⟩
    · exact ⟨rfl, rfl⟩
    · exact (key h2' (e ▸ h1)).elim
    · exact (key h2 (e ▸ h1')).elim
    · obtain ⟨rfl, -⟩ := span_unique h1 h1' (head_of_next h3) (head_of_next h3') e
      exact ⟨rfl, rfl⟩

end Ratel.Spec

namespace Ratel.Spec
set_option linter.unusedSectionVars false
variable [Unicode]

theorem Lexeme.no_trivia {t : Token} {p r g s : Bytes} (h : Lexeme t p r) (hg : Trivia g s) (e : p ++ r = g ++ s) : g = [] := by
  cases hg with
  | nil => rfl
  | @cons q g _ hq hg =>
    exfalso
    have hs := h.shape
    cases hq with
    | space hb =>
      rw [e] at hs
      simp only [List.cons_append, List.nil_append, next, List.headD_cons] at hs
      rw [cls_space hb] at hs
      exact hs
    | @line s' _ h1 h2 =>
      rw [e] at hs
      rcases hs with hs | ⟨-, s'', rfl, -⟩
      · have hn : next p = #b'/' := by
          rw [← next_append (b := r) (puncts_ne _ hs.1), e]; rfl
        rcases punct_slash _ hs.1 hn with hp | hp <;> simp only at hp <;> subst hp
        · have := (hs.2.2 rfl).1
          simp at e
          rw [e] at this
          exact this rfl
        · simp at e
      · simp at e
    | @block s' _ h1 h2 =>
      rw [e] at hs
      rcases hs with hs | ⟨-, s'', rfl, h3, h4, h5⟩
      · have hn : next p = #b'/' := by
          rw [← next_append (b := r) (puncts_ne _ hs.1), e]; rfl
        rcases punct_slash _ hs.1 hn with hp | hp <;> simp only at hp <;> subst hp
        · have := (hs.2.2 rfl).2
          simp at e
          rw [e] at this
          exact this rfl
        · simp at e
      · have e' : s'' ++ r = (s' ++ bs!"*/") ++ (g ++ s) := by simpa using e
        rcases List.append_eq_append_iff.mp e' with ⟨a, ha, hb⟩ | ⟨c, hc, -⟩
        · cases a with
          | nil => exact h4 ⟨s', [], by simpa using ha⟩
          | cons y a =>
            have : y = 0 := by simpa [hb, next] using h5
            subst this
            have : (0 : Byte) ∈ s' ++ bs!"*/" := by rw [ha]; simp
            simp at this
            exact h1 0 this rfl
        · exact h4 ⟨s', c, by rw [hc]⟩

theorem dot_form {t : Token} {p r : Bytes} (h : Shape .dot t p r) :
    ∃ s c x, p ++ r = #b'.' :: s ++ c :: x ∧ (∀ b ∈ s, b ≤ 0x20) ∧ 0x20 < c ∧ c < 128 := by
  rcases h with ⟨rfl, rfl⟩ | ⟨rfl, rfl, h1⟩ | ⟨d, ds, x, rfl, rfl, h1, h2, h3, h4⟩ | ⟨s, c, x, e1, h1, h2, h3, h4, h5⟩
  · exact ⟨[], #b'.', #b'.' :: r, rfl, by simp, by decide, by decide⟩
  · exact ⟨[], #b'.', r, rfl, by simp, by decide, by decide⟩
  · have : ∀ d, isDigit d = true → 0x20 < d ∧ d < 128 := byte_forall (by decide +kernel)
    exact ⟨[], d, ds ++ x ++ r, by simp, by simp, this d h1⟩
  · exact ⟨s, c, x, e1, h1, h2, h3⟩

theorem Lexeme.not_readsBehind {t : Token} {p r : Bytes} (h : Lexeme t p r) :
    ¬ ReadsBehind (p ++ r) := by
  intro hb
  have hs := h.shape
  generalize e : p ++ r = y at hb
  rw [e] at hs
  cases hb with
  | template hb =>
    obtain ⟨s, x, e1, h1, h2, h3, -⟩ := hs
    rw [e] at e1
    simp at e1
    exact h3 (tplBody_unique h1 hb h2 (Or.inl rfl) (x' := []) (by simpa using e1.symm)).2
  | dot hb =>
    obtain ⟨s, c, x, e1, h1, h2, h3⟩ := dot_form hs
    rw [e] at e1
    simp at e1
    have := hb c (by rw [e1]; simp)
    rw [UInt8.lt_iff_toNat_lt] at h2
    rw [UInt8.le_iff_toNat_le] at this
    omega
  | char hb =>
    have hc : cls (next y) = .uni := by
      cases y with
      | nil => exact hb.elim
      | cons c y => exact cls_uni hb.1
    rw [hc] at hs
    have hn := Lex.decodeFirst_bad hb
    rcases hs with ⟨-, -, c, h1, -⟩ | ⟨-, -, ⟨c, h1, -⟩, -⟩ <;> rw [e, hn] at h1 <;> simp at h1

theorem Lexeme.not_panics {t : Token} {p r : Bytes} (h : Lexeme t p r) : ¬ Panics (p ++ r) := by
  intro hb
  have hs := h.shape
  generalize e : p ++ r = y at hb
  rw [e] at hs
  cases hb with
  | @dot s' c' r' hb hc =>
    obtain ⟨s, c, x, e1, h1, h2, h3⟩ := dot_form hs
    rw [e] at e1
    simp only [List.cons_append, List.cons.injEq, true_and] at e1
    have gt : ∀ c : Byte, 0x20 < c → decide (c ≤ 0x20) = false := byte_forall (by decide +kernel)
    have gt' : ∀ c : Byte, 128 ≤ c → decide (c ≤ 0x20) = false := byte_forall (by decide +kernel)
    obtain ⟨rfl, e2⟩ := span_unique (P := fun b => decide (b ≤ 0x20)) (by simpa using hb) (by simpa using h1)
      (by intro y hy; simp at hy; subst hy; exact gt' _ hc) (by intro y hy; simp at hy; subst hy; exact gt _ h2) e1
    simp only [List.cons.injEq] at e2
    obtain ⟨rfl, -⟩ := e2
    rw [UInt8.lt_iff_toNat_lt] at h3
    rw [UInt8.le_iff_toNat_le] at hc
    omega

end Ratel.Spec

namespace Ratel.Lex
open Spec
variable [Unicode]

/-- Completeness: where a lexeme of the grammar starts, the lexer finds it. -/
theorem scanAll_complete {l : Lex} {t : Token} {p r : Bytes} (h : Lexeme t p r) (hl : l.rest = p ++ r) :
    ∃ l', scanAll l = .ok l' ∧ l'.src = l.src ∧ l'.token = t ∧ l'.rest = r ∧ l'.tokenStart = l.index ∧
      l'.index = l.index + p.length := by
  have hs := scanAll_spec l
  generalize hx : scanAll l = x at hs
  cases x with
  | ok l' =>
    obtain ⟨g, q, h1⟩ := hs
    have e : p ++ r = g ++ (q ++ l'.rest) := by rw [← hl, h1.rest]
    have hg := h.no_trivia h1.trivia e
    subst hg
    obtain ⟨rfl, rfl⟩ := lexeme_unique h h1.lexeme (by simpa using e)
    refine ⟨l', rfl, h1.src, rfl, ?_, by simpa using h1.tokenStart, by simpa using h1.index⟩
    simpa using e.symm
  | oob =>
    obtain ⟨g, s, h1, h2, h3⟩ := hs
    rw [hl] at h1
    have hg := h.no_trivia h2 h1
    subst hg
    simp at h1
    rw [← h1] at h3
    exact (h.not_readsBehind h3).elim
  | panic =>
    obtain ⟨g, s, h1, h2, h3⟩ := hs
    rw [hl] at h1
    have hg := h.no_trivia h2 h1
    subst hg
    simp at h1
    rw [← h1] at h3
    exact (h.not_panics h3).elim
  | timeout => exact hs.elim

end Ratel.Lex
