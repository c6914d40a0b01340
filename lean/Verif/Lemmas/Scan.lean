import Verif.Lemmas.Words
/-! Numbers, strings, templates, property accesses, comments; then whole calls of the lexer. -/
namespace Ratel
set_option linter.unusedSectionVars false
open Spec

namespace Lex
variable [Unicode]

theorem next_dropWhile {p : Byte → Bool} (h0 : p 0 = false) (r : Bytes) : p (next (r.dropWhile p)) = false := by
  cases h : List.dropWhile p r with
  | nil => simpa [next] using h0
  | cons a s =>
    have := List.head?_dropWhile_not p r
    simpa [h, next] using this

theorem next_skipWhile {p : Byte → Bool} (h0 : p 0 = false) (l : Lex) :
    p (next (l.skipWhile p).rest) = false := by
  rw [rest_skipWhile]
  exact next_dropWhile h0 _

theorem mem_takeWhile {p : Byte → Bool} {r : Bytes} : ∀ b ∈ r.takeWhile p, p b = true :=
  List.all_eq_true.mp List.all_takeWhile

theorem readByte_eq_next (l : Lex) : l.readByte = next l.rest := rfl

theorem bump_of_readByte {l : Lex} (h : l.readByte ≠ 0) :
    ∃ r, l.rest = l.readByte :: r ∧ l.bump = .ok (l.moveTo r (l.index + 1)) ∧
      Over [l.readByte] l (l.moveTo r (l.index + 1)) := by
  obtain ⟨r, hr⟩ := readByte_ne h
  exact ⟨r, hr, bump_moveTo hr, ⟨rfl, rfl, hr, rfl, rfl⟩⟩

/-- A digit loop that ends in a token. -/
theorem over_digits (p : Byte → Bool) (h0 : p 0 = false) (l : Lex) (t : Token) :
    ∃ ds, Over ds l ((l.skipWhile p).setToken t) ∧ (∀ b ∈ ds, p b) ∧
      p (next ((l.skipWhile p).setToken t).rest) = false :=
  ⟨_, (over_skipWhile p l).setToken t, mem_takeWhile, next_skipWhile h0 l⟩

theorem readScientific_spec (l : Lex) :
    ∃ l' s ds, l.readScientific = .ok l' ∧ Over (s ++ ds) l l' ∧ Sign s ∧ (∀ b ∈ ds, isDigit b) ∧
      isDigit (next l'.rest) = false ∧ (s = [] → ds = [] → next l'.rest ≠ #b'+' ∧ next l'.rest ≠ #b'-') ∧
      l'.token = .LiteralNumber := by
  rw [readScientific]
  by_cases h : l.readByte = #b'-' ∨ l.readByte = #b'+'
  · rw [if_pos h]
    obtain ⟨r, hr, hb, ho⟩ := bump_of_readByte (l := l) (by rcases h with h | h <;> rw [h] <;> decide)
    rw [hb]
    obtain ⟨ds, h1, h2, h3⟩ := over_digits isDigit (by decide) (l.moveTo r (l.index + 1)) .LiteralNumber
    refine ⟨_, [l.readByte], ds, rfl, ho.trans h1, ?_, h2, h3, by simp, rfl⟩
    rcases h with h | h <;> rw [h]
    · exact .minus
    · exact .plus
  · rw [if_neg h]
    obtain ⟨ds, h1, h2, h3⟩ := over_digits isDigit (by decide) l .LiteralNumber
    refine ⟨_, [], ds, rfl, h1, .none, h2, h3, fun _ hd => ?_, rfl⟩
    subst hd
    have := h1.rest
    simp only [List.nil_append] at this
    rw [← this]
    simp only [readByte_eq_next] at h
    exact ⟨fun hh => h (Or.inr hh), fun hh => h (Or.inl hh)⟩

theorem readFloat_spec (l : Lex) :
    ∃ l' ds e, l.readFloat = .ok l' ∧ Over (ds ++ e) l l' ∧ (∀ b ∈ ds, isDigit b) ∧ Exponent e l'.rest ∧
      (e = [] → isDigit (next l'.rest) = false) ∧ l'.token = .LiteralNumber := by
  rw [readFloat]
  have h1 := over_skipWhile isDigit l
  have h2 := next_skipWhile (p := isDigit) (by decide) l
  by_cases h : (l.skipWhile isDigit).readByte = #b'e' ∨ (l.skipWhile isDigit).readByte = #b'E'
  · rw [if_pos h]
    obtain ⟨r, hr, hb, ho⟩ := bump_of_readByte (l := l.skipWhile isDigit)
      (by rcases h with h | h <;> rw [h] <;> decide)
    rw [hb]
    simp only [Out.bind_ok]
    obtain ⟨l', s, ds, hs1, hs2, hs3, hs4, hs5, hs6, hs7⟩ := readScientific_spec ((l.skipWhile isDigit).moveTo r ((l.skipWhile isDigit).index + 1))
    refine ⟨l', l.rest.takeWhile isDigit, (l.skipWhile isDigit).readByte :: s ++ ds, hs1, h1.trans (ho.trans hs2), mem_takeWhile, ?_, by simp, hs7⟩
    exact .some h hs3 hs4 hs5 hs6
  · rw [if_neg h]
    refine ⟨_, l.rest.takeWhile isDigit, [], rfl, by simpa using h1.setToken _, mem_takeWhile, .none ?_ ?_, fun _ => h2, rfl⟩
    · exact fun hh => h (Or.inl hh)
    · exact fun hh => h (Or.inr hh)

theorem digitsLoop_spec (l : Lex) :
    ∃ l' ds f e, l.digitsLoop = .ok l' ∧ Over (ds ++ f ++ e) l l' ∧ (∀ b ∈ ds, isDigit b) ∧ Fraction f ∧
      Exponent e l'.rest ∧ (e = [] → isDigit (next l'.rest) = false) ∧
      (f = [] → e = [] → next l'.rest ≠ #b'.') ∧ l'.token = .LiteralNumber := by
  rw [digitsLoop]
  have h1 := over_skipWhile isDigit l
  have h2 := next_skipWhile (p := isDigit) (by decide) l
  by_cases hd : (l.skipWhile isDigit).readByte = #b'.'
  · rw [if_pos hd]
    obtain ⟨r, hr, hb, ho⟩ := bump_of_readByte (l := l.skipWhile isDigit) (by rw [hd]; decide)
    rw [hb]
    simp only [Out.bind_ok]
    obtain ⟨l', ds, e, hs1, hs2, hs3, hs4, hs5, hs6⟩ := readFloat_spec ((l.skipWhile isDigit).moveTo r ((l.skipWhile isDigit).index + 1))
    rw [hd] at ho
    refine ⟨l', l.rest.takeWhile isDigit, #b'.' :: ds, e, hs1, ?_, mem_takeWhile, .some hs3, hs4, hs5, by simp, hs6⟩
    have := h1.trans (ho.trans hs2)
    simpa using this
  · rw [if_neg hd]
    by_cases h : (l.skipWhile isDigit).readByte = #b'e' ∨ (l.skipWhile isDigit).readByte = #b'E'
    · rw [if_pos h]
      obtain ⟨r, hr, hb, ho⟩ := bump_of_readByte (l := l.skipWhile isDigit)
        (by rcases h with h | h <;> rw [h] <;> decide)
      rw [hb]
      simp only [Out.bind_ok]
      obtain ⟨l', s, ds, hs1, hs2, hs3, hs4, hs5, hs6, hs7⟩ := readScientific_spec ((l.skipWhile isDigit).moveTo r ((l.skipWhile isDigit).index + 1))
      refine ⟨l', l.rest.takeWhile isDigit, [], (l.skipWhile isDigit).readByte :: s ++ ds, hs1, ?_, mem_takeWhile, .none, .some h hs3 hs4 hs5 hs6, by simp, by simp, hs7⟩
      simpa using h1.trans (ho.trans hs2)
    · rw [if_neg h]
      refine ⟨_, l.rest.takeWhile isDigit, [], [], rfl, by simpa using h1.setToken _, mem_takeWhile, .none, .none ?_ ?_, fun _ => h2,
        fun _ _ => hd, rfl⟩
      · exact fun hh => h (Or.inl hh)
      · exact fun hh => h (Or.inr hh)

theorem lexed_dig {l : Lex} {c : Byte} {r : Bytes} (hr : l.rest = c :: r) (hc : isDigit c = true)
    (hz : c ≠ #b'0') : l.dig.Sat (Lexed l) False False False := by
  rw [dig, bump_moveTo hr]
  simp only [Out.bind_ok]
  obtain ⟨l', ds, f, e, h1, h2, h3, h4, h5, h6, h7, h8⟩ := digitsLoop_spec (l.moveTo r (l.index + 1))
  rw [h1]
  have ho : Over [c] l (l.moveTo r (l.index + 1)) := ⟨rfl, rfl, hr, rfl, rfl⟩
  refine ⟨_, ho.trans h2, ?_⟩
  rw [h8]
  refine .number (.decimal (ds := c :: ds) (by simp) (by simp; exact ⟨hc, h3⟩) h4 h5 h6 h7 ?_)
  intro hh
  simp at hh
  exact absurd hh.1 hz

theorem lexed_zer {l : Lex} {r : Bytes} (hr : l.rest = #b'0' :: r) : l.zer.Sat (Lexed l) False False False := by
  rw [zer, bump_moveTo hr]
  have ho : Over [#b'0'] l (l.moveTo r (l.index + 1)) := ⟨rfl, rfl, hr, rfl, rfl⟩
  simp only [Out.bind_ok]
  apply Out.Sat.ite
  · intro h
    obtain ⟨r', hr', hb, hob⟩ := bump_of_readByte (l := l.moveTo r (l.index + 1)) (by rcases h with h | h <;> rw [h] <;> decide)
    rw [hb]
    obtain ⟨ds, h1, h2, h3⟩ := over_digits isBinaryDigit (by decide) ((l.moveTo r (l.index + 1)).moveTo r' ((l.moveTo r (l.index + 1)).index + 1)) .LiteralBinary
    exact ⟨_, ho.trans (hob.trans h1), .binary h h2 h3⟩
  intro hb
  apply Out.Sat.ite
  · intro h
    obtain ⟨r', hr', hb, hob⟩ := bump_of_readByte (l := l.moveTo r (l.index + 1)) (by rcases h with h | h <;> rw [h] <;> decide)
    rw [hb]
    obtain ⟨ds, h1, h2, h3⟩ := over_digits isOctal (by decide) ((l.moveTo r (l.index + 1)).moveTo r' ((l.moveTo r (l.index + 1)).index + 1)) .LiteralNumber
    exact ⟨_, ho.trans (hob.trans h1), .number (.octal h h2 h3)⟩
  intro hoc
  apply Out.Sat.ite
  · intro h
    obtain ⟨r', hr', hb, hob⟩ := bump_of_readByte (l := l.moveTo r (l.index + 1)) (by rcases h with h | h <;> rw [h] <;> decide)
    rw [hb]
    obtain ⟨ds, h1, h2, h3⟩ := over_digits isHex (by decide) ((l.moveTo r (l.index + 1)).moveTo r' ((l.moveTo r (l.index + 1)).index + 1)) .LiteralNumber
    exact ⟨_, ho.trans (hob.trans h1), .number (.hex h h2 h3)⟩
  intro hx
  obtain ⟨l', ds, f, e, h1, h2, h3, h4, h5, h6, h7, h8⟩ := digitsLoop_spec (l.moveTo r (l.index + 1))
  rw [h1]
  refine ⟨_, ho.trans h2, ?_⟩
  rw [h8]
  refine .number (.decimal (ds := #b'0' :: ds) (by simp) (by simp; exact ⟨by decide, h3⟩) h4 h5 h6 h7 ?_)
  intro hh hf he
  simp at hh
  subst hh hf he
  have := h2.rest
  simp only [List.nil_append, rest_moveTo] at this
  simp only [readByte_eq_next, rest_moveTo, this] at hb hoc hx
  simp only [not_or] at hb hoc hx
  simp [hb, hoc, hx]

theorem lexed_qot {l : Lex} {q : Byte} {r : Bytes} (hr : l.rest = q :: r) (hq : q = #b'"' ∨ q = #b'\'') :
    l.qot.Sat (Lexed l) False False False := by
  rw [qot, bump_moveTo hr]
  simp only [Out.bind_ok, readByte, hr, List.headD_cons]
  obtain ⟨p, hp, h⟩ := quoteGo_spec (q := q) (r := (l.moveTo r (l.index + 1)).rest)
    (i := (l.moveTo r (l.index + 1)).index) (t := _) (s := _) (j := _) rfl
  generalize quoteGo q (l.moveTo r (l.index + 1)).rest (l.moveTo r (l.index + 1)).index = x at h
  obtain ⟨t, s, j⟩ := x
  simp only [rest_moveTo, index_moveTo, moveTo_moveTo] at h ⊢
  rcases h with ⟨rfl, h2, h3⟩ | ⟨rfl, h2, h3, h4⟩ | ⟨rfl, h2, h3, h4⟩
  · exact ⟨q :: p ++ [q], ⟨rfl, rfl, by simp [hr, h2, setToken, moveTo], by simp [h3, setToken, moveTo]; omega, rfl⟩,
      .string hq hp⟩
  · exact ⟨q :: p, ⟨rfl, rfl, by simp [hr, h2, setToken, moveTo], by simp [h3, setToken, moveTo]; omega, rfl⟩,
      .openString hq hp h4⟩
  · exact ⟨q :: p ++ [#b'\\'], ⟨rfl, rfl, by simp [hr, h2, setToken, moveTo], by simp [h3, setToken, moveTo]; omega, rfl⟩,
      .openStringEsc hq hp h4⟩

/-- Reading a template piece, from behind the back quote or closing brace. -/
theorem readTemplateKind_spec (l : Lex) :
    l.readTemplateKind.Sat (fun l' => ∃ p q, TplBody p ∧ Over (p ++ q) l l' ∧
      ((l'.token = .TemplateClosed ∧ q = bs!"`" ∧ l'.quasi = l.sliceSource l.index (l.index + p.length)) ∨
       (l'.token = .TemplateOpen ∧ q = bs!"${" ∧ l'.quasi = l.sliceSource l.index (l.index + p.length)) ∨
       (l'.token = .UnexpectedEndOfProgram ∧ q = [#b'\\'] ∧ next l'.rest = 0)))
      (templateGo l.rest l.index = none) False False := by
  rw [readTemplateKind]
  cases h : templateGo l.rest l.index with
  | none => rfl
  | some x =>
    obtain ⟨t, e, s, j⟩ := x
    obtain ⟨p, hp, h'⟩ := templateGo_some h
    rcases h' with ⟨rfl, h2, rfl, rfl⟩ | ⟨rfl, h2, rfl, rfl⟩ | ⟨rfl, h2, rfl, h4⟩
    · exact ⟨p, bs!"`", hp, ⟨rfl, rfl, by simp [h2, setToken, moveTo], by simp [setToken, moveTo]; omega, rfl⟩,
        Or.inl ⟨rfl, rfl, rfl⟩⟩
    · exact ⟨p, bs!"${", hp, ⟨rfl, rfl, by simp [h2, setToken, moveTo], by simp [setToken, moveTo]; omega, rfl⟩,
        Or.inr (Or.inl ⟨rfl, rfl, rfl⟩)⟩
    · exact ⟨p, [#b'\\'], hp, ⟨rfl, rfl, by simp [h2, setToken, moveTo], by simp [setToken, moveTo]; omega, rfl⟩,
        Or.inr (Or.inr ⟨rfl, rfl, h4⟩)⟩


theorem lexed_tpl {l : Lex} {r : Bytes} (hr : l.rest = #b'`' :: r) :
    (l.bump >>= readTemplateKind).Sat (Lexed l) (templateGo r (l.index + 1) = none) False False := by
  rw [bump_moveTo hr]
  refine (readTemplateKind_spec (l.moveTo r (l.index + 1))).mono ?_ id id id
  rintro l' - ⟨p, q, hp, ho, h⟩
  have h0 : Over [#b'`'] l (l.moveTo r (l.index + 1)) := ⟨rfl, rfl, hr, rfl, rfl⟩
  refine ⟨_, h0.trans ho, ?_⟩
  rcases h with ⟨h1, rfl, -⟩ | ⟨h1, rfl, -⟩ | ⟨h1, rfl, h2⟩ <;> rw [h1]
  · exact .templateClosed hp
  · exact .templateOpen hp
  · exact .openTemplate hp h2

theorem readLabel_spec {l : Lex} {c : Byte} {r : Bytes} (hr : l.rest = c :: r) (hc : wordByte c = true) :
    Over (c :: word r) l l.readLabel ∧ wordByte (next l.readLabel.rest) = false := by
  have hle : legalInLabel = wordByte := funext legalInLabel_eq
  have h1 := over_skipWhile legalInLabel l
  have h2 := next_skipWhile (p := legalInLabel) (by decide) l
  rw [hle] at h1 h2
  rw [hr, List.takeWhile_cons, if_pos hc] at h1
  rw [readLabel, hle]
  exact ⟨h1, h2⟩

theorem wordByte_of_start {c : Byte} (h : wordStart c = true) : wordByte c = true := by
  simp [wordByte, h]

/-- The property access of `PRD`. -/
theorem readAccessor_spec (l : Lex) :
    l.readAccessor.Sat (fun l' => ∃ s c w, (∀ b ∈ s, b ≤ 0x20) ∧
        ((wordStart c = true ∧ (∀ b ∈ w, wordByte b) ∧ Over (s ++ c :: w) l l' ∧ wordByte (next l'.rest) = false ∧
            l'.token = .Accessor ∧ l'.accessorStart = l.index + s.length) ∨
         (wordStart c = false ∧ 0x20 < c ∧ c < 128 ∧ next l'.rest = c ∧ Over s l l' ∧ l'.token = .UnexpectedToken)))
      (∀ b ∈ l.rest, b ≤ 0x20) (∃ s c r, l.rest = s ++ c :: r ∧ (∀ b ∈ s, b ≤ 0x20) ∧ 128 ≤ c) False := by
  rw [readAccessor]
  cases h : accessorGo l.rest l.index with
  | none => exact accessorGo_none.mp h
  | some x =>
    obtain ⟨c, r, i⟩ := x
    obtain ⟨s, t, h1, h2, h3, h4, h5⟩ := accessorGo_some h
    simp only
    apply Out.Sat.ite
    · intro hc
      refine ⟨s, c, t, by rw [h2, h3], h1, ?_⟩
      rw [UInt8.lt_iff_toNat_lt] at hc
      rw [UInt8.le_iff_toNat_le]
      exact hc
    · intro hc
      have hc' : c < 128 := by
        rw [UInt8.lt_iff_toNat_lt] at hc ⊢
        simp at hc ⊢
        omega
      have ho : Over s l { l.moveTo r i with accessorStart := i } := ⟨rfl, rfl, by simp [h2, moveTo], by simp [h5, moveTo], rfl⟩
      apply Out.Sat.ite
      · intro ha
        rw [accessorStartTable_eq] at ha
        obtain ⟨h6, h7⟩ := readLabel_spec (l := { l.moveTo r i with accessorStart := i }) (c := c) (r := t) h3 (wordByte_of_start ha)
        refine ⟨s, c, word t, h1, Or.inl ⟨ha, mem_takeWhile, ?_, h7, rfl, h5⟩⟩
        exact (ho.trans h6).setToken _
      · intro ha
        rw [accessorStartTable_eq] at ha
        exact ⟨s, c, [], h1, Or.inr ⟨by simpa using ha, h4, hc', by simp [setToken, moveTo, h3, next], ho.setToken _, rfl⟩⟩

theorem lexed_prd {l : Lex} {r : Bytes} (hr : l.rest = #b'.' :: r) :
    l.prd.Sat (Lexed l) (∀ b ∈ r, b ≤ 0x20) (∃ s c t, r = s ++ c :: t ∧ (∀ b ∈ s, b ≤ 0x20) ∧ 128 ≤ c) False := by
  rw [prd, bump_moveTo hr]
  have h0 : Over [#b'.'] l (l.moveTo r (l.index + 1)) := ⟨rfl, rfl, hr, rfl, rfl⟩
  simp only [Out.bind_ok]
  apply Out.Sat.ite
  · intro h
    obtain ⟨r', hr', hb, hob⟩ := bump_of_readByte (l := l.moveTo r (l.index + 1)) (by intro hh; rw [hh] at h; exact absurd h (by decide))
    rw [hb]
    simp only [Out.bind_ok]
    obtain ⟨l', ds, e, hs1, hs2, hs3, hs4, hs5, hs6⟩ := readFloat_spec ((l.moveTo r (l.index + 1)).moveTo r' ((l.moveTo r (l.index + 1)).index + 1))
    rw [hs1]
    refine ⟨_, h0.trans (hob.trans hs2), ?_⟩
    rw [hs6]
    exact .number (.point (ds := ds) h hs3 hs4 hs5)
  intro hd
  apply Out.Sat.ite
  · intro h
    obtain ⟨r', hr', hb, hob⟩ := bump_of_readByte (l := l.moveTo r (l.index + 1)) (by rw [h]; decide)
    rw [h] at hob
    rw [hb]
    simp only [Out.bind_ok]
    apply Out.Sat.ite
    · intro h'
      obtain ⟨r2, hr2, hb2, hob2⟩ := bump_of_readByte (l := (l.moveTo r (l.index + 1)).moveTo r' ((l.moveTo r (l.index + 1)).index + 1)) (by rw [h']; decide)
      rw [h'] at hob2
      rw [single, hb2]
      exact ⟨_, (h0.trans (hob.trans hob2)).setToken _, .punct (p := bs!"...") (t := .OperatorSpread) (by decide) (punct_max (by rw [show extensions bs!"..." = [] by decide]; simp)) (by simp)⟩
    · intro h'
      exact ⟨_, (h0.trans hob).setToken _, .badDots h'⟩
  intro hp
  refine (readAccessor_spec (l.moveTo r (l.index + 1))).mono ?_ id id id
  rintro l' - ⟨s, c, w, hs, h⟩
  rcases h with ⟨h1, h2, h3, h4, h5, -⟩ | ⟨h1, h2, h3, h4, h5, h6⟩
  · refine ⟨_, h0.trans h3, ?_⟩
    rw [h5]
    exact .accessor hs h1 h2 h4
  · refine ⟨_, h0.trans h5, ?_⟩
    rw [h6]
    subst h4
    refine .badDot hs h2 h1 h3 ?_
    rintro rfl
    have hr' : r = l'.rest := by simpa using h5.rest
    rw [← hr']
    have hd' : isDigit (l.moveTo r (l.index + 1)).readByte = false := by simpa using hd
    exact ⟨hd', hp⟩

theorem wordByte_of_cont {b : Byte} (h : isCont b = true) : wordByte b = true := by
  simp [isCont] at h
  simp [wordByte, h.1]

theorem decodeFirst_spec {r : Bytes} {c : Nat} (h : decodeFirst r = some c) (h0 : 128 ≤ next r) :
    ∃ x p s, r = x :: p ++ s ∧ lenUtf8 c ≤ p.length + 1 ∧ ∀ b ∈ p, isCont b := by
  unfold decodeFirst at h
  repeat' split at h
  all_goals first | (simp at h; done) | skip
  case h_2.isTrue x r hx =>
    simp only [next, List.headD_cons] at h0
    rw [UInt8.lt_iff_toNat_lt] at hx
    rw [UInt8.le_iff_toNat_le] at h0
    simp at hx h0
    omega
  · refine ⟨_, [_], _, rfl, ?_, by simp_all⟩
    simp only [Option.some.injEq] at h
    unfold lenUtf8
    simp only [List.length_cons, List.length_nil]
    repeat' split
    all_goals omega
  · refine ⟨_, [_, _], _, rfl, ?_, by simp_all⟩
    simp only [Option.some.injEq] at h
    unfold lenUtf8
    simp only [List.length_cons, List.length_nil]
    repeat' split
    all_goals omega
  · refine ⟨_, [_, _, _], _, rfl, ?_, by simp_all⟩
    unfold lenUtf8
    simp only [List.length_cons, List.length_nil]
    repeat' split
    all_goals omega

theorem lexed_uni {l : Lex} (h : 128 ≤ next l.rest) :
    l.uni.Sat (Lexed l) (decodeFirst l.rest = none) False False := by
  rw [uni]
  cases hd : decodeFirst l.rest with
  | none => rfl
  | some c =>
    simp only
    apply Out.Sat.ite
    · intro ha
      obtain ⟨x, p, s, h1, h2, h3⟩ := decodeFirst_spec hd h
      have hx : 128 ≤ x := by simpa [h1, next] using h
      have hwx : wordByte x = true := by simp [wordByte, hx]
      have hk : lenUtf8 c - 1 ≤ p.length := by omega
      generalize lenUtf8 c - 1 = k at hk
      -- the bytes passed are word bytes
      have hw : ∀ b ∈ (x :: p).take k, wordByte b := by
        intro b hb
        have := List.mem_of_mem_take hb
        simp at this
        rcases this with rfl | hb
        · exact hwx
        · exact wordByte_of_cont (h3 b hb)
      have hle : legalInLabel = wordByte := funext legalInLabel_eq
      have e1 : l.rest = (x :: p).take k ++ l.rest.drop k := by
        rw [h1, List.drop_append_of_le_length (by simp; omega)]
        rw [← List.append_assoc, List.take_append_drop]
      have e2 : (l.moveTo (l.rest.drop k) (l.index + k)).readLabel = l.readLabel := by
        have := skipWhile_of_append (l := l) (s := l.rest.drop k) (k := l.index) hw
        rw [← e1, moveTo_self, List.length_take, Nat.min_eq_left (by simp; omega)] at this
        exact this
      rw [e2]
      obtain ⟨h4, h5⟩ := readLabel_spec (l := l) (c := x) (r := p ++ s) (by simpa using h1) hwx
      exact ⟨_, h4.setToken _, .unicodeWord hx mem_takeWhile ⟨c, h4.rest ▸ hd, ha⟩ h5⟩
    · intro ha
      exact ⟨[], (Over.refl l).setToken _, .badChar h ⟨c, hd, by simpa using ha⟩⟩

end Lex
end Ratel
