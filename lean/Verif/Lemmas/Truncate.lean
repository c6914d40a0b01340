import Verif.Lemmas.Prog
/-! A NUL in the source ends it: the lexer and the parser do the same on `src` and on `src ++ z` when `z` is
empty or starts with a NUL. -/
namespace Ratel
open Spec

set_option linter.unusedSectionVars false
variable [Unicode]

namespace Lex

/-- The same lexer on a longer source. -/
def ext (z : Bytes) (l : Lex) : Lex := { l with src := l.src ++ z, rest := l.rest ++ z }

/-- The rest of the source is all that follows the current position. -/
def Fits (l : Lex) : Prop := l.index + l.rest.length = l.src.length

/-- Same outcome on the longer source, unless the run on the shorter source reads behind its end. -/
def Same (z : Bytes) (x y : Out Lex) : Prop :=
  x = .oob ∨ x = .timeout ∨ (x = .panic ∧ y = .panic) ∨ ∃ a, x = .ok a ∧ y = .ok (a.ext z) ∧ a.Fits

variable {z : Bytes}

theorem Same.ok {a b : Lex} (h : a.Fits) (hb : b = a.ext z) : Same z (.ok a) (.ok b) :=
  .inr (.inr (.inr ⟨a, rfl, by rw [hb], h⟩))

theorem Same.bind {x y : Out Lex} {f g : Lex → Out Lex} (h : Same z x y)
    (hf : ∀ a, a.Fits → Same z (f a) (g (a.ext z))) : Same z (x >>= f) (y >>= g) := by
  rcases h with rfl | rfl | ⟨rfl, rfl⟩ | ⟨a, rfl, rfl, ha⟩
  · exact .inl rfl
  · exact .inr (.inl rfl)
  · exact .inr (.inr (.inl ⟨rfl, rfl⟩))
  · exact hf a ha

theorem Same.ite {c : Prop} [Decidable c] {x y x' y' : Out Lex} (h : Same z x y) (h' : Same z x' y') :
    Same z (if c then x else x') (if c then y else y') := by
  split
  · exact h
  · exact h'

theorem bump_same {l : Lex} (hl : l.Fits) : Same z l.bump (l.ext z).bump := by
  unfold bump ext
  unfold Fits at hl
  cases h : l.rest with
  | nil => exact .inl rfl
  | cons c r =>
    rw [h] at hl
    refine .ok (a := { l with rest := r, index := l.index + 1 }) ?_ rfl
    simp [Fits] at hl ⊢
    omega

section
variable (hz : next z = 0)
include hz

theorem readByte_ext (l : Lex) : (l.ext z).readByte = l.readByte := by
  unfold readByte ext
  cases h : l.rest with
  | nil => exact hz
  | cons c r => rfl

theorem skipWhileGo_ext {p : Byte → Bool} (hp : p 0 = false) (r : Bytes) (i : Nat) :
    skipWhileGo p (r ++ z) i = ((skipWhileGo p r i).1 ++ z, (skipWhileGo p r i).2) := by
  fun_induction skipWhileGo p r i with
  | case1 i =>
    cases z with
    | nil => rfl
    | cons c z =>
      have : c = 0 := hz
      subst this
      simp [skipWhileGo, hp]
  | case2 i c r h ih => simp [skipWhileGo, h, ih]
  | case3 i c r h => simp [skipWhileGo, h]

theorem skipWhile_ext {p : Byte → Bool} (hp : p 0 = false) (l : Lex) :
    (l.ext z).skipWhile p = (l.skipWhile p).ext z := by
  unfold skipWhile ext
  simp [skipWhileGo_ext hz hp, moveTo]
end

theorem over_fits {p : Bytes} {l l' : Lex} (ho : Over p l l') (h : l.Fits) : l'.Fits := by
  unfold Fits at h ⊢
  have := congrArg List.length ho.rest
  rw [ho.index, ho.src]
  simp at this ⊢
  omega

theorem skipWhile_fits {p : Byte → Bool} {l : Lex} (h : l.Fits) : (l.skipWhile p).Fits :=
  over_fits (over_skipWhile p l) h

theorem moveTo_same {l : Lex} {p r : Bytes} {i : Nat} (h : l.Fits) (hr : l.rest = p ++ r) (hi : i = l.index + p.length) :
    (l.moveTo r i).Fits := over_fits (l := l) (l' := l.moveTo r i) (p := p) ⟨rfl, rfl, hr, hi, rfl⟩ h

section
variable (hz : next z = 0)
include hz

theorem next_zero_cases : z = [] ∨ ∃ t, z = 0 :: t := by
  cases z with
  | nil => exact .inl rfl
  | cons c z => exact .inr ⟨z, by rw [show c = 0 from hz]⟩

theorem quoteGo_ext {q : Byte} (hq : q ≠ 0) (r : Bytes) (i : Nat) :
    quoteGo q (r ++ z) i = ((quoteGo q r i).1, (quoteGo q r i).2.1 ++ z, (quoteGo q r i).2.2) := by
  fun_induction quoteGo q r i
  case case1 i =>
    rcases next_zero_cases hz with rfl | ⟨t, rfl⟩
    · rfl
    · (unfold quoteGo; simp [Ne.symm hq])
  case case3 i _ =>
    rcases next_zero_cases hz with rfl | ⟨t, rfl⟩
    · (unfold quoteGo; simp [*])
    · (unfold quoteGo; simp [*])
  all_goals (simp only [List.cons_append]; conv => { lhs; unfold quoteGo }; simp_all)

theorem blockCommentGo_ext (r : Bytes) (i : Nat) :
    blockCommentGo (r ++ z) i = ((blockCommentGo r i).1, (blockCommentGo r i).2.1 ++ z, (blockCommentGo r i).2.2) := by
  fun_induction blockCommentGo r i
  case case1 i =>
    rcases next_zero_cases hz with rfl | ⟨t, rfl⟩
    · rfl
    · (unfold blockCommentGo; simp)
  case case2 i =>
    rcases next_zero_cases hz with rfl | ⟨t, rfl⟩
    · (unfold blockCommentGo; simp [*])
    · (unfold blockCommentGo; simp [*])
  all_goals (simp only [List.cons_append]; conv => { lhs; unfold blockCommentGo }; simp_all)

theorem templateGo_ext {r : Bytes} {i : Nat} {x : Token × Nat × Bytes × Nat} (h : templateGo r i = some x) :
    templateGo (r ++ z) i = some (x.1, x.2.1, x.2.2.1 ++ z, x.2.2.2) := by
  fun_induction templateGo r i
  case case6 =>
    rcases next_zero_cases hz with rfl | ⟨t, rfl⟩
    · simp at h; subst h; (simp only [List.cons_append]; unfold templateGo; simp [*])
    · simp at h; subst h; (simp only [List.cons_append]; unfold templateGo; simp [*])
  all_goals first
    | (simp at h; done)
    | (simp only [Option.some.injEq] at h; subst h; simp only [List.cons_append]; unfold templateGo; simp_all; done)
    | (simp only [List.cons_append]; unfold templateGo; simp_all)

theorem regexGo_ext {b : Bool} {r : Bytes} {i : Nat} {x : Token × Bytes × Nat} (h : regexGo b r i = some x) :
    regexGo b (r ++ z) i = some (x.1, x.2.1 ++ z, x.2.2) := by
  fun_induction regexGo b r i
  case case6 =>
    rcases next_zero_cases hz with rfl | ⟨t, rfl⟩
    · simp at h; subst h; (simp only [List.cons_append]; unfold regexGo; simp [*])
    · simp at h; subst h; (simp only [List.cons_append]; unfold regexGo; simp [*])
  all_goals first
    | (simp at h; done)
    | (simp only [Option.some.injEq] at h; subst h; simp only [List.cons_append]; unfold regexGo; simp_all; done)
    | (simp only [List.cons_append]; unfold regexGo; simp_all)
end

theorem accessorGo_ext {r : Bytes} {i : Nat} {x : Byte × Bytes × Nat} (h : accessorGo r i = some x) :
    accessorGo (r ++ z) i = some (x.1, x.2.1 ++ z, x.2.2) := by
  fun_induction accessorGo r i with
  | case1 => simp at h
  | case2 c r i hc => simp at h; subst h; simp only [List.cons_append]; unfold accessorGo; rw [if_pos hc]
  | case3 c r i hc ih => simp only [List.cons_append]; unfold accessorGo; rw [if_neg hc]; exact ih h

theorem slice_ext {l : Lex} {a b : Nat} (h : b ≤ l.src.length) : (l.ext z).sliceSource a b = l.sliceSource a b := by
  unfold sliceSource ext
  simp only
  by_cases hab : a ≤ b
  · rw [List.drop_append_of_le_length (Nat.le_trans hab h), List.take_append_of_le_length]
    simp; omega
  · rw [Nat.sub_eq_zero_of_le (by omega)]; simp

theorem setToken_ext (l : Lex) (t : Token) : (l.ext z).setToken t = (l.setToken t).ext z := rfl

theorem moveTo_ext (l : Lex) (r : Bytes) (i : Nat) : (l.ext z).moveTo (r ++ z) i = (l.moveTo r i).ext z := rfl

/-- Values read on the way. -/
def Same2 {α : Type} (z : Bytes) (x y : Out (Lex × α)) : Prop :=
  x = .oob ∨ x = .timeout ∨ (x = .panic ∧ y = .panic) ∨ ∃ a v, x = .ok (a, v) ∧ y = .ok (a.ext z, v) ∧ a.Fits

theorem Same.bind2 {α : Type} {x y : Out Lex} {f g : Lex → Out (Lex × α)} (h : Same z x y)
    (hf : ∀ a, a.Fits → Same2 z (f a) (g (a.ext z))) : Same2 z (x >>= f) (y >>= g) := by
  rcases h with rfl | rfl | ⟨rfl, rfl⟩ | ⟨a, rfl, rfl, ha⟩
  · exact .inl rfl
  · exact .inr (.inl rfl)
  · exact .inr (.inr (.inl ⟨rfl, rfl⟩))
  · exact hf a ha

theorem Same2.bind2 {α β : Type} {x y : Out (Lex × α)} {f g : Lex × α → Out (Lex × β)} (h : Same2 z x y)
    (hf : ∀ a v, a.Fits → Same2 z (f (a, v)) (g (a.ext z, v))) : Same2 z (x >>= f) (y >>= g) := by
  rcases h with rfl | rfl | ⟨rfl, rfl⟩ | ⟨a, v, rfl, rfl, ha⟩
  · exact .inl rfl
  · exact .inr (.inl rfl)
  · exact .inr (.inr (.inl ⟨rfl, rfl⟩))
  · exact hf a v ha

theorem Same2.bind {α : Type} {x y : Out (Lex × α)} {f g : Lex × α → Out Lex} (h : Same2 z x y)
    (hf : ∀ a v, a.Fits → Same z (f (a, v)) (g (a.ext z, v))) : Same z (x >>= f) (y >>= g) := by
  rcases h with rfl | rfl | ⟨rfl, rfl⟩ | ⟨a, v, rfl, rfl, ha⟩
  · exact .inl rfl
  · exact .inr (.inl rfl)
  · exact .inr (.inr (.inl ⟨rfl, rfl⟩))
  · exact hf a v ha

theorem Same2.ok {α : Type} {a b : Lex} {v w : α} (h : a.Fits) (hb : b = a.ext z) (hv : w = v) :
    Same2 z (.ok (a, v)) (.ok (b, w)) :=
  .inr (.inr (.inr ⟨a, v, rfl, by rw [hb, hv], h⟩))

/-- The lexer function `f` does the same on the longer source. -/
def Stable (z : Bytes) (f : Lex → Out Lex) : Prop := ∀ l, l.Fits → Same z (f l) (f (l.ext z))

variable (hz : next z = 0)
include hz

theorem single_stable (t : Token) : Stable z (single t) := by
  intro l hl
  unfold single
  exact (bump_same hl).bind fun a ha => .ok ha rfl

theorem skip_stable {p : Byte → Bool} (hp : p 0 = false) (t : Token) :
    Stable z fun l => .ok ((l.skipWhile p).setToken t) := by
  intro l hl
  exact .ok (skipWhile_fits hl) (by rw [skipWhile_ext hz hp]; rfl)

theorem eql_stable : Stable z eql := by
  intro l hl
  unfold eql
  refine (bump_same hl).bind fun l hl => ?_
  simp only [readByte_ext hz]
  refine .ite ((bump_same hl).bind fun l hl => ?_) (.ite (single_stable hz _ l hl) (.ok hl rfl))
  simp only [readByte_ext hz]
  exact .ite (single_stable hz _ l hl) (.ok hl rfl)

theorem exl_stable : Stable z exl := by
  intro l hl
  unfold exl
  refine (bump_same hl).bind fun l hl => ?_
  simp only [readByte_ext hz]
  refine .ite ((bump_same hl).bind fun l hl => ?_) (.ok hl rfl)
  simp only [readByte_ext hz]
  exact .ite (single_stable hz _ l hl) (.ok hl rfl)

theorem lss_stable : Stable z lss := by
  intro l hl
  unfold lss
  refine (bump_same hl).bind fun l hl => ?_
  simp only [readByte_ext hz]
  refine .ite ((bump_same hl).bind fun l hl => ?_) (.ite (single_stable hz _ l hl) (.ok hl rfl))
  simp only [readByte_ext hz]
  exact .ite (single_stable hz _ l hl) (.ok hl rfl)

theorem mor_stable : Stable z mor := by
  intro l hl
  unfold mor
  refine (bump_same hl).bind fun l hl => ?_
  simp only [readByte_ext hz]
  refine .ite ((bump_same hl).bind fun l hl => ?_) (.ite (single_stable hz _ l hl) (.ok hl rfl))
  simp only [readByte_ext hz]
  refine .ite ((bump_same hl).bind fun l hl => ?_) (.ite (single_stable hz _ l hl) (.ok hl rfl))
  simp only [readByte_ext hz]
  exact .ite (single_stable hz _ l hl) (.ok hl rfl)

theorem crt_stable : Stable z crt := by
  intro l hl
  unfold crt
  refine (bump_same hl).bind fun l hl => ?_
  simp only [readByte_ext hz]
  exact .ite (single_stable hz _ l hl) (.ok hl rfl)

theorem prc_stable : Stable z prc := by
  intro l hl
  unfold prc
  refine (bump_same hl).bind fun l hl => ?_
  simp only [readByte_ext hz]
  exact .ite (single_stable hz _ l hl) (.ok hl rfl)

theorem doubled_stable (c : Byte) (a b d : Token) : Stable z (doubled c a b d) := by
  intro l hl
  unfold doubled
  refine (bump_same hl).bind fun l hl => ?_
  simp only [readByte_ext hz]
  exact .ite (single_stable hz _ l hl) (.ite (single_stable hz _ l hl) (.ok hl rfl))

theorem atr_stable : Stable z atr := by
  intro l hl
  unfold atr
  refine (bump_same hl).bind fun l hl => ?_
  simp only [readByte_ext hz]
  refine .ite ((bump_same hl).bind fun l hl => ?_) (.ite (single_stable hz _ l hl) (.ok hl rfl))
  simp only [readByte_ext hz]
  exact .ite (single_stable hz _ l hl) (.ok hl rfl)

theorem slh_stable {again again' : Lex → Out Lex} (ha : ∀ l, l.Fits → Same z (again l) (again' (l.ext z)))
    (l : Lex) (hl : l.Fits) : Same z (slh again l) (slh again' (l.ext z)) := by
  unfold slh
  refine (bump_same hl).bind fun l hl => ?_
  simp only [readByte_ext hz]
  refine .ite ((bump_same hl).bind fun l hl => ?_)
    (.ite ((bump_same hl).bind fun l hl => ?_) (.ite (single_stable hz _ l hl) (.ok hl rfl)))
  · rw [skipWhile_ext hz (by decide)]
    exact ha _ (skipWhile_fits hl)
  · have e : blockCommentGo (l.ext z).rest (l.ext z).index = _ := blockCommentGo_ext hz l.rest l.index
    rw [e]
    rcases h : blockCommentGo l.rest l.index with ⟨b, r, i⟩
    obtain ⟨p, -, -, h' | h'⟩ := blockCommentGo_spec h
    · obtain ⟨rfl, h2, h3⟩ := h'
      refine ha _ (moveTo_same (l := l) (r := r) (i := i) (p := p ++ bs!"*/") hl (by simp [h2]) (by simp [h3]; omega))
    · obtain ⟨rfl, h2, h3, -⟩ := h'
      exact .ok (a := (l.moveTo r i).setToken _) (moveTo_same (l := l) (r := r) (i := i) (p := p) hl (by simp [h2]) (by simp [h3])) rfl

theorem readScientific_stable : Stable z readScientific := by
  intro l hl
  unfold readScientific
  simp only [readByte_ext hz]
  split
  · exact (bump_same hl).bind (skip_stable hz (by decide) _)
  · exact skip_stable hz (by decide) _ l hl

theorem readFloat_stable : Stable z readFloat := by
  intro l hl
  unfold readFloat
  rw [skipWhile_ext hz (by decide)]
  simp only [readByte_ext hz]
  have := skipWhile_fits (p := isDigit) hl
  exact .ite ((bump_same this).bind (readScientific_stable hz)) (.ok this rfl)

theorem digitsLoop_stable : Stable z digitsLoop := by
  intro l hl
  unfold digitsLoop
  rw [skipWhile_ext hz (by decide)]
  simp only [readByte_ext hz]
  have := skipWhile_fits (p := isDigit) hl
  exact .ite ((bump_same this).bind (readFloat_stable hz))
    (.ite ((bump_same this).bind (readScientific_stable hz)) (.ok this rfl))

theorem zer_stable : Stable z zer := by
  intro l hl
  unfold zer
  refine (bump_same hl).bind fun l hl => ?_
  simp only [readByte_ext hz]
  exact .ite ((bump_same hl).bind (skip_stable hz (by decide) _))
    (.ite ((bump_same hl).bind (skip_stable hz (by decide) _))
      (.ite ((bump_same hl).bind (skip_stable hz (by decide) _)) (digitsLoop_stable hz l hl)))

theorem dig_stable : Stable z dig := by
  intro l hl
  unfold dig
  exact (bump_same hl).bind (digitsLoop_stable hz)

theorem readAccessor_stable : Stable z readAccessor := by
  intro l hl
  unfold readAccessor
  cases h : accessorGo l.rest l.index with
  | none => exact .inl rfl
  | some x =>
    obtain ⟨c, r, i⟩ := x
    have e : accessorGo (l.ext z).rest (l.ext z).index = _ := accessorGo_ext h
    rw [e]
    obtain ⟨s, t, -, h1, -, -, h2⟩ := accessorGo_some h
    have hf : Fits { l.moveTo r i with accessorStart := i } := moveTo_same (l := l) (p := s) hl h1 h2
    simp only
    refine .ite (.inr (.inr (.inl ⟨rfl, rfl⟩))) (.ite ?_ (.ok hf rfl))
    exact skip_stable hz (p := legalInLabel) (by decide) .Accessor _ hf

theorem prd_stable : Stable z prd := by
  intro l hl
  unfold prd
  refine (bump_same hl).bind fun l hl => ?_
  simp only [readByte_ext hz]
  refine .ite ((bump_same hl).bind (readFloat_stable hz))
    (.ite ((bump_same hl).bind fun l hl => ?_) (readAccessor_stable hz l hl))
  simp only [readByte_ext hz]
  exact .ite (single_stable hz _ l hl) (.ok hl rfl)

theorem idt_stable : Stable z idt := by
  intro l hl
  unfold idt
  exact (bump_same hl).bind (skip_stable hz (by decide) _)

theorem qot_stable {l : Lex} (hl : l.Fits) (hq : l.readByte ≠ 0) : Same z l.qot (l.ext z).qot := by
  unfold qot
  simp only [readByte_ext hz]
  generalize l.readByte = q at hq
  refine (bump_same hl).bind fun l hl => ?_
  have e : quoteGo q (l.ext z).rest (l.ext z).index = _ := quoteGo_ext hz hq l.rest l.index
  rw [e]
  rcases h : quoteGo q l.rest l.index with ⟨t, r, i⟩
  obtain ⟨p, -, h' | h' | h'⟩ := quoteGo_spec h
  · exact .ok (a := (l.moveTo r i).setToken t) (moveTo_same (l := l) (r := r) (i := i) (p := p ++ [q]) hl (by simp [h']) (by simp [h']; omega)) rfl
  · exact .ok (a := (l.moveTo r i).setToken t) (moveTo_same (l := l) (r := r) (i := i) (p := p) hl (by simp [h']) (by simp [h'])) rfl
  · exact .ok (a := (l.moveTo r i).setToken t) (moveTo_same (l := l) (r := r) (i := i) (p := p ++ [#b'\\']) hl (by simp [h']) (by simp [h']; omega)) rfl

theorem readTemplateKind_stable : Stable z readTemplateKind := by
  intro l hl
  unfold readTemplateKind
  cases h : templateGo l.rest l.index with
  | none => exact .inl rfl
  | some x =>
    obtain ⟨t, e, r, i⟩ := x
    have he : templateGo (l.ext z).rest (l.ext z).index = _ := templateGo_ext hz h
    rw [he]
    simp only
    obtain ⟨p, -, h'⟩ := templateGo_some h
    have hl' := hl
    unfold Fits at hl'
    rcases h' with ⟨rfl, h1, h2, h3⟩ | ⟨rfl, h1, h2, h3⟩ | ⟨rfl, h1, h3, -⟩
    · rw [if_neg (by decide), if_neg (by decide), slice_ext (by rw [h1] at hl'; simp at hl'; omega)]
      exact .ok (a := { (l.moveTo r i).setToken _ with quasi := _ })
        (moveTo_same (l := l) (r := r) (i := i) (p := p ++ bs!"`") hl (by simp [h1]) (by simp [h3]; omega)) rfl
    · rw [if_neg (by decide), if_neg (by decide), slice_ext (by rw [h1] at hl'; simp at hl'; omega)]
      exact .ok (a := { (l.moveTo r i).setToken _ with quasi := _ })
        (moveTo_same (l := l) (r := r) (i := i) (p := p ++ bs!"${") hl (by simp [h1]) (by simp [h3]; omega)) rfl
    · rw [if_pos rfl, if_pos rfl]
      exact .ok (a := (l.moveTo r i).setToken _)
        (moveTo_same (l := l) (r := r) (i := i) (p := p ++ [#b'\\']) hl (by simp [h1]) (by simp [h3]; omega)) rfl

omit hz in
theorem decodeFirst_ext {r : Bytes} {c : Nat} (h : decodeFirst r = some c) (z : Bytes) : decodeFirst (r ++ z) = some c := by
  unfold decodeFirst at h
  repeat' split at h
  all_goals first | (simp at h; done) | skip
  all_goals
    simp only [List.cons_append]
    unfold decodeFirst
    simp_all [UInt8.not_lt.2]

omit hz in
theorem decodeFirst_len {r : Bytes} {c : Nat} (h : decodeFirst r = some c) : lenUtf8 c - 1 ≤ r.length := by
  by_cases h0 : 128 ≤ next r
  · obtain ⟨x, p, s, rfl, h2, -⟩ := decodeFirst_spec h h0
    simp; omega
  · unfold decodeFirst at h
    split at h
    · simp at h
    · rename_i x r
      have hx : x < 128 := UInt8.not_le.1 (by simpa [next] using h0)
      rw [if_pos hx] at h
      simp at h
      have : x.toNat < 128 := by simpa [UInt8.lt_iff_toNat_lt] using hx
      unfold lenUtf8
      rw [if_pos (by omega)]
      simp

theorem uni_stable : Stable z uni := by
  intro l hl
  unfold uni
  cases h : decodeFirst l.rest with
  | none => exact .inl rfl
  | some c =>
    have e : decodeFirst (l.ext z).rest = _ := decodeFirst_ext h z
    rw [e]
    simp only
    refine .ite ?_ (.ok hl rfl)
    have hk := decodeFirst_len h
    generalize lenUtf8 c - 1 = k at hk
    have hd : (l.ext z).rest.drop k = l.rest.drop k ++ z := List.drop_append_of_le_length hk
    rw [hd]
    have hm : (l.moveTo (l.rest.drop k) (l.index + k)).Fits :=
      moveTo_same (l := l) (p := l.rest.take k) hl (by simp) (by simp; omega)
    exact skip_stable hz (p := legalInLabel) (by decide) .Identifier _ hm

theorem matchLeaf_same (bs : Bytes) {l : Lex} (hl : l.Fits) : Same2 z (matchLeaf bs l) (matchLeaf bs (l.ext z)) := by
  induction bs generalizing l with
  | nil =>
    unfold matchLeaf
    refine (bump_same hl).bind2 fun l hl => ?_
    exact .ok hl rfl (by rw [readByte_ext hz])
  | cons b bs ih =>
    unfold matchLeaf
    refine (bump_same hl).bind2 fun l hl => ?_
    simp only [readByte_ext hz]
    split
    · exact ih hl
    · exact .ok hl rfl rfl

mutual
theorem matchLabel_same : (t : Trie) → {l : Lex} → l.Fits → Same2 z (matchLabel t l) (matchLabel t (l.ext z))
  | .leaf bs t, l, hl => by
    unfold matchLabel
    exact (matchLeaf_same hz bs hl).bind2 fun l v hl => .ok hl rfl rfl
  | .node dflt brs, l, hl => by
    unfold matchLabel
    exact (bump_same hl).bind2 fun l hl => matchBranches_same dflt brs hl
theorem matchBranches_same : (dflt : Option Token) → (brs : List (Byte × Trie)) → {l : Lex} → l.Fits →
    Same2 z (matchBranches dflt brs l) (matchBranches dflt brs (l.ext z))
  | dflt, [], l, hl => by
    unfold matchBranches
    exact .ok hl rfl (by rw [readByte_ext hz])
  | dflt, (b, t) :: brs, l, hl => by
    unfold matchBranches
    simp only [readByte_ext hz]
    split
    · exact matchLabel_same t hl
    · exact matchBranches_same dflt brs hl
end

theorem labelHandler_stable (t : Trie) : Stable z (labelHandler t) := by
  intro l hl
  unfold labelHandler
  refine (matchLabel_same hz t hl).bind fun l v hl => ?_
  cases v with
  | some t => exact .ok hl rfl
  | none => exact skip_stable hz (p := legalInLabel) (by decide) .Identifier _ hl

theorem readRegularExpression_same {l : Lex} (hl : l.Fits) :
    Same2 z l.readRegularExpression (l.ext z).readRegularExpression := by
  unfold readRegularExpression
  cases h : regexGo false l.rest l.index with
  | none => exact .inl rfl
  | some x =>
    obtain ⟨t, r, i⟩ := x
    have e : regexGo false (l.ext z).rest (l.ext z).index = _ := regexGo_ext hz h
    rw [e]
    obtain ⟨p, c, q, h1, h2, h3, h4⟩ := regexGo_some h
    have hm : (l.moveTo r i).Fits := moveTo_same (l := l) (p := p ++ q) hl h2 (by simp [h3]; omega)
    rcases h4 with ⟨rfl, rfl, rfl⟩ | ⟨rfl, rfl, h5⟩ | ⟨rfl, rfl⟩
    · simp only [moveTo_ext, skipWhile_ext hz (p := regexFlag) (by decide)]
      have hf : (((l.moveTo r i).skipWhile regexFlag).setToken .LiteralRegEx).Fits := skipWhile_fits hm
      refine .ok hf rfl ?_
      rw [setToken_ext, slice_ext]
      · rfl
      · unfold Fits at hf; change (((l.moveTo r i).skipWhile regexFlag).setToken .LiteralRegEx).index ≤ _; omega
    · exact .ok (a := (l.moveTo r i).setToken _) hm rfl rfl
    · exact .ok (a := (l.moveTo r i).setToken _) hm rfl rfl

theorem runHandler_same {again again' : Lex → Out Lex} (ha : ∀ l, l.Fits → Same z (again l) (again' (l.ext z)))
    (h : Handler) {l : Lex} (hl : l.Fits) (hq : h = .QOT → l.readByte ≠ 0) :
    Same z (runHandler again h l) (runHandler again' h (l.ext z)) := by
  cases h <;> unfold runHandler
  case ERR | COL | COM | PNO | BTO | BTC | BEO | QST | TLD => exact single_stable hz _ l hl
  case SEM | PNC | BEC => exact (bump_same hl).bind fun l hl => .ok hl rfl
  case EOF => exact .ok hl rfl
  case WS => exact .ok hl rfl
  case EQL => exact eql_stable hz l hl
  case EXL => exact exl_stable hz l hl
  case LSS => exact lss_stable hz l hl
  case MOR => exact mor_stable hz l hl
  case CRT => exact crt_stable hz l hl
  case AMP | PIP | PLS | MIN => exact doubled_stable hz _ _ _ _ l hl
  case ATR => exact atr_stable hz l hl
  case SLH => exact slh_stable hz ha l hl
  case PRC => exact prc_stable hz l hl
  case UNI => exact uni_stable hz l hl
  case ZER => exact zer_stable hz l hl
  case DIG => exact dig_stable hz l hl
  case PRD => exact prd_stable hz l hl
  case QOT => exact qot_stable hz hl (hq rfl)
  case TPL => exact (bump_same hl).bind fun l hl => readTemplateKind_stable hz l hl
  case IDT => exact idt_stable hz l hl
  all_goals first
    | exact labelHandler_stable hz _ l hl
    | exact .ok hl rfl

theorem scan_same (n m : Nat) (h : n ≤ m) {l : Lex} (hl : l.Fits) : Same z (scan n l) (scan m (l.ext z)) := by
  induction n generalizing m l with
  | zero => exact .inr (.inl rfl)
  | succ n ih =>
    cases m with
    | zero => omega
    | succ m =>
      unfold scan
      simp only [readByte_ext hz]
      generalize hc : l.readByte = c
      refine .ite ((bump_same hl).bind fun l hl => ?_) ?_
      · by_cases hc : c = #b'\n'
        · rw [if_pos hc, if_pos hc]
          exact ih m (by omega) (l := { l with asi := .ImplicitSemicolon }) hl
        · rw [if_neg hc, if_neg hc]
          exact ih m (by omega) hl
      · refine runHandler_same hz (fun l hl => ih m (by omega) (l := { l with asi := .NoSemicolon }) hl) _
          (l := { l with tokenStart := l.index }) hl ?_
        intro he
        change l.readByte ≠ 0
        rw [hc]
        rintro rfl
        revert he
        decide

theorem consume_same {l : Lex} (hl : l.Fits) : Same z l.consume (l.ext z).consume :=
  scan_same hz _ _ (by simp [ext]) (l := { l with asi := .NoSemicolon }) hl

end Lex

/-- The parser on the longer source. -/
def PState.ext (z : Bytes) (s : PState) : PState := { s with lex := s.lex.ext z }

/-- Same result on the longer source, unless the run on the shorter source reads behind its end or does not end. -/
def SameRun {α : Type} (z : Bytes) (x y : Out (α × PState)) : Prop :=
  x = .oob ∨ x = .timeout ∨ (x = .panic ∧ y = .panic) ∨ ∃ a s, x = .ok (a, s) ∧ y = .ok (a, s.ext z)

theorem Spec.Lexing.fits {src : Bytes} {l : Lex} (h : Lexing src l) : l.Fits := by
  have := h.wf
  unfold Lex.Fits
  rw [this.rest, this.same]
  have := this.index
  simp; omega

theorem Lex.Same.run {z : Bytes} {x y : Out Lex} (h : Lex.Same z x y) (s : PState) :
    SameRun z (x.bind fun l => .ok ((), { s with lex := l })) (y.bind fun l => .ok ((), { s.ext z with lex := l })) := by
  rcases h with rfl | rfl | ⟨rfl, rfl⟩ | ⟨a, rfl, rfl, ha⟩
  · exact .inl rfl
  · exact .inr (.inl rfl)
  · exact .inr (.inr (.inl ⟨rfl, rfl⟩))
  · exact .inr (.inr (.inr ⟨(), _, rfl, rfl⟩))

theorem IsProg.ext {src z : Bytes} (hz : next z = 0) {α : Type} {pre : Lex → Prop} {m : P α} (h : IsProg src pre m)
    {s : PState} (hs : Lexing src s.lex) : SameRun z (m s) (m (s.ext z)) := by
  have hsl : ∀ {s : PState}, Lexing src s.lex → ∀ a, (s.ext z).lex.sliceSource a (s.ext z).lex.index = s.lex.sliceSource a s.lex.index :=
    fun h a => Lex.slice_ext (by rw [h.wf.same]; exact h.wf.index)
  induction h generalizing s with
  | pure a => exact .inr (.inr (.inr ⟨_, _, rfl, rfl⟩))
  | bind h _ ih ihf =>
    rw [P.bind_run, P.bind_run]
    rename_i m f _
    rcases ih hs with e | e | ⟨e, e'⟩ | ⟨a, t, e, e'⟩
    · rw [e]; exact .inl rfl
    · rw [e]; exact .inr (.inl rfl)
    · rw [e, e']; exact .inr (.inr (.inl ⟨rfl, rfl⟩))
    · rw [e, e']
      exact ihf a ((h.steps e).lexing hs)
  | tok _ ih | asi _ ih | start _ ih | stop _ ih | curLoc _ ih | quasi _ ih => exact ih _ hs
  | tokStr _ ih =>
    rename_i f _
    have e : (s.ext z).lex.tokenAsStr = s.lex.tokenAsStr := hsl hs _
    have := ih s.lex.tokenAsStr hs
    change SameRun z (f s.lex.tokenAsStr s) (f (s.ext z).lex.tokenAsStr (s.ext z))
    rw [e]; exact this
  | accStr _ ih =>
    rename_i f _
    have e : (s.ext z).lex.accessorAsStr = s.lex.accessorAsStr := hsl hs _
    have := ih s.lex.accessorAsStr hs
    change SameRun z (f s.lex.accessorAsStr s) (f (s.ext z).lex.accessorAsStr (s.ext z))
    rw [e]; exact this
  | consume => exact (Lex.consume_same hz hs.fits).run s
  | template => exact (Lex.readTemplateKind_stable hz _ hs.fits).run s
  | regex =>
    unfold Ratel.readRegex
    rcases Lex.readRegularExpression_same hz hs.fits with h | h | ⟨h, h'⟩ | ⟨a, v, h, h', -⟩
    · rw [h]; exact .inl rfl
    · rw [h]; exact .inr (.inl rfl)
    · rw [h, show (s.ext z).lex.readRegularExpression = _ from h']; exact .inr (.inr (.inl ⟨rfl, rfl⟩))
    · rw [h, show (s.ext z).lex.readRegularExpression = _ from h']; exact .inr (.inr (.inr ⟨_, _, rfl, rfl⟩))
  | error =>
    unfold Ratel.error Lex.invalidToken
    have e1 : (s.ext z).lex.token = s.lex.token := rfl
    have key : ∀ {x y : Out Lex}, Lex.Same z x y → (∀ a, x = .ok a → Lexing src a) →
        SameRun z (Out.bind (x >>= fun l' => (.ok (⟨s.lex.token, s.lex.tokenStart, s.lex.index,
            l'.sliceSource s.lex.tokenStart s.lex.index⟩, l') : Out (Err × Lex)))
            fun (e, l) => .ok ((), ⟨l, s.errors ++ [e]⟩))
          (Out.bind (y >>= fun l' => (.ok (⟨s.lex.token, s.lex.tokenStart, s.lex.index,
            l'.sliceSource s.lex.tokenStart s.lex.index⟩, l') : Out (Err × Lex)))
            fun (e, l) => .ok ((), ⟨l, s.errors ++ [e]⟩)) := by
      intro x y h hx
      rcases h with rfl | rfl | ⟨rfl, rfl⟩ | ⟨a, rfl, rfl, ha⟩
      · exact .inl rfl
      · exact .inr (.inl rfl)
      · exact .inr (.inr (.inl ⟨rfl, rfl⟩))
      · refine .inr (.inr (.inr ⟨(), _, rfl, ?_⟩))
        have hw := (hx a rfl).wf
        simp only [Out.bind_ok, Out.bind]
        rw [Lex.slice_ext (by rw [hw.same]; exact hs.wf.index)]
        rfl
    by_cases ht : s.lex.token = .EndOfProgram
    · rw [if_pos ht, if_pos (e1.trans ht)]
      exact key (.ok hs.fits rfl) (by intro a ha; cases ha; exact hs)
    · rw [if_neg ht, if_neg (fun h => ht (e1.symm.trans h))]
      exact key (Lex.consume_same hz hs.fits) (fun a ha => hs.consume ha)
  | timeout => exact .inr (.inl rfl)
  | panic => exact .inr (.inr (.inl ⟨rfl, rfl⟩))

/-- A source that continues with a NUL is parsed like the part in front of the NUL. -/
theorem parse_ext {fuel : Nat} {src z : Bytes} (hz : next z = 0) (h1 : parse fuel src ≠ .oob)
    (h2 : parse fuel src ≠ .timeout) : parse fuel (src ++ z) = parse fuel src := by
  unfold parse runParser at *
  have hn : Lex.Same z (Lex.new src) (Lex.new (src ++ z)) :=
    Lex.consume_same hz (l := Lex.init src) (by simp [Lex.Fits, Lex.init])
  rcases hn with h | h | ⟨h, h'⟩ | ⟨l, h, h', -⟩
  · rw [h] at h1; exact absurd rfl h1
  · rw [h] at h2; exact absurd rfl h2
  · rw [h, h']
  · rw [h'] 
    rw [h] at h1 h2 ⊢
    simp only [Out.bind] at h1 h2 ⊢
    have := (Known.is : IsProg src _ (program fuel (procs fuel))).ext hz (s := ⟨l, []⟩) (.new h)
    simp only [PState.ext] at this
    rcases this with e | e | ⟨e, e'⟩ | ⟨a, s, e, e'⟩
    · rw [e] at h1; exact absurd rfl h1
    · rw [e] at h2; exact absurd rfl h2
    · rw [e, e']
    · rw [e, e']; rfl

end Ratel
