import Verif.Lexer
import Verif.Spec.Lexemes
/-! Lemmas about single calls of the lexer. -/
namespace Ratel
open Spec (TplBody StrBody Lexeme Number Trivia TriviaPiece next)

/-- An outcome: `Q` for a normal result, `O`, `A`, `T` for a read out of bounds, a panic, a
timeout. -/
def Out.Sat (x : Out α) (Q : α → Prop) (O A T : Prop) : Prop :=
  match x with
  | .ok a => Q a
  | .oob => O
  | .panic => A
  | .timeout => T

theorem Out.Sat.mono {x : Out α} {Q Q' : α → Prop} {O O' A A' T T' : Prop} (h : x.Sat Q O A T)
    (hQ : ∀ a, x = .ok a → Q a → Q' a) (hO : O → O') (hA : A → A') (hT : T → T') : x.Sat Q' O' A' T' := by
  cases x
  · exact hQ _ rfl h
  · exact hO h
  · exact hA h
  · exact hT h

theorem Out.Sat.bind {x : Out α} {f : α → Out β} {Q : α → Prop} {Q' : β → Prop} {O A T : Prop}
    (h : x.Sat Q O A T) (h' : ∀ a, Q a → (f a).Sat Q' O A T) : (x >>= f).Sat Q' O A T := by
  cases x
  · exact h' _ h
  · exact h
  · exact h
  · exact h

theorem Out.Sat.ite {c : Prop} [Decidable c] {x y : Out α} {Q : α → Prop} {O A T : Prop}
    (h : c → x.Sat Q O A T) (h' : ¬c → y.Sat Q O A T) : (if c then x else y).Sat Q O A T := by
  split
  · exact h ‹_›
  · exact h' ‹_›

theorem Out.Sat.of_ok {x : Out α} {Q : α → Prop} {O A T : Prop} (h : x.Sat Q O A T) {a : α}
    (e : x = .ok a) : Q a := by rw [e] at h; exact h

namespace Lex

/-- `l'` is `l` moved forward over the text `p`; token, `quasi` and `accessorStart` may have changed. -/
structure Over (p : Bytes) (l l' : Lex) : Prop where
  src : l'.src = l.src
  tokenStart : l'.tokenStart = l.tokenStart
  rest : l.rest = p ++ l'.rest
  index : l'.index = l.index + p.length
  asi : l'.asi = l.asi

theorem Over.refl (l : Lex) : Over [] l l := ⟨rfl, rfl, rfl, rfl, rfl⟩

theorem Over.trans {p q : Bytes} {a b c : Lex} (h : Over p a b) (h' : Over q b c) : Over (p ++ q) a c :=
  ⟨h'.src.trans h.src, h'.tokenStart.trans h.tokenStart, by rw [h.rest, h'.rest, List.append_assoc],
    by rw [h'.index, h.index, List.length_append, Nat.add_assoc], h'.asi.trans h.asi⟩

theorem Over.setToken {p : Bytes} {a b : Lex} (h : Over p a b) (t : Token) : Over p a (b.setToken t) :=
  ⟨h.src, h.tokenStart, h.rest, h.index, h.asi⟩

theorem skipWhileGo_eq (p : Byte → Bool) (r : Bytes) (i : Nat) :
    skipWhileGo p r i = (r.dropWhile p, i + (r.takeWhile p).length) := by
  induction r generalizing i with
  | nil => simp [skipWhileGo]
  | cons c r ih =>
    simp only [skipWhileGo, List.dropWhile_cons, List.takeWhile_cons]
    split
    · rw [ih]; simp; omega
    · simp

theorem over_skipWhile (p : Byte → Bool) (l : Lex) : Over (l.rest.takeWhile p) l (l.skipWhile p) := by
  unfold skipWhile
  rw [skipWhileGo_eq]
  exact ⟨rfl, rfl, (List.takeWhile_append_dropWhile).symm, rfl, rfl⟩

@[simp] theorem rest_skipWhile (p : Byte → Bool) (l : Lex) : (l.skipWhile p).rest = l.rest.dropWhile p := by
  unfold skipWhile
  rw [skipWhileGo_eq]
  rfl

@[simp] theorem token_skipWhile (p : Byte → Bool) (l : Lex) : (l.skipWhile p).token = l.token := rfl
@[simp] theorem asi_skipWhile (p : Byte → Bool) (l : Lex) : (l.skipWhile p).asi = l.asi := rfl
@[simp] theorem quasi_skipWhile (p : Byte → Bool) (l : Lex) : (l.skipWhile p).quasi = l.quasi := rfl
@[simp] theorem accessorStart_skipWhile (p : Byte → Bool) (l : Lex) :
    (l.skipWhile p).accessorStart = l.accessorStart := rfl

theorem readByte_ne {l : Lex} (h : l.readByte ≠ 0) : ∃ r, l.rest = l.readByte :: r := by
  unfold readByte at *
  cases hr : l.rest with
  | nil => simp [hr] at h
  | cons c r => exact ⟨r, rfl⟩

/-- The state after `bump` on `c :: r`. -/
theorem bump_cons {l : Lex} {c : Byte} {r : Bytes} (h : l.rest = c :: r) :
    l.bump = .ok { l with rest := r, index := l.index + 1 } := by
  simp [bump, h]

theorem over_bump {l : Lex} {c : Byte} {r : Bytes} (h : l.rest = c :: r) :
    Over [c] l { l with rest := r, index := l.index + 1 } := ⟨rfl, rfl, h, rfl, rfl⟩

/-! ### The loops -/

theorem accessorGo_some {r : Bytes} {i : Nat} {c : Byte} {s : Bytes} {j : Nat}
    (h : accessorGo r i = some (c, s, j)) :
    ∃ p t, (∀ b ∈ p, b ≤ 0x20) ∧ r = p ++ s ∧ s = c :: t ∧ 0x20 < c ∧ j = i + p.length := by
  induction r generalizing i with
  | nil => simp [accessorGo] at h
  | cons b r ih =>
    rw [accessorGo] at h
    split at h
    · simp only [Option.some.injEq, Prod.mk.injEq] at h
      obtain ⟨rfl, rfl, rfl⟩ := h
      exact ⟨[], r, by simp, rfl, rfl, ‹_›, rfl⟩
    · rename_i hb
      obtain ⟨p, t, hp, hr, hs, hc, hj⟩ := ih h
      refine ⟨b :: p, t, ?_, by simp [hr], hs, hc, by simp [hj]; omega⟩
      intro x hx
      simp at hx
      rcases hx with rfl | hx
      · simpa using hb
      · exact hp x hx

theorem accessorGo_none {r : Bytes} {i : Nat} : accessorGo r i = none ↔ ∀ b ∈ r, b ≤ 0x20 := by
  induction r generalizing i with
  | nil => simp [accessorGo]
  | cons b r ih =>
    rw [accessorGo]
    split
    · rename_i hb
      simp only [reduceCtorEq, List.mem_cons, forall_eq_or_imp, false_iff, not_and]
      intro h
      exact absurd hb (by simpa using h)
    · rename_i hb
      simp only [ih, List.mem_cons, forall_eq_or_imp]
      simp at hb
      simp [hb]

theorem templateGo_some {r : Bytes} {i : Nat} {t : Token} {e : Nat} {s : Bytes} {j : Nat}
    (h : templateGo r i = some (t, e, s, j)) :
    ∃ p, TplBody p ∧
      ((t = .TemplateClosed ∧ r = p ++ #b'`' :: s ∧ e = i + p.length ∧ j = i + p.length + 1) ∨
       (t = .TemplateOpen ∧ r = p ++ #b'$' :: #b'{' :: s ∧ e = i + p.length ∧ j = i + p.length + 2) ∨
       (t = .UnexpectedEndOfProgram ∧ r = p ++ #b'\\' :: s ∧ j = i + p.length + 1 ∧ next s = 0)) := by
  fun_induction templateGo r i
  case case1 => simp at h
  case case2 =>
    simp at h
    obtain ⟨rfl, rfl, rfl, rfl⟩ := h
    exact ⟨[], .nil, Or.inl ⟨rfl, rfl, rfl, rfl⟩⟩
  case case3 => simp at h
  case case4 =>
    simp at h
    obtain ⟨rfl, rfl, rfl, rfl⟩ := h
    exact ⟨[], .nil, Or.inr (Or.inl ⟨rfl, rfl, rfl, rfl⟩)⟩
  case case5 i d r' hd hd' ih =>
    obtain ⟨p, hp, h'⟩ := ih h
    refine ⟨#b'$' :: p, .dollar ?_ hp, ?_⟩
    · intro hh
      cases p with
      | nil =>
        simp at hh
      | cons x p =>
        simp at hh
        subst hh
        rcases h' with h' | h' | h' <;> simp at h' <;> exact hd h'.2.1.1
    · rcases h' with ⟨h1, h2, h3, h4⟩ | ⟨h1, h2, h3, h4⟩ | ⟨h1, h2, h3, h4⟩
      · exact Or.inl ⟨h1, by simp [h2], by simp; omega, by simp; omega⟩
      · exact Or.inr (Or.inl ⟨h1, by simp [h2], by simp; omega, by simp; omega⟩)
      · exact Or.inr (Or.inr ⟨h1, by simp [h2], by simp; omega, h4⟩)
  case case6 =>
    simp at h
    obtain ⟨rfl, rfl, rfl, rfl⟩ := h
    exact ⟨[], .nil, Or.inr (Or.inr ⟨rfl, rfl, rfl, rfl⟩)⟩
  case case7 =>
    simp at h
    obtain ⟨rfl, rfl, rfl, rfl⟩ := h
    exact ⟨[], .nil, Or.inr (Or.inr ⟨rfl, rfl, rfl, rfl⟩)⟩
  case case8 i d r' hd _ _ ih =>
    obtain ⟨p, hp, h'⟩ := ih h
    refine ⟨#b'\\' :: d :: p, .esc hd hp, ?_⟩
    rcases h' with ⟨h1, h2, h3, h4⟩ | ⟨h1, h2, h3, h4⟩ | ⟨h1, h2, h3, h4⟩
    · exact Or.inl ⟨h1, by simp [h2], by simp; omega, by simp; omega⟩
    · exact Or.inr (Or.inl ⟨h1, by simp [h2], by simp; omega, by simp; omega⟩)
    · exact Or.inr (Or.inr ⟨h1, by simp [h2], by simp; omega, h4⟩)
  case case9 c r i h1 h2 h3 ih =>
    obtain ⟨p, hp, h'⟩ := ih h
    refine ⟨c :: p, .plain h1 h3 h2 hp, ?_⟩
    rcases h' with ⟨h1, h2, h3, h4⟩ | ⟨h1, h2, h3, h4⟩ | ⟨h1, h2, h3, h4⟩
    · exact Or.inl ⟨h1, by simp [h2], by simp; omega, by simp; omega⟩
    · exact Or.inr (Or.inl ⟨h1, by simp [h2], by simp; omega, by simp; omega⟩)
    · exact Or.inr (Or.inr ⟨h1, by simp [h2], by simp; omega, h4⟩)

theorem quoteGo_spec {q : Byte} {r : Bytes} {i : Nat} {t : Token} {s : Bytes} {j : Nat}
    (h : quoteGo q r i = (t, s, j)) :
    ∃ p, StrBody q p ∧
      ((t = .LiteralString ∧ r = p ++ q :: s ∧ j = i + p.length + 1) ∨
       (t = .UnexpectedEndOfProgram ∧ r = p ++ s ∧ j = i + p.length ∧ next s = 0) ∨
       (t = .UnexpectedEndOfProgram ∧ r = p ++ #b'\\' :: s ∧ j = i + p.length + 1 ∧ next s = 0)) := by
  fun_induction quoteGo q r i
  case case1 =>
    simp at h
    obtain ⟨rfl, rfl, rfl⟩ := h
    exact ⟨[], .nil, Or.inr (Or.inl ⟨rfl, rfl, rfl, rfl⟩)⟩
  case case2 =>
    simp at h
    obtain ⟨rfl, rfl, rfl⟩ := h
    exact ⟨[], .nil, Or.inl ⟨rfl, rfl, rfl⟩⟩
  case case3 =>
    simp at h
    obtain ⟨rfl, rfl, rfl⟩ := h
    exact ⟨[], .nil, Or.inr (Or.inr ⟨rfl, rfl, rfl, rfl⟩)⟩
  case case4 =>
    simp at h
    obtain ⟨rfl, rfl, rfl⟩ := h
    exact ⟨[], .nil, Or.inr (Or.inr ⟨rfl, rfl, rfl, rfl⟩)⟩
  case case5 i d r' hd _ ih =>
    obtain ⟨p, hp, h'⟩ := ih h
    refine ⟨#b'\\' :: d :: p, .esc hd hp, ?_⟩
    rcases h' with ⟨h1, h2, h3⟩ | ⟨h1, h2, h3, h4⟩ | ⟨h1, h2, h3, h4⟩
    · exact Or.inl ⟨h1, by simp [h2], by simp; omega⟩
    · exact Or.inr (Or.inl ⟨h1, by simp [h2], by simp; omega, h4⟩)
    · exact Or.inr (Or.inr ⟨h1, by simp [h2], by simp; omega, h4⟩)
  case case6 =>
    simp at h
    obtain ⟨rfl, rfl, rfl⟩ := h
    exact ⟨[], .nil, Or.inr (Or.inl ⟨rfl, rfl, rfl, rfl⟩)⟩
  case case7 c r i h1 h2 h3 ih =>
    obtain ⟨p, hp, h'⟩ := ih h
    refine ⟨c :: p, .plain h1 h2 h3 hp, ?_⟩
    rcases h' with ⟨h1, h2, h3⟩ | ⟨h1, h2, h3, h4⟩ | ⟨h1, h2, h3, h4⟩
    · exact Or.inl ⟨h1, by simp [h2], by simp; omega⟩
    · exact Or.inr (Or.inl ⟨h1, by simp [h2], by simp; omega, h4⟩)
    · exact Or.inr (Or.inr ⟨h1, by simp [h2], by simp; omega, h4⟩)

theorem blockCommentGo_spec {r : Bytes} {i : Nat} {b : Bool} {s : Bytes} {j : Nat}
    (h : blockCommentGo r i = (b, s, j)) :
    ∃ p, (∀ x ∈ p, x ≠ 0) ∧ ¬ bs!"*/" <:+: p ∧
      ((b = true ∧ r = p ++ #b'*' :: #b'/' :: s ∧ j = i + p.length + 2) ∨
       (b = false ∧ r = p ++ s ∧ j = i + p.length ∧ next s = 0)) := by
  fun_induction blockCommentGo r i
  case case1 =>
    simp at h
    obtain ⟨rfl, rfl, rfl⟩ := h
    exact ⟨[], by simp, by decide, Or.inr ⟨rfl, rfl, rfl, rfl⟩⟩
  case case2 =>
    simp at h
    obtain ⟨rfl, rfl, rfl⟩ := h
    exact ⟨[#b'*'], by simp, by decide, Or.inr ⟨rfl, rfl, rfl, rfl⟩⟩
  case case3 =>
    simp at h
    obtain ⟨rfl, rfl, rfl⟩ := h
    exact ⟨[], by simp, by decide, Or.inl ⟨rfl, rfl, rfl⟩⟩
  case case4 =>
    simp at h
    obtain ⟨rfl, rfl, rfl⟩ := h
    exact ⟨[#b'*'], by simp, by decide, Or.inr ⟨rfl, rfl, rfl, rfl⟩⟩
  case case5 i d r' hd hd0 ih =>
    obtain ⟨p, hp, hi, h'⟩ := ih h
    refine ⟨#b'*' :: p, by simpa using hp, ?_, ?_⟩
    · rw [List.infix_cons_iff]
      rintro (hh | hh)
      · cases p with
        | nil => simp at hh
        | cons x p =>
          simp at hh
          subst hh
          rcases h' with h' | h' <;> simp at h' <;> exact hd h'.2.1.1
      · exact hi hh
    · rcases h' with ⟨h1, h2, h3⟩ | ⟨h1, h2, h3, h4⟩
      · exact Or.inl ⟨h1, by simp [h2], by simp; omega⟩
      · exact Or.inr ⟨h1, by simp [h2], by simp; omega, h4⟩
  case case6 =>
    simp at h
    obtain ⟨rfl, rfl, rfl⟩ := h
    exact ⟨[], by simp, by decide, Or.inr ⟨rfl, rfl, rfl, rfl⟩⟩
  case case7 c r i h1 h2 ih =>
    obtain ⟨p, hp, hi, h'⟩ := ih h
    refine ⟨c :: p, by simpa [h2] using hp, ?_, ?_⟩
    · rw [List.infix_cons_iff]
      rintro (hh | hh)
      · simp at hh
        exact h1 hh.1.symm
      · exact hi hh
    · rcases h' with ⟨h1, h2, h3⟩ | ⟨h1, h2, h3, h4⟩
      · exact Or.inl ⟨h1, by simp [h2], by simp; omega⟩
      · exact Or.inr ⟨h1, by simp [h2], by simp; omega, h4⟩

end Lex
end Ratel
