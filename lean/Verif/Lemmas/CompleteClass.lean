import Verif.Lemmas.CompleteParts
/-! The parser finds every phrase of the grammar: classes. -/
namespace Ratel
open Spec
set_option linter.unusedSectionVars false
set_option linter.unusedSimpArgs false
variable [Unicode]
variable {k : Nat} {i m n o q j : List Item} {e a b c : Expr}

namespace Complete

def Member (i : List Item) (x : ClassMember) (j : List Item) : Prop :=
  closes (look i) = false ∧ Parses (fun n => classMember n (procs n)) bareMember i x j

def MemberValue (i : List Item) (s : Bool) (kd : MethodKind) (k : PropKey) (x : ClassMember) (j : List Item) : Prop :=
  ∀ st k', bareKey k' = k → Parses (fun n => classMemberValue n (procs n) st s kd k') bareMember i x j

/-- An optional semicolon after a member. -/
theorem optSemi (h : OptSemi i j) : ∀ l, Stream l i → ∃ l', Stream l' j ∧
    ((l.token = .Semicolon ∧ l.consume = .ok l') ∨ (l.token ≠ .Semicolon ∧ l = l')) := by
  intro l hl
  cases h with
  | written h =>
    obtain ⟨ht, l1, hc, hl1⟩ := hl.tk h
    exact ⟨l1, hl1, .inl ⟨ht, hc⟩⟩
  | absent h =>
    exact ⟨l, hl, .inr ⟨by rw [hl.token]; exact h, rfl⟩⟩

theorem optSemi_bind {β : Type} {f : Nat → P β} {b : β} {l l1 l' : Lex}
    (h : (l.token = .Semicolon ∧ l.consume = .ok l1) ∨ (l.token ≠ .Semicolon ∧ l = l1))
    (hf : Ev f l1 b l') : Ev (fun n => do
      if l.token = .Semicolon then do
        consume
        f n
      else f n) l b l' := by
  rcases h with ⟨ht, hc⟩ | ⟨ht, rfl⟩
  · simp only [ht, if_true]
    exact Ev.run_consume hc hf
  · simp only [ht, if_false]
    exact hf

theorem memberMethod {s : Bool} {kd : MethodKind} {k : PropKey} {f : Func} (h : look i = .ParenOpen)
    (h1 : Parses (fun n => functionParse n (procs n) (kindOf .never)) bareFunc i f m) (h2 : OptSemi m j) :
      MemberValue i s kd k (.method z s k kd z f) j := by
  intro st k' hk l hl
  have ht : l.token = .ParenOpen := by rw [hl.token]; exact h
  obtain ⟨⟨x, f'⟩, l1, hf, hl1, hev⟩ := method_run h1 l hl
  obtain ⟨l2, hl2, hev2⟩ := optSemi h2 l1 hl1
  simp only at hf
  apply Found.intro
  · unfold classMemberValue
    ev [ht]
    with_reducible apply optSemi_bind hev2
    ev []
  · assumption
  · simp only [bareMember, hf, hk]

theorem memberField {s : Bool} {kd : MethodKind} {k : PropKey} (h : Tk .OperatorAssign i m) (h1 : Finds 1 m e n)
    (h2 : OptSemi n j) : MemberValue i s kd k (.literal z s k e) j := by
  intro st k' hk l hl
  obtain ⟨ht, l1, hc, hl1⟩ := hl.tk h
  obtain ⟨e', l2, he, hl2, hev⟩ := h1.run (c := .DEF) (L := .B0) rfl l1 hl1
  obtain ⟨l3, hl3, hev3⟩ := optSemi h2 l2 hl2
  apply Found.intro
  · unfold classMemberValue
    ev [ht]
    with_reducible apply optSemi_bind hev3
    ev []
  · assumption
  · simp only [bareMember, he, hk]

theorem static {s : Bool} (h : StaticAt i s m) : ∀ l, Stream l i → ∃ l', Stream l' m ∧ Ev (fun _ => do
    if (← tok) = .Static then
      consume
      pure true
    else pure false) l s l' := by
  intro l hl
  cases h with
  | yes h =>
    obtain ⟨ht, l1, hc, hl1⟩ := hl.tk h
    refine ⟨l1, hl1, ?_⟩
    ev [ht]
  | no h =>
    have ht : l.token ≠ .Static := by rw [hl.token]; exact h
    refine ⟨l, hl, ?_⟩
    ev [ht]

theorem static_first {s : Bool} (h : StaticAt i s m) (hm : closes (look m) = false) : closes (look i) = false := by
  cases h with
  | yes h => rw [h.look]; rfl
  | no _ => exact hm

theorem memberWord {s : Bool} {t : Token} {w : Bytes} {x : ClassMember} (h : StaticAt i s m) (h1 : Wd t w m n)
      (ht : t.isWord = true) (hn : (look n).isWord = false)
      (h2 : MemberValue n s (if s = false ∧ w = bs!"constructor" then .Constructor else .Method) (.literal z w) x j) :
      Member i x j := by
  refine ⟨static_first h (by rw [h1.look, not_closes]; exact ⟨(isWord_plain ht).2.2.2.1, (isWord_plain ht).2.2.2.2.1⟩),
    fun l hl => ?_⟩
  obtain ⟨l1, hl1, hev⟩ := static h l hl
  obtain ⟨ht1, hw, l2, hc, hl2⟩ := hl1.wd h1
  have hw := word_text ht1 hw ht
  have hn : l2.token.isWord = false := by rw [hl2.token]; exact hn
  obtain ⟨p', l3, hp, hl3, hev3⟩ := h2 l.tokenStart (.literal ⟨l1.tokenStart, l1.index⟩ l1.tokenAsStr)
    (by simp only [bareKey, hw]) l2 hl2
  refine ⟨p', l3, hp, hl3, ?_⟩
  unfold classMember
  refine Ev.start.mpr ?_
  with_reducible apply Ev.bind hev
  by_cases hcon : s = false ∧ w = bs!"constructor"
  · rw [if_pos hcon] at hev3
    ev [ht1, ht, hn, hw, hcon, Bool.false_eq_true]
    simpa only [hw, hcon.1, hcon.2] using hev3
  · rw [if_neg hcon] at hev3
    ev [ht1, ht, hn, hw, hcon, Bool.false_eq_true]
    simpa only [hw] using hev3

theorem memberGet {s : Bool} {t t' : Token} {w : Bytes} {x : ClassMember} (h : StaticAt i s m) (h1 : Wd t bs!"get" m n)
      (ht : t.isWord = true) (h2 : Wd t' w n o) (ht' : t'.isWord = true)
      (h3 : MemberValue o s .Get (.literal z w) x j) : Member i x j := by
  refine ⟨static_first h (by rw [h1.look, not_closes]; exact ⟨(isWord_plain ht).2.2.2.1, (isWord_plain ht).2.2.2.2.1⟩),
    fun l hl => ?_⟩
  obtain ⟨l1, hl1, hev⟩ := static h l hl
  obtain ⟨ht1, hw, l2, hc, hl2⟩ := hl1.wd h1
  have hw := word_text ht1 hw ht
  obtain ⟨ht2, hw2, l3, hc3, hl3⟩ := hl2.wd h2
  have hw2 := word_text ht2 hw2 ht'
  obtain ⟨p', l4, hp, hl4, hev4⟩ := h3 l.tokenStart (.literal ⟨l1.tokenStart, l1.index⟩ l2.tokenAsStr)
    (by simp only [bareKey, hw2]) l3 hl3
  refine ⟨p', l4, hp, hl4, ?_⟩
  unfold classMember
  refine Ev.start.mpr ?_
  with_reducible apply Ev.bind hev
  ev [ht1, ht, ht2, ht', hw, Bool.false_eq_true]

theorem memberSet {s : Bool} {t t' : Token} {w : Bytes} {x : ClassMember} (h : StaticAt i s m) (h1 : Wd t bs!"set" m n)
      (ht : t.isWord = true) (h2 : Wd t' w n o) (ht' : t'.isWord = true)
      (h3 : MemberValue o s .Set (.literal z w) x j) : Member i x j := by
  refine ⟨static_first h (by rw [h1.look, not_closes]; exact ⟨(isWord_plain ht).2.2.2.1, (isWord_plain ht).2.2.2.2.1⟩),
    fun l hl => ?_⟩
  obtain ⟨l1, hl1, hev⟩ := static h l hl
  obtain ⟨ht1, hw, l2, hc, hl2⟩ := hl1.wd h1
  have hw := word_text ht1 hw ht
  obtain ⟨ht2, hw2, l3, hc3, hl3⟩ := hl2.wd h2
  have hw2 := word_text ht2 hw2 ht'
  obtain ⟨p', l4, hp, hl4, hev4⟩ := h3 l.tokenStart (.literal ⟨l1.tokenStart, l1.index⟩ l2.tokenAsStr)
    (by simp only [bareKey, hw2]) l3 hl3
  refine ⟨p', l4, hp, hl4, ?_⟩
  unfold classMember
  refine Ev.start.mpr ?_
  with_reducible apply Ev.bind hev
  have hne : (bs!"set" : Bytes) ≠ bs!"get" := by decide
  ev [ht1, ht, ht2, ht', hw, hne, Bool.false_eq_true]

theorem memberNumber {s : Bool} {w : Bytes} {x : ClassMember} (h : StaticAt i s m) (h1 : Wd .LiteralNumber w m n)
      (h2 : MemberValue n s .Method (.literal z w) x j) : Member i x j := by
  refine ⟨static_first h (by rw [h1.look]; rfl), fun l hl => ?_⟩
  obtain ⟨l1, hl1, hev⟩ := static h l hl
  obtain ⟨ht1, hw, l2, hc, hl2⟩ := hl1.wd h1
  have hw := text_of ht1 hw
  obtain ⟨p', l4, hp, hl4, hev4⟩ := h2 l.tokenStart (.literal ⟨l1.tokenStart, l1.index⟩ l1.tokenAsStr)
    (by simp only [bareKey, hw]) l2 hl2
  refine ⟨p', l4, hp, hl4, ?_⟩
  unfold classMember
  refine Ev.start.mpr ?_
  with_reducible apply Ev.bind hev
  have hx : Token.isWord .LiteralNumber = false := by decide +kernel
  ev [ht1, hx, Bool.false_eq_true]

theorem memberBinary {s : Bool} {w : Bytes} {x : ClassMember} (h : StaticAt i s m) (h1 : Wd .LiteralBinary w m n)
      (h2 : MemberValue n s .Method (.binary z w) x j) : Member i x j := by
  refine ⟨static_first h (by rw [h1.look]; rfl), fun l hl => ?_⟩
  obtain ⟨l1, hl1, hev⟩ := static h l hl
  obtain ⟨ht1, hw, l2, hc, hl2⟩ := hl1.wd h1
  have hw := text_of ht1 hw
  obtain ⟨p', l4, hp, hl4, hev4⟩ := h2 l.tokenStart (.binary ⟨l1.tokenStart, l1.index⟩ l1.tokenAsStr)
    (by simp only [bareKey, hw]) l2 hl2
  refine ⟨p', l4, hp, hl4, ?_⟩
  unfold classMember
  refine Ev.start.mpr ?_
  with_reducible apply Ev.bind hev
  have hx : Token.isWord .LiteralBinary = false := by decide +kernel
  ev [ht1, hx, Bool.false_eq_true]

theorem memberComputed {s : Bool} {x : ClassMember} (h : StaticAt i s m) (h1 : Tk .BracketOpen m n) (h2 : Finds 0 n e o)
      (h3 : Tk .BracketClose o q) (h4 : MemberValue q s .Method (.computed z e) x j) : Member i x j := by
  refine ⟨static_first h (by rw [h1.look]; rfl), fun l hl => ?_⟩
  obtain ⟨l1, hl1, hev⟩ := static h l hl
  obtain ⟨ht1, l2, hc, hl2⟩ := hl1.tk h1
  obtain ⟨e', l3, he, hl3, hev3⟩ := h2.run (c := .DEF) (L := .ANY) rfl l2 hl2
  obtain ⟨ht4, l4, hc4, hl4⟩ := hl3.tk h3
  obtain ⟨p', l5, hp, hl5, hev5⟩ := h4 l.tokenStart (.computed ⟨l1.tokenStart, l3.index⟩ e')
    (by simp only [bareKey, he]) l4 hl4
  refine ⟨p', l5, hp, hl5, ?_⟩
  unfold classMember
  refine Ev.start.mpr ?_
  with_reducible apply Ev.bind hev
  have hx : Token.isWord .BracketOpen = false := by decide +kernel
  ev [ht1, hx, Bool.false_eq_true]

abbrev MTail (i : List Item) (ms : List ClassMember) (j : List Item) : Prop :=
  Tail (fun n => classMember n (procs n)) bareMember i ms j

abbrev Cls (nk : Naming) (i : List Item) (c : Class) (j : List Item) : Prop :=
  Parses (fun n => classParse n (procs n) (kindOf nk)) bareClass i c j

theorem cls {nk : Naming} {nm : Name} {ms : List ClassMember} (h : NameAt nk i nm m) (h1 : Tk .BraceOpen m n)
    (h2 : MTail n ms j) (h0 : ms = [] → n ≠ []) : Cls nk i (.mk nm none z ms) j := by
  intro l hl
  obtain ⟨nm', l1, hnm, hl1, hev⟩ := name h l hl
  have ht : l1.token = .BraceOpen := by rw [hl1.token]; exact h1.look
  obtain ⟨⟨x, b⟩, l2, hb, hl2, hev2⟩ := block_run h1 h2 h0 l1 hl1
  simp only at hb
  apply Found.intro
  · unfold classParse
    ev [ht]
  · assumption
  · simp only [bareClass, bareMembers_map, hnm, hb]

theorem clsExtends {nk : Naming} {nm : Name} {ms : List ClassMember} (h : NameAt nk i nm m) (h1 : Tk .Extends m n)
    (h2 : Finds 1 n e o) (h3 : Tk .BraceOpen o q) (h4 : MTail q ms j) (h0 : ms = [] → q ≠ []) :
      Cls nk i (.mk nm (some e) z ms) j := by
  intro l hl
  obtain ⟨nm', l1, hnm, hl1, hev⟩ := name h l hl
  obtain ⟨ht, l2, hc, hl2⟩ := hl1.tk h1
  obtain ⟨e', l3, he, hl3, hev3⟩ := h2.run (c := .DEF) (L := .B0) rfl l2 hl2
  obtain ⟨⟨x, b⟩, l4, hb, hl4, hev4⟩ := block_run h3 h4 h0 l3 hl3
  simp only at hb
  apply Found.intro
  · unfold classParse
    ev [ht]
  · assumption
  · simp only [bareClass, bareMembers_map, hnm, hb, he]

theorem «class» {c : Class} (h : Tk .Class i m) (h1 : Cls .optional m c j) : Opens k i (.class z c) j := by
  refine Opens.head (h := .CLAS) (by rw [h.look]; decide +kernel) (by decide) fun l hl => ?_
  obtain ⟨ht, l1, hc, hl1⟩ := hl.tk h
  obtain ⟨f', l2, hf, hl2, hev⟩ := h1 l1 hl1
  simp only [kindOf] at hev
  apply Found.intro
  · unfold runEH
    ev []
  · assumption
  · simp only [bareExpr, hf]

end Complete
end Ratel
