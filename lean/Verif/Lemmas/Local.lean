import Verif.Lemmas.Truncate
/-! The lexer looks at most four bytes ahead of the position it reports: two sources with a common beginning
are lexed alike as long as the position is four bytes in front of the first difference. -/
namespace Ratel
open Spec

set_option linter.unusedSectionVars false
variable [Unicode]

namespace Lex

/-- Never moves back. -/
def Climbs {α : Type} (f : Lex → Out α) (at_ : α → Lex) : Prop := ∀ l b, f l = .ok b → l.index ≤ (at_ b).index

/-- For a source that starts with `l.src`: either the outcome is the same whatever follows, or the lexer has come
close to the end of `l.src` (or not returned). -/
def Split (f : Lex → Out Lex) (l : Lex) : Prop :=
  (∃ a : Lex, a.Fits ∧ a.src = l.src ∧ ∀ z, f (l.ext z) = .ok (a.ext z)) ∨
  ∀ z b, f (l.ext z) = .ok b → l.src.length < b.index + 4

structure Local (f : Lex → Out Lex) : Prop where
  climbs : Climbs f id
  split : ∀ l, l.Fits → Split f l

/-- The same for functions with a result. -/
def Split2 {α : Type} (f : Lex → Out (Lex × α)) (l : Lex) : Prop :=
  (∃ (a : Lex) (v : α), a.Fits ∧ a.src = l.src ∧ ∀ z, f (l.ext z) = .ok (a.ext z, v)) ∨
  ∀ z b, f (l.ext z) = .ok b → l.src.length < b.1.index + 4

structure Local2 {α : Type} (f : Lex → Out (Lex × α)) : Prop where
  climbs : Climbs f Prod.fst
  split : ∀ l, l.Fits → Split2 f l

theorem Local.bind {f g : Lex → Out Lex} (hf : Local f) (hg : Local g) : Local fun l => f l >>= g := by
  refine ⟨fun l b h => ?_, fun l hl => ?_⟩
  · obtain ⟨a, h1, h2⟩ := Out.bind_eq_ok.1 h
    exact Nat.le_trans (hf.climbs _ _ h1) (hg.climbs _ _ h2)
  · rcases hf.split l hl with ⟨a, h1, h2, h3⟩ | h
    · rcases hg.split a h1 with ⟨b, h4, h5, h6⟩ | h'
      · exact .inl ⟨b, h4, h5.trans h2, fun z => by simp only [h3]; exact h6 z⟩
      · refine .inr fun z b hb => ?_
        simp only [h3] at hb
        rw [← h2]
        exact h' z b hb
    · refine .inr fun z b hb => ?_
      obtain ⟨a, h1, h2⟩ := Out.bind_eq_ok.1 hb
      have := h z a h1
      have := hg.climbs _ _ h2
      simp only [id] at this
      omega

theorem Local.bind2 {α : Type} {f : Lex → Out Lex} {g : Lex → Out (Lex × α)} (hf : Local f) (hg : Local2 g) :
    Local2 fun l => f l >>= g := by
  refine ⟨fun l b h => ?_, fun l hl => ?_⟩
  · obtain ⟨a, h1, h2⟩ := Out.bind_eq_ok.1 h
    exact Nat.le_trans (hf.climbs _ _ h1) (hg.climbs _ _ h2)
  · rcases hf.split l hl with ⟨a, h1, h2, h3⟩ | h
    · rcases hg.split a h1 with ⟨b, v, h4, h5, h6⟩ | h'
      · exact .inl ⟨b, v, h4, h5.trans h2, fun z => by simp only [h3]; exact h6 z⟩
      · refine .inr fun z b hb => ?_
        simp only [h3] at hb
        rw [← h2]
        exact h' z b hb
    · refine .inr fun z b hb => ?_
      obtain ⟨a, h1, h2⟩ := Out.bind_eq_ok.1 hb
      have := h z a h1
      have := hg.climbs _ _ h2
      omega

theorem Local2.bind {α : Type} {f : Lex → Out (Lex × α)} {g : Lex × α → Out Lex} (hf : Local2 f)
    (hg : ∀ v, Local fun l => g (l, v)) : Local fun l => f l >>= g := by
  refine ⟨fun l b h => ?_, fun l hl => ?_⟩
  · obtain ⟨⟨a, v⟩, h1, h2⟩ := Out.bind_eq_ok.1 h
    exact Nat.le_trans (hf.climbs _ _ h1) ((hg v).climbs _ _ h2)
  · rcases hf.split l hl with ⟨a, v, h1, h2, h3⟩ | h
    · rcases (hg v).split a h1 with ⟨b, h4, h5, h6⟩ | h'
      · exact .inl ⟨b, h4, h5.trans h2, fun z => by simp only [h3]; exact h6 z⟩
      · refine .inr fun z b hb => ?_
        simp only [h3] at hb
        rw [← h2]
        exact h' z b hb
    · refine .inr fun z b hb => ?_
      obtain ⟨⟨a, v⟩, h1, h2⟩ := Out.bind_eq_ok.1 hb
      have := h z _ h1
      have := (hg v).climbs _ _ h2
      simp only [id] at this
      simp only at *
      omega

theorem Local2.bind2 {α β : Type} {f : Lex → Out (Lex × α)} {g : Lex × α → Out (Lex × β)} (hf : Local2 f)
    (hg : ∀ v, Local2 fun l => g (l, v)) : Local2 fun l => f l >>= g := by
  refine ⟨fun l b h => ?_, fun l hl => ?_⟩
  · obtain ⟨⟨a, v⟩, h1, h2⟩ := Out.bind_eq_ok.1 h
    exact Nat.le_trans (hf.climbs _ _ h1) ((hg v).climbs _ _ h2)
  · rcases hf.split l hl with ⟨a, v, h1, h2, h3⟩ | h
    · rcases (hg v).split a h1 with ⟨b, w, h4, h5, h6⟩ | h'
      · exact .inl ⟨b, w, h4, h5.trans h2, fun z => by simp only [h3]; exact h6 z⟩
      · refine .inr fun z b hb => ?_
        simp only [h3] at hb
        rw [← h2]
        exact h' z b hb
    · refine .inr fun z b hb => ?_
      obtain ⟨⟨a, v⟩, h1, h2⟩ := Out.bind_eq_ok.1 hb
      have := h z _ h1
      have := (hg v).climbs _ _ h2
      simp only at *
      omega

/-- Changing the fields that do not belong to the position. -/
theorem Local.ok {g : Lex → Lex} (h1 : ∀ l, (g l).src = l.src) (h2 : ∀ l, (g l).rest = l.rest)
    (h3 : ∀ l, (g l).index = l.index) (h4 : ∀ l z, g (l.ext z) = (g l).ext z) : Local fun l => .ok (g l) := by
  refine ⟨fun l b h => ?_, fun l hl => .inl ⟨g l, ?_, h1 l, fun z => by simp only [h4]⟩⟩
  · cases h; simp [h3]
  · unfold Fits at *; rw [h1, h2, h3]; exact hl

theorem near_rest {l : Lex} (hl : l.Fits) (h : l.index + 4 ≤ l.src.length) : 4 ≤ l.rest.length := by
  unfold Fits at hl; omega

theorem readByte_near {l : Lex} (h : l.rest ≠ []) (z : Bytes) : (l.ext z).readByte = l.readByte := by
  unfold readByte ext
  cases hr : l.rest with
  | nil => exact absurd hr h
  | cons c r => rfl

/-- Only the case in which the end is far away matters. -/
theorem split_of_near {f : Lex → Out Lex} (hc : Climbs f id) {l : Lex} (hl : l.Fits)
    (h : l.rest ≠ [] → 4 ≤ l.rest.length → Split f l) : Split f l := by
  by_cases hn : l.index + 4 ≤ l.src.length
  · have := near_rest hl hn
    exact h (by intro e; simp [e] at this) this
  · refine .inr fun z b hb => ?_
    have := hc _ _ hb
    simp only [id] at this
    have e : (l.ext z).index = l.index := rfl
    omega

theorem split2_of_near {α : Type} {f : Lex → Out (Lex × α)} (hc : Climbs f Prod.fst) {l : Lex} (hl : l.Fits)
    (h : l.rest ≠ [] → 4 ≤ l.rest.length → Split2 f l) : Split2 f l := by
  by_cases hn : l.index + 4 ≤ l.src.length
  · have := near_rest hl hn
    exact h (by intro e; simp [e] at this) this
  · refine .inr fun z b hb => ?_
    have := hc _ _ hb
    have e : (l.ext z).index = l.index := rfl
    omega

/-- Decisions on the next byte. -/
theorem Local.ite {C : Byte → Prop} [DecidablePred C] {f g : Lex → Out Lex} (hf : Local f) (hg : Local g) :
    Local fun l => if C l.readByte then f l else g l := by
  have hc : Climbs (fun l => if C l.readByte then f l else g l) id := by
    intro l b h
    by_cases hC : C l.readByte
    · simp only [if_pos hC] at h; exact hf.climbs _ _ h
    · simp only [if_neg hC] at h; exact hg.climbs _ _ h
  refine ⟨hc, fun l hl => split_of_near hc hl fun hr _ => ?_⟩
  unfold Split
  simp only [readByte_near hr]
  by_cases hC : C l.readByte
  · simp only [if_pos hC]; exact hf.split l hl
  · simp only [if_neg hC]; exact hg.split l hl

theorem Local2.ite {α : Type} {C : Byte → Prop} [DecidablePred C] {f g : Lex → Out (Lex × α)} (hf : Local2 f) (hg : Local2 g) :
    Local2 fun l => if C l.readByte then f l else g l := by
  have hc : Climbs (fun l => if C l.readByte then f l else g l) Prod.fst := by
    intro l b h
    by_cases hC : C l.readByte
    · simp only [if_pos hC] at h; exact hf.climbs _ _ h
    · simp only [if_neg hC] at h; exact hg.climbs _ _ h
  refine ⟨hc, fun l hl => split2_of_near hc hl fun hr _ => ?_⟩
  unfold Split2
  simp only [readByte_near hr]
  by_cases hC : C l.readByte
  · simp only [if_pos hC]; exact hf.split l hl
  · simp only [if_neg hC]; exact hg.split l hl

theorem local_setToken (t : Token) : Local fun l => .ok (l.setToken t) :=
  .ok (fun _ => rfl) (fun _ => rfl) (fun _ => rfl) fun _ _ => rfl

theorem local_bump : Local bump := by
  have hc : Climbs bump id := by
    intro l b h
    unfold bump at h
    split at h
    · cases h
    · cases h; simp
  refine ⟨hc, fun l hl => split_of_near hc hl fun hr _ => .inl ?_⟩
  unfold Fits at hl
  cases h : l.rest with
  | nil => exact absurd h hr
  | cons c r =>
    refine ⟨{ l with rest := r, index := l.index + 1 }, ?_, rfl, fun z => ?_⟩
    · rw [h] at hl; simp [Fits] at hl ⊢; omega
    · unfold bump ext; simp [h]

theorem local_single (t : Token) : Local (single t) := local_bump.bind (local_setToken t)

theorem skipWhileGo_split (p : Byte → Bool) (r : Bytes) (i : Nat) :
    (∀ z, skipWhileGo p (r ++ z) i = ((skipWhileGo p r i).1 ++ z, (skipWhileGo p r i).2)) ∨
    ∀ z, i + r.length ≤ (skipWhileGo p (r ++ z) i).2 := by
  induction r generalizing i with
  | nil => exact .inr fun z => by simp [skipWhileGo_eq]
  | cons c r ih =>
    by_cases hc : p c
    · simp only [List.cons_append, skipWhileGo, hc, if_true]
      rcases ih (i + 1) with h | h
      · exact .inl h
      · exact .inr fun z => by have := h z; simp at this ⊢; omega
    · exact .inl fun z => by simp [skipWhileGo, hc]

theorem local_skip (p : Byte → Bool) (t : Token) : Local fun l => .ok ((l.skipWhile p).setToken t) := by
  refine ⟨fun l b h => ?_, fun l hl => ?_⟩
  · cases h
    have := (over_skipWhile p l).index
    simp only [id, setToken]; omega
  · rcases skipWhileGo_split p l.rest l.index with h | h
    · refine .inl ⟨(l.skipWhile p).setToken t, skipWhile_fits hl, rfl, fun z => ?_⟩
      congr 1
      unfold skipWhile ext
      simp [h, moveTo, setToken]
    · refine .inr fun z b hb => ?_
      cases hb
      have := h z
      unfold Fits at hl
      have e : (((l.ext z).skipWhile p).setToken t).index = (skipWhileGo p (l.rest ++ z) l.index).2 := rfl
      omega

/-- Skipping, then something else. -/
theorem Local.skip {f : Lex → Out Lex} (p : Byte → Bool) (hf : Local f) : Local fun l => f (l.skipWhile p) := by
  refine ⟨fun l b h => ?_, fun l hl => ?_⟩
  · have := (over_skipWhile p l).index
    have := hf.climbs _ _ h
    simp only [id] at *; omega
  · rcases skipWhileGo_split p l.rest l.index with h | h
    · have e : ∀ z, (l.ext z).skipWhile p = (l.skipWhile p).ext z := by
        intro z
        unfold skipWhile ext
        simp [h, moveTo]
      unfold Split
      simp only [e]
      exact hf.split _ (skipWhile_fits hl)
    · refine .inr fun z b hb => ?_
      have := h z
      have h' := hf.climbs _ _ hb
      unfold Fits at hl
      have e : ((l.ext z).skipWhile p).index = (skipWhileGo p (l.rest ++ z) l.index).2 := rfl
      simp only [id] at *
      omega

theorem local_eql : Local eql :=
  local_bump.bind (.ite (C := (· = _)) (local_bump.bind (.ite (C := (· = _)) (local_single _) (local_setToken _)))
    (.ite (C := (· = _)) (local_single _) (local_setToken _)))
theorem local_exl : Local exl :=
  local_bump.bind (.ite (C := (· = _)) (local_bump.bind (.ite (C := (· = _)) (local_single _) (local_setToken _))) (local_setToken _))
theorem local_lss : Local lss :=
  local_bump.bind (.ite (C := (· = _)) (local_bump.bind (.ite (C := (· = _)) (local_single _) (local_setToken _)))
    (.ite (C := (· = _)) (local_single _) (local_setToken _)))
theorem local_mor : Local mor :=
  local_bump.bind (.ite (C := (· = _)) (local_bump.bind (.ite (C := (· = _))
      (local_bump.bind (.ite (C := (· = _)) (local_single _) (local_setToken _)))
      (.ite (C := (· = _)) (local_single _) (local_setToken _))))
    (.ite (C := (· = _)) (local_single _) (local_setToken _)))
theorem local_crt : Local crt :=
  local_bump.bind (.ite (C := (· = _)) (local_single _) (local_setToken _))
theorem local_prc : Local prc :=
  local_bump.bind (.ite (C := (· = _)) (local_single _) (local_setToken _))
theorem local_doubled (c : Byte) (a b d : Token) : Local (doubled c a b d) :=
  local_bump.bind (.ite (C := (· = _)) (local_single _) (.ite (C := (· = _)) (local_single _) (local_setToken _)))
theorem local_atr : Local atr :=
  local_bump.bind (.ite (C := (· = _)) (local_bump.bind (.ite (C := (· = _)) (local_single _) (local_setToken _)))
    (.ite (C := (· = _)) (local_single _) (local_setToken _)))

theorem blockCommentGo_index (r : Bytes) (i : Nat) : i ≤ (blockCommentGo r i).2.2 := by
  fun_induction blockCommentGo r i <;> first | omega | (simp; done) | (simp; omega)

theorem quoteGo_index (q : Byte) (r : Bytes) (i : Nat) : i ≤ (quoteGo q r i).2.2 := by
  fun_induction quoteGo q r i <;> first | omega | (simp; done) | (simp; omega)

theorem blockCommentGo_split (r : Bytes) (i : Nat) :
    (∀ z, blockCommentGo (r ++ z) i = ((blockCommentGo r i).1, (blockCommentGo r i).2.1 ++ z, (blockCommentGo r i).2.2)) ∨
    ∀ z, i + r.length ≤ (blockCommentGo (r ++ z) i).2.2 := by
  fun_induction blockCommentGo r i
  case case1 i => exact .inr fun z => by simpa using blockCommentGo_index z i
  case case2 i =>
    refine .inr fun z => ?_
    rw [List.cons_append, List.nil_append]
    unfold blockCommentGo
    cases z with
    | nil => simp
    | cons d z =>
      simp only [if_true]
      split
      · simp
      · split
        · simp
        · simpa using blockCommentGo_index (d :: z) (i + 1)
  case case5 i _ _ _ _ ih =>
    rcases ih with h | h
    · exact .inl fun z => by (simp only [List.cons_append]; conv => { lhs; unfold blockCommentGo }; simp_all)
    · refine .inr fun z => ?_
      have := h z
      clear h
      simp only [List.cons_append]; unfold blockCommentGo
      simp_all; omega
  case case7 i _ _ _ _ ih =>
    rcases ih with h | h
    · exact .inl fun z => by (simp only [List.cons_append]; conv => { lhs; unfold blockCommentGo }; simp_all)
    · refine .inr fun z => ?_
      have := h z
      clear h
      simp only [List.cons_append]; unfold blockCommentGo
      simp_all; omega
  all_goals exact .inl fun z => by (simp only [List.cons_append]; conv => { lhs; unfold blockCommentGo }; simp_all)

theorem quoteGo_split (q : Byte) (r : Bytes) (i : Nat) :
    (∀ z, quoteGo q (r ++ z) i = ((quoteGo q r i).1, (quoteGo q r i).2.1 ++ z, (quoteGo q r i).2.2)) ∨
    ∀ z, i + r.length ≤ (quoteGo q (r ++ z) i).2.2 := by
  fun_induction quoteGo q r i
  case case1 i => exact .inr fun z => by simpa using quoteGo_index q z i
  case case3 i hq =>
    refine .inr fun z => ?_
    rw [List.cons_append, List.nil_append]
    unfold quoteGo
    cases z with
    | nil => simp [hq]
    | cons d z =>
      simp only [if_true, if_neg hq]
      split
      · simp
      · have := quoteGo_index q z (i + 2)
        simp; omega
  case case5 ih =>
    rcases ih with h | h
    · exact .inl fun z => by (simp only [List.cons_append]; conv => { lhs; unfold quoteGo }; simp_all)
    · refine .inr fun z => ?_
      have := h z
      clear h
      simp only [List.cons_append]; unfold quoteGo
      simp_all; omega
  case case7 ih =>
    rcases ih with h | h
    · exact .inl fun z => by (simp only [List.cons_append]; conv => { lhs; unfold quoteGo }; simp_all)
    · refine .inr fun z => ?_
      have := h z
      clear h
      simp only [List.cons_append]; unfold quoteGo
      simp_all; omega
  all_goals exact .inl fun z => by (simp only [List.cons_append]; conv => { lhs; unfold quoteGo }; simp_all)

theorem local_block {again : Lex → Out Lex} (ha : Local again) : Local fun l =>
    match blockCommentGo l.rest l.index with
    | (true, r, i) => again (l.moveTo r i)
    | (false, r, i) => .ok ((l.moveTo r i).setToken .UnexpectedEndOfProgram) := by
  refine ⟨fun l b h => ?_, fun l hl => ?_⟩
  · have hi := blockCommentGo_index l.rest l.index
    rcases e : blockCommentGo l.rest l.index with ⟨c, r, i⟩
    simp only [e] at h hi
    cases c
    · cases h; exact hi
    · exact Nat.le_trans hi (ha.climbs _ _ h)
  · rcases blockCommentGo_split l.rest l.index with h | h
    · have h : ∀ z, blockCommentGo (l.ext z).rest (l.ext z).index = _ := h
      rcases e : blockCommentGo l.rest l.index with ⟨c, r, i⟩
      simp only [e] at h
      unfold Split
      simp only [h]
      obtain ⟨p, -, -, h' | h'⟩ := blockCommentGo_spec e
      · obtain ⟨rfl, h2, h3⟩ := h'
        exact ha.split (l.moveTo r i)
          (moveTo_same (l := l) (r := r) (i := i) (p := p ++ bs!"*/") hl (by simp [h2]) (by simp [h3]; omega))
      · obtain ⟨rfl, h2, h3, -⟩ := h'
        exact .inl ⟨(l.moveTo r i).setToken .UnexpectedEndOfProgram,
          moveTo_same (l := l) (r := r) (i := i) (p := p) hl (by simp [h2]) (by simp [h3]), rfl, fun z => rfl⟩
    · refine .inr fun z b hb => ?_
      have h := h z
      rcases e : blockCommentGo (l.rest ++ z) l.index with ⟨c, r, i⟩
      have e' : blockCommentGo (l.ext z).rest (l.ext z).index = (c, r, i) := e
      simp only [e'] at hb
      rw [e] at h
      unfold Fits at hl
      simp only at h
      cases c
      · cases hb
        change _ < i + 4
        omega
      · have := ha.climbs _ _ hb
        simp only [id] at this
        change i ≤ _ at this
        omega

theorem local_slh {again : Lex → Out Lex} (ha : Local again) : Local (slh again) :=
  local_bump.bind (.ite (C := (· = _)) (local_bump.bind (ha.skip _)) (.ite (C := (· = _)) (local_bump.bind (local_block ha))
    (.ite (C := (· = _)) (local_single _) (local_setToken _))))

theorem local_id : Local fun l => .ok l := .ok (fun _ => rfl) (fun _ => rfl) (fun _ => rfl) fun _ _ => rfl

theorem local_readScientific : Local readScientific := by
  unfold readScientific
  exact .ite (C := fun b => b = _ ∨ b = _) (local_bump.bind (local_skip _ _)) (local_skip _ _)

theorem local_readFloat : Local readFloat :=
  Local.skip isDigit (f := fun l => if l.readByte = #b'e' ∨ l.readByte = #b'E' then l.bump >>= readScientific else .ok (l.setToken .LiteralNumber))
    (.ite (C := fun b => b = _ ∨ b = _) (local_bump.bind local_readScientific) (local_setToken _))

theorem local_digitsLoop : Local digitsLoop :=
  Local.skip isDigit (f := fun l => if l.readByte = #b'.' then l.bump >>= readFloat
      else if l.readByte = #b'e' ∨ l.readByte = #b'E' then l.bump >>= readScientific else .ok (l.setToken .LiteralNumber))
    (.ite (C := (· = _)) (local_bump.bind local_readFloat)
      (.ite (C := fun b => b = _ ∨ b = _) (local_bump.bind local_readScientific) (local_setToken _)))

theorem local_zer : Local zer :=
  local_bump.bind (.ite (C := fun b => b = _ ∨ b = _) (local_bump.bind (local_skip _ _))
    (.ite (C := fun b => b = _ ∨ b = _) (local_bump.bind (local_skip _ _))
      (.ite (C := fun b => b = _ ∨ b = _) (local_bump.bind (local_skip _ _)) local_digitsLoop)))

theorem local_dig : Local dig := local_bump.bind local_digitsLoop

theorem accessorGo_index {r : Bytes} {i : Nat} {x : Byte × Bytes × Nat} (h : accessorGo r i = some x) : i ≤ x.2.2 := by
  obtain ⟨c, s, j⟩ := x
  obtain ⟨p, t, -, -, -, -, h⟩ := accessorGo_some h
  simp only; omega

theorem accessorGo_split (r : Bytes) (i : Nat) :
    (∃ x, accessorGo r i = some x ∧ ∀ z, accessorGo (r ++ z) i = some (x.1, x.2.1 ++ z, x.2.2)) ∨
    ∀ z x, accessorGo (r ++ z) i = some x → i + r.length ≤ x.2.2 := by
  induction r generalizing i with
  | nil => exact .inr fun z x h => by simpa using accessorGo_index h
  | cons c r ih =>
    by_cases hc : 0x20 < c
    · exact .inl ⟨_, by rw [accessorGo, if_pos hc], fun z => by rw [List.cons_append, accessorGo, if_pos hc]⟩
    · simp only [List.cons_append, accessorGo, if_neg hc]
      rcases ih (i + 1) with h | h
      · exact .inl h
      · exact .inr fun z x hx => by have := h z x hx; simp; omega

theorem climbs_readAccessor : Climbs readAccessor id := by
  intro l b h
  unfold readAccessor at h
  cases e : accessorGo l.rest l.index with
  | none => simp [e] at h
  | some x =>
    have hi := accessorGo_index e
    obtain ⟨c, r, i⟩ := x
    simp only [e] at h hi
    split at h
    · cases h
    · split at h
      · cases h
        have := (over_skipWhile legalInLabel ({ l.moveTo r i with accessorStart := i })).index
        change _ ≤ ({ l.moveTo r i with accessorStart := i }.skipWhile legalInLabel).index
        rw [this]
        exact Nat.le_trans hi (Nat.le_add_right ..)
      · cases h; exact hi

theorem local_readAccessor : Local readAccessor := by
  refine ⟨climbs_readAccessor, fun l hl => ?_⟩
  rcases accessorGo_split l.rest l.index with ⟨⟨c, r, i⟩, e, h⟩ | h
  · have h : ∀ z, accessorGo (l.ext z).rest (l.ext z).index = _ := h
    obtain ⟨s, t, -, h1, -, -, h2⟩ := accessorGo_some e
    have hf : Fits { l.moveTo r i with accessorStart := i } := moveTo_same (l := l) (p := s) hl h1 h2
    unfold Split readAccessor
    simp only [h]
    by_cases hc : 127 < c
    · simp only [if_pos hc]; exact .inr fun z b hb => by cases hb
    · simp only [if_neg hc]
      by_cases ht : accessorStartTable c
      · simp only [if_pos ht]
        exact (local_skip legalInLabel .Accessor).split { l.moveTo r i with accessorStart := i } hf
      · simp only [if_neg ht]
        exact .inl ⟨{ l.moveTo r i with accessorStart := i }.setToken .UnexpectedToken, hf, rfl, fun z => rfl⟩
  · refine .inr fun z b hb => ?_
    have hb' := hb
    unfold readAccessor at hb
    cases e : accessorGo (l.ext z).rest (l.ext z).index with
    | none => simp [e] at hb
    | some x =>
      have hx := h z x e
      obtain ⟨c, r, i⟩ := x
      simp only [e] at hb hx
      unfold Fits at hl
      split at hb
      · cases hb
      · split at hb
        · cases hb
          have := (over_skipWhile legalInLabel ({ (l.ext z).moveTo r i with accessorStart := i })).index
          change _ < ({ (l.ext z).moveTo r i with accessorStart := i }.skipWhile legalInLabel).index + 4
          rw [this]
          change _ < i + _ + 4
          omega
        · cases hb
          change _ < i + 4
          omega

theorem local_prd : Local prd :=
  local_bump.bind (.ite (C := fun b => isDigit b = true) (local_bump.bind local_readFloat)
    (.ite (C := (· = _)) (local_bump.bind (.ite (C := (· = _)) (local_single _) (local_setToken _))) local_readAccessor))

theorem local_idt : Local idt := local_bump.bind (local_skip _ _)

theorem local_quote (q : Byte) : Local fun l =>
    .ok ((l.moveTo (quoteGo q l.rest l.index).2.1 (quoteGo q l.rest l.index).2.2).setToken (quoteGo q l.rest l.index).1) := by
  refine ⟨fun l b h => ?_, fun l hl => ?_⟩
  · cases h; exact quoteGo_index ..
  · rcases quoteGo_split q l.rest l.index with h | h
    · have h : ∀ z, quoteGo q (l.ext z).rest (l.ext z).index = _ := h
      unfold Split
      simp only [h]
      refine .inl ⟨(l.moveTo (quoteGo q l.rest l.index).2.1 (quoteGo q l.rest l.index).2.2).setToken (quoteGo q l.rest l.index).1, ?_, rfl, fun z => rfl⟩
      rcases e : quoteGo q l.rest l.index with ⟨t, r, i⟩
      obtain ⟨p, -, h' | h' | h'⟩ := quoteGo_spec e
      · exact moveTo_same (l := l) (r := r) (i := i) (p := p ++ [q]) hl (by simp [h']) (by simp [h']; omega)
      · exact moveTo_same (l := l) (r := r) (i := i) (p := p) hl (by simp [h']) (by simp [h'])
      · exact moveTo_same (l := l) (r := r) (i := i) (p := p ++ [#b'\\']) hl (by simp [h']) (by simp [h']; omega)
    · refine .inr fun z b hb => ?_
      cases hb
      have := h z
      unfold Fits at hl
      change _ < (quoteGo q (l.rest ++ z) l.index).2.2 + 4
      omega

theorem local_qot : Local qot := by
  have hc : Climbs qot id := by
    intro l b h
    exact (local_bump.bind (local_quote l.readByte)).climbs l b h
  refine ⟨hc, fun l hl => split_of_near hc hl fun hr _ => ?_⟩
  unfold Split qot
  simp only [readByte_near hr]
  exact (local_bump.bind (local_quote l.readByte)).split l hl

theorem templateGo_index {r : Bytes} {i : Nat} {x : Token × Nat × Bytes × Nat} (h : templateGo r i = some x) :
    i ≤ x.2.2.2 := by
  obtain ⟨t, e, r', j⟩ := x
  obtain ⟨p, -, h | h | h⟩ := templateGo_some h
  · simp only [h]; omega
  · simp only [h]; omega
  · simp only [h]; omega

theorem templateGo_split (r : Bytes) (i : Nat) :
    (∃ x, templateGo r i = some x ∧ ∀ z, templateGo (r ++ z) i = some (x.1, x.2.1, x.2.2.1 ++ z, x.2.2.2)) ∨
    ∀ z x, templateGo (r ++ z) i = some x → i + r.length ≤ x.2.2.2 := by
  fun_induction templateGo r i
  case case1 i => exact .inr fun z x h => by simpa using templateGo_index h
  case case2 => exact .inl ⟨_, rfl, fun z => by rw [List.cons_append, templateGo.eq_def]; simp⟩
  case case3 i h1 =>
    refine .inr fun z x h => ?_
    rw [List.cons_append, List.nil_append, templateGo.eq_def] at h
    simp only [if_neg h1, if_true] at h
    cases z with
    | nil => simp at h
    | cons d z =>
      simp only at h
      split at h
      · cases h; simp
      · simpa using templateGo_index h
  case case6 i h1 h2 =>
    refine .inr fun z x h => ?_
    rw [List.cons_append, List.nil_append, templateGo.eq_def] at h
    simp only [if_neg h1, if_neg h2, if_true] at h
    cases z with
    | nil => cases h; simp
    | cons d z =>
      simp only at h
      split at h
      · cases h; simp
      · have := templateGo_index h
        simp; omega
  case case4 => exact .inl ⟨_, rfl, fun z => by (simp only [List.cons_append]; unfold templateGo; simp_all)⟩
  case case7 => exact .inl ⟨_, rfl, fun z => by (simp only [List.cons_append]; unfold templateGo; simp_all)⟩
  all_goals
    rename_i ih
    rcases ih with ⟨x, h, h'⟩ | h
    · exact .inl ⟨x, h, fun z => by have := h' z; clear h'; (simp only [List.cons_append]; unfold templateGo; simp_all)⟩
    · refine .inr fun z x hx => ?_
      have h' := h z x
      clear h
      simp only [List.cons_append] at hx
      rw [templateGo.eq_def] at hx
      simp [*] at hx
      simp [hx] at h'
      simp
      omega

theorem regexGo_index {c : Bool} {r : Bytes} {i : Nat} {x : Token × Bytes × Nat} (h : regexGo c r i = some x) :
    i ≤ x.2.2 := by
  obtain ⟨t, r', j⟩ := x
  obtain ⟨p, c, q, -, -, h, -⟩ := regexGo_some h
  simp only; omega

theorem regexGo_split (c : Bool) (r : Bytes) (i : Nat) :
    (∃ x, regexGo c r i = some x ∧ ∀ z, regexGo c (r ++ z) i = some (x.1, x.2.1 ++ z, x.2.2)) ∨
    ∀ z x, regexGo c (r ++ z) i = some x → i + r.length ≤ x.2.2 := by
  fun_induction regexGo c r i
  case case1 i => exact .inr fun z x h => by simpa using regexGo_index h
  case case6 i h1 h2 h3 =>
    refine .inr fun z x h => ?_
    rw [List.cons_append, List.nil_append, regexGo.eq_def] at h
    simp only [if_neg h1, if_neg h2, if_neg h3, if_true] at h
    cases z with
    | nil => cases h; simp
    | cons d z =>
      simp only at h
      split at h
      · cases h; simp
      · have := regexGo_index h
        simp; omega
  case case5 => exact .inl ⟨_, rfl, fun z => by (simp only [List.cons_append]; unfold regexGo; simp_all)⟩
  case case7 => exact .inl ⟨_, rfl, fun z => by (simp only [List.cons_append]; unfold regexGo; simp_all)⟩
  case case9 => exact .inl ⟨_, rfl, fun z => by (simp only [List.cons_append]; unfold regexGo; simp_all)⟩
  all_goals
    rename_i ih
    rcases ih with ⟨x, h, h'⟩ | h
    · exact .inl ⟨x, h, fun z => by have := h' z; clear h'; (simp only [List.cons_append]; unfold regexGo; simp_all)⟩
    · refine .inr fun z x hx => ?_
      have h' := h z x
      clear h
      simp only [List.cons_append] at hx
      rw [regexGo.eq_def] at hx
      simp [*] at hx
      simp [hx] at h'
      simp
      omega

theorem climbs_readTemplateKind : Climbs readTemplateKind id := by
  intro l b h
  unfold readTemplateKind at h
  cases e : templateGo l.rest l.index with
  | none => simp [e] at h
  | some x =>
    have hi := templateGo_index e
    obtain ⟨t, e', r, i⟩ := x
    simp only [e] at h hi
    cases h
    simp only [id]
    split <;> exact hi

theorem local_readTemplateKind : Local readTemplateKind := by
  refine ⟨climbs_readTemplateKind, fun l hl => ?_⟩
  rcases templateGo_split l.rest l.index with ⟨⟨t, e, r, i⟩, h, hz⟩ | h
  · have hz : ∀ z, templateGo (l.ext z).rest (l.ext z).index = _ := hz
    obtain ⟨p, -, h'⟩ := templateGo_some h
    have hl' := hl
    unfold Fits at hl'
    unfold Split readTemplateKind
    simp only [hz]
    rcases h' with ⟨rfl, h1, h2, h3⟩ | ⟨rfl, h1, h2, h3⟩ | ⟨rfl, h1, h3, -⟩
    · refine .inl ⟨{ (l.moveTo r i).setToken .TemplateClosed with quasi := l.sliceSource l.index e },
        moveTo_same (l := l) (r := r) (i := i) (p := p ++ bs!"`") hl (by simp [h1]) (by simp [h3]; omega), rfl, fun z => ?_⟩
      rw [if_neg (by decide), slice_ext (by rw [h1] at hl'; simp at hl'; omega)]
      rfl
    · refine .inl ⟨{ (l.moveTo r i).setToken .TemplateOpen with quasi := l.sliceSource l.index e },
        moveTo_same (l := l) (r := r) (i := i) (p := p ++ bs!"${") hl (by simp [h1]) (by simp [h3]; omega), rfl, fun z => ?_⟩
      rw [if_neg (by decide), slice_ext (by rw [h1] at hl'; simp at hl'; omega)]
      rfl
    · refine .inl ⟨(l.moveTo r i).setToken .UnexpectedEndOfProgram,
        moveTo_same (l := l) (r := r) (i := i) (p := p ++ [#b'\\']) hl (by simp [h1]) (by simp [h3]; omega), rfl, fun z => ?_⟩
      rw [if_pos rfl]
      rfl
  · refine .inr fun z b hb => ?_
    unfold readTemplateKind at hb
    cases e : templateGo (l.ext z).rest (l.ext z).index with
    | none => simp [e] at hb
    | some x =>
      have hx := h z x e
      obtain ⟨t, e', r, i⟩ := x
      simp only [e] at hb hx
      unfold Fits at hl
      cases hb
      apply Nat.lt_of_lt_of_le (show l.src.length < i + 4 by omega)
      apply Nat.add_le_add_right
      split <;> exact Nat.le_refl _

theorem decodeFirst_append {r : Bytes} (h : 4 ≤ r.length) (z : Bytes) : decodeFirst (r ++ z) = decodeFirst r := by
  match r, h with
  | x :: y :: w :: v :: r, _ => rfl

theorem local_uni : Local uni := by
  have hc : Climbs uni id := by
    intro l b h
    unfold uni at h
    split at h
    · cases h
    · split at h
      · cases h
        rename_i c _ _
        have := (over_skipWhile legalInLabel (l.moveTo (l.rest.drop (lenUtf8 c - 1)) (l.index + (lenUtf8 c - 1)))).index
        change _ ≤ ((l.moveTo (l.rest.drop (lenUtf8 c - 1)) (l.index + (lenUtf8 c - 1))).skipWhile legalInLabel).index
        rw [this]
        change _ ≤ l.index + _ + _
        omega
      · cases h; exact Nat.le_refl _
  refine ⟨hc, fun l hl => split_of_near hc hl fun _ h4 => ?_⟩
  have e : ∀ z, decodeFirst (l.ext z).rest = decodeFirst l.rest := fun z => decodeFirst_append h4 z
  unfold Split uni
  simp only [e]
  cases h : decodeFirst l.rest with
  | none => exact .inr fun z b hb => by cases hb
  | some c =>
    simp only
    by_cases ha : Unicode.isAlphanumeric c
    · simp only [if_pos ha]
      have hk := decodeFirst_len h
      generalize lenUtf8 c - 1 = k at hk
      have hd : ∀ z, (l.ext z).rest.drop k = l.rest.drop k ++ z := fun z => List.drop_append_of_le_length hk
      simp only [hd]
      have hm : (l.moveTo (l.rest.drop k) (l.index + k)).Fits :=
        moveTo_same (l := l) (p := l.rest.take k) hl (by simp) (by simp; omega)
      exact (local_skip legalInLabel .Identifier).split _ hm
    · simp only [if_neg ha]
      exact .inl ⟨l.setToken .UnexpectedToken, hl, rfl, fun z => rfl⟩

/-- A result that depends on the next byte. -/
theorem local2_ok {α : Type} (v : Byte → α) : Local2 fun l => .ok (l, v l.readByte) := by
  have hc : Climbs (fun l => .ok (l, v l.readByte)) Prod.fst := by
    intro l b h; cases h; exact Nat.le_refl _
  refine ⟨hc, fun l hl => split2_of_near hc hl fun hr _ => .inl ⟨l, v l.readByte, hl, rfl, fun z => ?_⟩⟩
  simp only [readByte_near hr]

theorem local_matchLeaf (bs : Bytes) : Local2 (matchLeaf bs) := by
  induction bs with
  | nil => rw [show matchLeaf [] = _ from funext fun l => matchLeaf.eq_1 l]; exact local_bump.bind2 (local2_ok fun b => !legalInLabel b)
  | cons b bs ih =>
    rw [show matchLeaf (b :: bs) = _ from funext fun l => matchLeaf.eq_2 l b bs]
    exact local_bump.bind2 (.ite (C := (· = b)) ih (local2_ok fun _ => false))

mutual
theorem local_matchLabel : (t : Trie) → Local2 (matchLabel t)
  | .leaf bs t => by
    rw [show matchLabel (.leaf bs t) = _ from funext fun l => matchLabel.eq_1 l bs t]
    exact (local_matchLeaf bs).bind2 fun b => local2_ok fun _ => if b then some t else none
  | .node dflt brs => by
    rw [show matchLabel (.node dflt brs) = _ from funext fun l => matchLabel.eq_2 l dflt brs]
    exact local_bump.bind2 (local_matchBranches dflt brs)
theorem local_matchBranches : (dflt : Option Token) → (brs : List (Byte × Trie)) → Local2 (matchBranches dflt brs)
  | dflt, [] => by
    have : matchBranches dflt [] = fun l => .ok (l, match dflt with
        | some t => if legalInLabel l.readByte then none else some t
        | none => none) := by funext l; unfold matchBranches; rfl
    rw [this]
    exact local2_ok fun b => match dflt with
        | some t => if legalInLabel b then none else some t
        | none => none
  | dflt, (b, t) :: brs => by
    have : matchBranches dflt ((b, t) :: brs) = fun l => if l.readByte = b then matchLabel t l else matchBranches dflt brs l := by
      funext l; rw [matchBranches]
    rw [this]
    exact .ite (C := (· = b)) (local_matchLabel t) (local_matchBranches dflt brs)
end

theorem local_labelHandler (t : Trie) : Local (labelHandler t) := by
  unfold labelHandler
  refine (local_matchLabel t).bind fun v => ?_
  cases v with
  | some t => exact local_setToken t
  | none => exact local_skip _ _

theorem local_runHandler {again : Lex → Out Lex} (ha : Local again) (h : Handler) : Local (runHandler again h) := by
  have o : ∀ (a : Asi) (t : Token), Local fun l => .ok { l with asi := a, token := t } := fun a t =>
    .ok (fun _ => rfl) (fun _ => rfl) (fun _ => rfl) fun _ _ => rfl
  cases h <;> unfold runHandler
  case ERR | COL | COM | PNO | BTO | BTC | BEO | QST | TLD => exact local_single _
  case SEM | PNC | BEC => exact local_bump.bind (o _ _)
  case EOF => exact o _ _
  case WS => exact local_id
  case EQL => exact local_eql
  case EXL => exact local_exl
  case LSS => exact local_lss
  case MOR => exact local_mor
  case CRT => exact local_crt
  case AMP | PIP | PLS | MIN => exact local_doubled _ _ _ _
  case ATR => exact local_atr
  case SLH => exact local_slh ha
  case PRC => exact local_prc
  case UNI => exact local_uni
  case ZER => exact local_zer
  case DIG => exact local_dig
  case PRD => exact local_prd
  case QOT => exact local_qot
  case TPL => exact local_bump.bind local_readTemplateKind
  case IDT => exact local_idt
  all_goals exact local_labelHandler _

/-- Changing other fields first. -/
theorem Local.after {f : Lex → Out Lex} (hf : Local f) {g : Lex → Lex} (h1 : ∀ l, (g l).src = l.src) (h2 : ∀ l, (g l).rest = l.rest)
    (h3 : ∀ l, (g l).index = l.index) (h4 : ∀ l z, g (l.ext z) = (g l).ext z) : Local fun l => f (g l) :=
  (Local.ok h1 h2 h3 h4).bind hf

theorem local_scan : ∀ n, Local (scan n)
  | 0 => by
    have e : ∀ l, scan 0 l = .timeout := fun l => rfl
    refine ⟨fun l b h => ?_, fun l _ => .inr fun z b h => ?_⟩
    · rw [e] at h; cases h
    · rw [e] at h; cases h
  | n + 1 => by
    have ih := local_scan n
    have key : ∀ c, Local fun l => if handlerOf c = .WS then do
          let l ← l.bump
          scan n (if c = #b'\n' then { l with asi := .ImplicitSemicolon } else l)
        else runHandler (fun l => scan n { l with asi := .NoSemicolon }) (handlerOf c) { l with tokenStart := l.index } := by
      intro c
      by_cases hc : handlerOf c = .WS
      · simp only [if_pos hc]
        refine local_bump.bind ?_
        by_cases hn : c = #b'\n'
        · simp only [if_pos hn]
          exact ih.after (fun _ => rfl) (fun _ => rfl) (fun _ => rfl) fun _ _ => rfl
        · simp only [if_neg hn]; exact ih
      · simp only [if_neg hc]
        exact (local_runHandler (again := fun l => scan n { l with asi := .NoSemicolon })
          (ih.after (fun _ => rfl) (fun _ => rfl) (fun _ => rfl) fun _ _ => rfl) (handlerOf c)).after
          (g := fun l => { l with tokenStart := l.index })
          (fun _ => rfl) (fun _ => rfl) (fun _ => rfl) fun _ _ => rfl
    have hc : Climbs (scan (n + 1)) id := fun l b h => (key l.readByte).climbs l b h
    refine ⟨hc, fun l hl => split_of_near hc hl fun hr _ => ?_⟩
    unfold Split scan
    simp only [readByte_near hr]
    exact (key l.readByte).split l hl

theorem scan_more {n m : Nat} (h : n ≤ m) {l a : Lex} (hl : l.Fits) (ha : scan n l = .ok a) : scan m l = .ok a := by
  have e : ∀ l : Lex, l.ext [] = l := fun l => by simp [ext]
  have := scan_same (z := []) rfl n m h hl
  rw [ha, e] at this
  rcases this with h | h | ⟨h, -⟩ | ⟨b, h, h', -⟩
  · cases h
  · cases h
  · cases h
  · cases h; rw [h', e]

theorem ext_fits {l : Lex} (h : l.Fits) (z : Bytes) : (l.ext z).Fits := by
  unfold Fits ext at *; simp; omega

theorem local_consume : Local consume := by
  have ha : ∀ n, Local fun l => scan n { l with asi := .NoSemicolon } := fun n =>
    (local_scan n).after (fun _ => rfl) (fun _ => rfl) (fun _ => rfl) fun _ _ => rfl
  refine ⟨fun l b h => (ha _).climbs l b h, fun l hl => ?_⟩
  by_cases hn : ∃ n, ∃ a : Lex, a.Fits ∧ a.src = l.src ∧ ∀ z, scan n { l.ext z with asi := .NoSemicolon } = .ok (a.ext z)
  · obtain ⟨n, a, h1, h2, h3⟩ := hn
    refine .inl ⟨a, h1, h2, fun z => ?_⟩
    have hf : Fits { l.ext z with asi := .NoSemicolon } := ext_fits hl z
    have := scan_more (Nat.le_max_left n ((l.ext z).rest.length + 1)) hf (h3 z)
    unfold consume
    rw [← this]
    rw [scanAll_eq (n := (l.ext z).rest.length + 1) (by simp), scanAll_eq (n := max n ((l.ext z).rest.length + 1)) (by simp; omega)]
  · refine .inr fun z b hb => ?_
    rcases (ha ((l.ext z).rest.length + 1)).split l hl with h | h
    · exact absurd ⟨_, h⟩ hn
    · exact h z b hb

theorem local_readRegularExpression : Local2 readRegularExpression := by
  have hc : Climbs readRegularExpression Prod.fst := by
    intro l b h
    unfold readRegularExpression at h
    cases e : regexGo false l.rest l.index with
    | none => simp [e] at h
    | some x =>
      have hi := regexGo_index e
      obtain ⟨t, r, i⟩ := x
      simp only [e] at h hi
      split at h
      · cases h
      · rename_i e'
        simp only [Option.some.injEq, Prod.mk.injEq] at e'
        obtain ⟨rfl, rfl, rfl⟩ := e'
        cases h
        have := (over_skipWhile regexFlag (l.moveTo r i)).index
        change _ ≤ ((l.moveTo r i).skipWhile regexFlag).index
        rw [this]
        change _ ≤ i + _
        omega
      · rename_i e'
        simp only [Option.some.injEq, Prod.mk.injEq] at e'
        obtain ⟨rfl, rfl, rfl⟩ := e'
        cases h
        exact hi
  refine ⟨hc, fun l hl => ?_⟩
  rcases regexGo_split false l.rest l.index with ⟨⟨t, r, i⟩, e, hz⟩ | h
  · have hz : ∀ z, regexGo false (l.ext z).rest (l.ext z).index = _ := hz
    obtain ⟨p, c, q, h1, h2, h3, h4⟩ := regexGo_some e
    have hm : (l.moveTo r i).Fits := moveTo_same (l := l) (p := p ++ q) hl h2 (by simp [h3]; omega)
    unfold Split2 readRegularExpression
    simp only [hz]
    rcases h4 with ⟨rfl, rfl, rfl⟩ | ⟨rfl, rfl, h5⟩ | ⟨rfl, rfl⟩
    · simp only
      rcases (local_skip regexFlag .LiteralRegEx).split _ hm with ⟨a, ha1, ha2, ha3⟩ | h
      · refine .inl ⟨a, a.sliceSource (l.index - 1) a.index, ha1, ha2, fun z => ?_⟩
        have e : (((l.ext z).moveTo (r ++ z) i).skipWhile regexFlag).setToken .LiteralRegEx = a.ext z := by
          have := ha3 z
          simp only [Out.ok.injEq] at this
          exact this
        rw [e, slice_ext]
        · rfl
        · unfold Fits at ha1; change a.index ≤ _; omega
      · exact .inr fun z b hb => by cases hb; exact h z _ rfl
    · exact .inl ⟨(l.moveTo r i).setToken .UnexpectedEndOfProgram, [], hm, rfl, fun z => rfl⟩
    · exact .inl ⟨(l.moveTo r i).setToken .UnexpectedToken, [], hm, rfl, fun z => rfl⟩
  · refine .inr fun z b hb => ?_
    unfold readRegularExpression at hb
    cases e : regexGo false (l.ext z).rest (l.ext z).index with
    | none => simp [e] at hb
    | some x =>
      have hx := h z x e
      obtain ⟨t, r, i⟩ := x
      simp only [e] at hb hx
      unfold Fits at hl
      split at hb
      · cases hb
      · rename_i e'
        simp only [Option.some.injEq, Prod.mk.injEq] at e'
        obtain ⟨rfl, rfl, rfl⟩ := e'
        cases hb
        have := (over_skipWhile regexFlag ((l.ext z).moveTo r i)).index
        change _ < (((l.ext z).moveTo r i).skipWhile regexFlag).index + 4
        rw [this]
        change _ < i + _ + 4
        omega
      · rename_i e'
        simp only [Option.some.injEq, Prod.mk.injEq] at e'
        obtain ⟨rfl, rfl, rfl⟩ := e'
        cases hb
        change _ < i + 4
        omega

end Lex
end Ratel
