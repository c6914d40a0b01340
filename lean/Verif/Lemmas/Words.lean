import Verif.Lemmas.Handlers
/-! The keyword tries of the lexer against the keyword table. -/
namespace Ratel
set_option linter.unusedSectionVars false
open Spec

/-- Takes a leading byte off a word. -/
def unconsIf (c : Byte) : Bytes → Option Bytes
  | [] => none
  | b :: w => if b = c then some w else none

mutual
/-- The token a trie gives to a word (without its first byte). -/
def Trie.find : Trie → Bytes → Option Token
  | .leaf bs t, w => if w = bs then some t else none
  | .node dflt brs, w => Trie.findBrs dflt brs w
/-- The branches of a trie. -/
def Trie.findBrs : Option Token → List (Byte × Trie) → Bytes → Option Token
  | dflt, [], w => if w = [] then dflt else none
  | dflt, (b, t) :: brs, w =>
    match unconsIf b w with
    | some w' => t.find w'
    | none => Trie.findBrs dflt brs w
end

mutual
/-- The words of a trie with their tokens. -/
def Trie.words : Trie → List (Bytes × Token)
  | .leaf bs t => [(bs, t)]
  | .node dflt brs => Trie.wordsBrs dflt brs
/-- The words of the branches of a trie. -/
def Trie.wordsBrs : Option Token → List (Byte × Trie) → List (Bytes × Token)
  | dflt, [] => (dflt.map fun t => ([], t)).toList
  | dflt, (b, t) :: brs => t.words.map (fun x => (b :: x.1, x.2)) ++ Trie.wordsBrs dflt brs
end

theorem unconsIf_some {c : Byte} {w w' : Bytes} : unconsIf c w = some w' ↔ w = c :: w' := by
  cases w with
  | nil => simp [unconsIf]
  | cons b w =>
    simp only [unconsIf, List.cons.injEq]
    split
    · subst_vars; simp
    · simp [*]

mutual
theorem Trie.find_mem (t : Trie) (w : Bytes) (k : Token) (h : t.find w = some k) : (w, k) ∈ t.words := by
  cases t with
  | leaf bs t =>
    simp only [Trie.find] at h
    split at h
    · simp at h; subst_vars; simp [Trie.words]
    · simp at h
  | node d brs => exact Trie.findBrs_mem d brs w k (by simpa [Trie.find] using h)
theorem Trie.findBrs_mem (d : Option Token) (brs : List (Byte × Trie)) (w : Bytes) (k : Token)
    (h : Trie.findBrs d brs w = some k) : (w, k) ∈ Trie.wordsBrs d brs := by
  match brs with
  | [] =>
    simp only [Trie.findBrs] at h
    split at h
    · subst_vars; simp [Trie.wordsBrs]
    · simp at h
  | (b, t) :: brs =>
    simp only [Trie.findBrs] at h
    split at h
    · rename_i w' hw
      rw [unconsIf_some] at hw
      subst hw
      have := Trie.find_mem t w' k h
      simp [Trie.wordsBrs, this]
    · have := Trie.findBrs_mem d brs w k h
      simp [Trie.wordsBrs, this]
end

mutual
/-- All bytes of the trie can occur in words. -/
def Trie.legal : Trie → Bool
  | .leaf bs _ => bs.all wordByte
  | .node _ brs => Trie.legalBrs brs
/-- All bytes of the branches can occur in words. -/
def Trie.legalBrs : List (Byte × Trie) → Bool
  | [] => true
  | (b, t) :: brs => wordByte b && t.legal && Trie.legalBrs brs
end

namespace Lex
variable [Unicode]

/-- The word at the beginning. -/
def word (r : Bytes) : Bytes := r.takeWhile wordByte

theorem word_cons {b : Byte} {r : Bytes} (h : wordByte b = true) : word (b :: r) = b :: word r := by
  simp [word, h]

theorem word_of_not {r : Bytes} (h : wordByte (next r) = false) : word r = [] := by
  cases r with
  | nil => rfl
  | cons a r => simp [next] at h; simp [word, h]

theorem word_nil_iff {r : Bytes} : word r = [] ↔ wordByte (next r) = false := by
  cases r with
  | nil => simp [word, next]; decide
  | cons a r => simp only [word, List.takeWhile_cons, next, List.headD_cons]; split <;> simp [*]

theorem bump_moveTo {l : Lex} {c : Byte} {r : Bytes} (h : l.rest = c :: r) :
    l.bump = .ok (l.moveTo r (l.index + 1)) := bump_cons h

@[simp] theorem rest_moveTo (l : Lex) (r : Bytes) (i : Nat) : (l.moveTo r i).rest = r := rfl
@[simp] theorem index_moveTo (l : Lex) (r : Bytes) (i : Nat) : (l.moveTo r i).index = i := rfl
@[simp] theorem moveTo_moveTo (l : Lex) (r s : Bytes) (i j : Nat) : (l.moveTo r i).moveTo s j = l.moveTo s j := rfl

theorem moveTo_self (l : Lex) : l.moveTo l.rest l.index = l := rfl

theorem matchLeaf_spec {bs : Bytes} {l : Lex} {c : Byte} {r : Bytes} (hb : bs.all wordByte) (hr : l.rest = c :: r) :
    ∃ p s, r = p ++ s ∧ (∀ b ∈ p, wordByte b) ∧ (word r = bs → p = bs) ∧
      matchLeaf bs l = .ok (l.moveTo s (l.index + (p.length + 1)), decide (word r = bs)) := by
  induction bs generalizing l c r with
  | nil =>
    refine ⟨[], r, rfl, by simp, fun _ => rfl, ?_⟩
    rw [matchLeaf, bump_moveTo hr]
    simp only [Out.bind_ok, readByte, legalInLabel_eq, rest_moveTo, List.length_nil, Nat.zero_add, word_nil_iff]
    simp [next]
  | cons b bs ih =>
    simp only [List.all_cons, Bool.and_eq_true] at hb
    rw [matchLeaf, bump_moveTo hr]
    simp only [Out.bind_ok]
    by_cases hab : (l.moveTo r (l.index + 1)).readByte = b
    · rw [if_pos hab]
      simp only [readByte, rest_moveTo] at hab
      cases r with
      | nil => simp at hab; subst hab; exact absurd hb.1 (by decide)
      | cons a r =>
        simp at hab
        subst hab
        obtain ⟨p, s, h1, h2, h3, h4⟩ := ih (l := l.moveTo (a :: r) (l.index + 1)) hb.2 rfl
        refine ⟨a :: p, s, by simp [h1], by simpa [hb.1] using h2, ?_, ?_⟩
        · rw [word_cons hb.1]; simpa using h3
        · rw [h4, word_cons hb.1]; simp [Nat.add_assoc, Nat.add_comm]
    · rw [if_neg hab]
      simp only [readByte, rest_moveTo] at hab
      have hw : word r ≠ b :: bs := by
        cases r with
        | nil => simp [word]
        | cons a r =>
          simp at hab
          simp only [word, List.takeWhile_cons]
          split <;> simp [hab]
      exact ⟨[], r, rfl, by simp, by simp [hw], by simp [hw]⟩

mutual
theorem matchLabel_spec (t : Trie) (l : Lex) (c : Byte) (r : Bytes) (hb : t.legal) (hr : l.rest = c :: r) :
    ∃ p s, r = p ++ s ∧ (∀ b ∈ p, wordByte b) ∧ (t.find (word r) ≠ none → p = word r) ∧
      matchLabel t l = .ok (l.moveTo s (l.index + (p.length + 1)), t.find (word r)) := by
  cases t with
  | leaf bs t =>
    simp only [Trie.legal] at hb
    obtain ⟨p, s, h1, h2, h3, h4⟩ := matchLeaf_spec hb hr
    refine ⟨p, s, h1, h2, ?_, ?_⟩
    · simp only [Trie.find]
      split
      · rename_i h; intro _; rw [h3 h, h]
      · simp
    · rw [matchLabel, h4]; simp [Trie.find]
  | node d brs =>
    simp only [Trie.legal] at hb
    rw [matchLabel, bump_moveTo hr]
    simp only [Out.bind_ok, Trie.find]
    obtain ⟨p, s, h1, h2, h3, h4⟩ :=
      matchBranches_spec d brs (l.moveTo r (l.index + 1)) r hb rfl
    exact ⟨p, s, h1, h2, h3, by rw [h4]; simp only [moveTo_moveTo, index_moveTo]; congr 3; omega⟩
theorem matchBranches_spec (d : Option Token) (brs : List (Byte × Trie)) (l : Lex) (r : Bytes)
    (hb : Trie.legalBrs brs) (hr : l.rest = r) :
    ∃ p s, r = p ++ s ∧ (∀ b ∈ p, wordByte b) ∧ (Trie.findBrs d brs (word r) ≠ none → p = word r) ∧
      matchBranches d brs l = .ok (l.moveTo s (l.index + p.length), Trie.findBrs d brs (word r)) := by
  match brs with
  | [] =>
    refine ⟨[], r, rfl, by simp, ?_, ?_⟩
    · simp only [Trie.findBrs]
      split
      · rename_i h; simp [h]
      · simp
    · rw [matchBranches.eq_def]
      simp only [readByte, legalInLabel_eq, Trie.findBrs, hr, List.length_nil, Nat.add_zero, word_nil_iff]
      subst hr
      rw [moveTo_self]
      cases d <;> simp [next]
      split <;> simp_all
  | (b, t) :: brs =>
    simp only [Trie.legalBrs, Bool.and_eq_true] at hb
    obtain ⟨⟨hb1, hb2⟩, hb3⟩ := hb
    rw [matchBranches]
    simp only [Trie.findBrs]
    by_cases h : l.readByte = b
    · rw [if_pos h]
      rw [readByte, hr] at h
      cases r with
      | nil => simp at h; subst h; exact absurd hb1 (by decide)
      | cons a r =>
        simp at h
        subst h
        have : unconsIf a (word (a :: r)) = some (word r) := by
          simp [word, hb1, unconsIf]
        simp only [this]
        obtain ⟨p, s, h1, h2, h3, h4⟩ := matchLabel_spec t l a r hb2 hr
        refine ⟨a :: p, s, by simp [h1], by simpa [hb1] using h2, ?_, by rw [h4]; simp⟩
        intro hh
        rw [word_cons hb1, h3 hh]
    · rw [if_neg h]
      rw [readByte, hr] at h
      have : unconsIf b (word r) = none := by
        cases r with
        | nil => rfl
        | cons a r =>
          simp at h
          simp only [word, List.takeWhile_cons]
          split <;> simp [unconsIf, h]
      simp only [this]
      exact matchBranches_spec d brs l r hb3 hr
end

theorem skipWhile_of_append {l : Lex} {p s : Bytes} {k : Nat} (h : ∀ b ∈ p, wordByte b) :
    (l.moveTo s (k + p.length)).readLabel = (l.moveTo (p ++ s) k).readLabel := by
  simp only [readLabel, skipWhile, skipWhileGo_eq, rest_moveTo, index_moveTo, moveTo_moveTo]
  have : legalInLabel = wordByte := funext legalInLabel_eq
  rw [this]
  rw [List.takeWhile_append_of_pos h, List.dropWhile_append_of_pos h]
  simp [Nat.add_assoc]

/-- The whole effect of a keyword handler. -/
theorem labelHandler_eq {t : Trie} {l : Lex} {c : Byte} {r : Bytes} (hb : t.legal) (hr : l.rest = c :: r) :
    l.labelHandler t = .ok ((l.moveTo r (l.index + 1)).readLabel.setToken
      ((t.find (word r)).getD .Identifier)) := by
  obtain ⟨p, s, h1, h2, h3, h4⟩ := matchLabel_spec t l c r hb hr
  rw [labelHandler, h4]
  simp only [Out.bind_ok]
  have hi : l.index + (p.length + 1) = (l.index + 1) + p.length := by omega
  cases hf : t.find (word r) with
  | none => simp only [Option.getD_none]; rw [hi, skipWhile_of_append h2, ← h1]
  | some k =>
    simp only [Option.getD_some]
    have hp := h3 (by simp [hf])
    rw [h1] at hp
    have hs : wordByte (next s) = false := by
      rw [word, List.takeWhile_append_of_pos h2] at hp
      have : List.takeWhile wordByte s = [] := by
        have := congrArg List.length hp
        simp at this
        simpa using this
      exact word_nil_iff.mp this
    rw [hi, h1, ← skipWhile_of_append h2]
    congr 2
    simp only [readLabel, skipWhile, skipWhileGo_eq, rest_moveTo, index_moveTo, moveTo_moveTo]
    cases s with
    | nil => rfl
    | cons a s => simp [next] at hs; simp [legalInLabel_eq, hs]


theorem mem_of_lookup {l : List (Bytes × Token)} {w : Bytes} {k : Token} (h : l.lookup w = some k) :
    (w, k) ∈ l := by
  induction l with
  | nil => simp at h
  | cons x l ih =>
    rw [List.lookup_cons] at h
    split at h
    · rename_i hw
      simp at h hw
      subst h hw
      simp
    · exact List.mem_cons_of_mem _ (ih h)

/-- A finite check of the handler of one byte against the table. -/
def checkByte (c : Byte) : Bool :=
  match labelTrie (handlerOf c) with
  | none => keywords.all fun x => x.1.head? != some c
  | some t => t.legal && wordStart c && t.words.all (fun x => keywords.lookup (c :: x.1) == some x.2) &&
      keywords.all fun x => match x.1 with
        | [] => true
        | b :: w => b != c || t.find w == some x.2

theorem checkByte_all : ∀ c, checkByte c = true := by
  apply byte_forall
  decide +kernel

/-- The trie of a handler knows exactly the keywords that start with the byte of the handler. -/
theorem find_eq_lookup {c : Byte} {t : Trie} (h : labelTrie (handlerOf c) = some t) (w : Bytes) :
    t.find w = keywords.lookup (c :: w) := by
  have hc := checkByte_all c
  simp only [checkByte, h, Bool.and_eq_true, List.all_eq_true, beq_iff_eq] at hc
  obtain ⟨⟨⟨hl, _⟩, h1⟩, h2⟩ := hc
  cases hf : t.find w with
  | some k => exact (h1 _ (Trie.find_mem t w k hf)).symm
  | none =>
    cases hk : keywords.lookup (c :: w) with
    | none => rfl
    | some k =>
      have := h2 _ (mem_of_lookup hk)
      simp [hf] at this

theorem lookup_none {c : Byte} (h : labelTrie (handlerOf c) = none) (w : Bytes) :
    keywords.lookup (c :: w) = none := by
  have hc := checkByte_all c
  simp only [checkByte, h, List.all_eq_true] at hc
  cases hk : keywords.lookup (c :: w) with
  | none => rfl
  | some k =>
    have := hc _ (mem_of_lookup hk)
    simp at this

theorem legal_of_handler {c : Byte} {t : Trie} (h : labelTrie (handlerOf c) = some t) :
    t.legal = true ∧ wordStart c = true := by
  have hc := checkByte_all c
  simp only [checkByte, h, Bool.and_eq_true] at hc
  exact hc.1.1

theorem wordStart_of_idt : ∀ {c : Byte}, handlerOf c = .IDT → wordStart c = true := by
  intro c
  revert c
  apply byte_forall
  decide +kernel

/-- The effect of the handlers for words. -/
theorem word_lexeme {l : Lex} {c : Byte} {r : Bytes} (hr : l.rest = c :: r) (hc : wordStart c = true) :
    Lexed l ((l.moveTo r (l.index + 1)).readLabel.setToken (wordToken (c :: word r))) := by
  have hle : legalInLabel = wordByte := funext legalInLabel_eq
  refine ⟨c :: word r, ?_, ?_⟩
  · have := over_skipWhile legalInLabel (l.moveTo r (l.index + 1))
    rw [hle] at this
    refine Over.setToken ?_ _
    refine ⟨rfl, rfl, ?_, ?_, rfl⟩
    · rw [hr]
      simp [readLabel, hle, word]
    · have := this.index
      simp at this
      simp [readLabel, hle, word, this]
      omega
  · refine Lexeme.word hc (List.all_eq_true.mp List.all_takeWhile) ?_
    simp only [setToken, readLabel, rest_skipWhile, rest_moveTo, hle, next]
    cases h : List.dropWhile wordByte r with
    | nil => decide
    | cons a s =>
      have := List.head?_dropWhile_not wordByte r
      simpa [h] using this

theorem idt_eq {l : Lex} {c : Byte} {r : Bytes} (hr : l.rest = c :: r) (h : labelTrie (handlerOf c) = none) :
    l.idt = .ok ((l.moveTo r (l.index + 1)).readLabel.setToken (wordToken (c :: word r))) := by
  rw [idt, bump_moveTo hr, wordToken, lookup_none h]
  rfl

theorem labelHandler_eq_word {l : Lex} {c : Byte} {r : Bytes} (hr : l.rest = c :: r) {t : Trie}
    (h : labelTrie (handlerOf c) = some t) :
    l.labelHandler t = .ok ((l.moveTo r (l.index + 1)).readLabel.setToken (wordToken (c :: word r))) := by
  rw [labelHandler_eq (legal_of_handler h).1 hr, find_eq_lookup h]
  rfl

end Lex
end Ratel
