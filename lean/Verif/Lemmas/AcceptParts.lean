import Verif.Lemmas.Accept
/-! Patterns, functions, properties and class members of error-free runs. -/
namespace Ratel
open Spec

set_option linter.unusedSectionVars false
variable [Unicode]

variable {src : Bytes} {n : Nat} {R : Rec} [Rec.Known src R] [hR : Rec.Ok src R]

attribute [grind cases eager] IdentRead

/-! ### Patterns -/

theorem patternAssign_ok {l0 l : Lex} {left : Pattern} (hl : At src l) (h0 : At src l0) (ha : Adv src l0 l) (h : PatRead src l0 left l) :
    W (patternAssign R left) l (PatRead src l0 · ·) := by
  unfold patternAssign
  walk
  · open_all
    refine ⟨?_, rfl⟩
    full
    · good <;> grind
    all_goals grind
  · exact h

instance : Sp src (patternObject n R) fun l p l' => l.token = .BraceOpen → PatRead src l p l' := ⟨fun l hl => by
  unfold patternObject
  walk
  intro ht
  open_all
  refine ⟨?_, rfl⟩
  full
  · good <;> grind
  all_goals grind⟩

instance : Sp src (patternParam n R) (PatRead src) := ⟨fun l hl => by
  unfold patternParam
  walk
  · exact W.call hl (patternIdentifier_ok hl (by assumption)) (fun a l' h1 h2 h3 => patternAssign_ok h1 hl h2 h3) (by mono)
  · rename_i h
    exact patternAssign_ok (by assumption) hl (by assumption) (h (by assumption))
  · rename_i h
    exact patternAssign_ok (by assumption) hl (by assumption) (h (by assumption))⟩

instance : Sp src (patternParse n R) (PatRead src) := ⟨fun l hl => by
  unfold patternParse
  walk
  · exact patternIdentifier_ok hl (by assumption)
  · rename_i h
    exact h (by assumption)
  · rename_i h
    exact h (by assumption)⟩

abbrev ElementRead (src : Bytes) (l : Lex) (p : Pattern) (l' : Lex) : Prop := Read src (.pat p) p.loc l l' ∧ isRest p = false

instance : Sp src (patternArrayElement n R) (ElementRead src) := ⟨fun l hl => by
  unfold patternArrayElement
  walk
  · open_all
    refine ⟨⟨?_, ?_, ?_, ?_, ?_⟩, rfl⟩
    · good <;> grind
    all_goals grind
  · open_all
    refine ⟨⟨?_, ?_, ?_, ?_, ?_⟩, rfl⟩
    · good <;> grind
    all_goals grind
  · rename_i h
    exact ⟨h.1.toRead, h.2⟩⟩

instance : Sp src (patternArray n R) fun l p l' => l.token = .BracketOpen → PatRead src l p l' := ⟨fun l hl => by
  have : Sp src (arrayElements n (patternArrayElement n R)) fun l ps l' =>
      Reads src true .pat Pattern.loc (fun p => isRest p = false) l ps l' ∧ l'.token = .BracketClose :=
    ⟨fun l hl => arrayElements_ok (fun l hl => Sp.is (src := src) (m := patternArrayElement n R) l hl) hl⟩
  unfold patternArray
  walk
  intro ht
  open_all
  refine ⟨?_, rfl⟩
  full
  · good <;> grind
  all_goals grind⟩

/-! ### Functions -/

instance : Sp src restElement fun l p l' => l.token = .OperatorSpread → Full src (.pat p) p.loc l l' ∧ isRest p = true := ⟨fun l hl => by
  unfold restElement
  walk
  intro ht
  open_all
  refine ⟨?_, rfl⟩
  full
  · good <;> grind
  all_goals grind⟩

theorem restLast_of {ps : List Pattern} (h : ∀ p ∈ ps, isRest p = false) : RestLast ps := fun p hp => h p (List.dropLast_subset _ hp)
theorem restLast_snoc {ps : List Pattern} {r : Pattern} (h : ∀ p ∈ ps, isRest p = false) : RestLast (ps ++ [r]) := by
  intro p hp
  rw [List.dropLast_concat] at hp
  exact h p hp

abbrev ParamsRead (src : Bytes) (l : Lex) (ps : List Pattern) (l' : Lex) : Prop :=
  Reads src true .pat Pattern.loc (fun p => (Node.pat p).isHole = false) l ps l' ∧ RestLast ps

instance : Sp src (params n R) (ParamsRead src) := ⟨fun l hl => by
  unfold params
  walk
  · exact ⟨.nil, restLast_of (by simp)⟩
  · rename_i h
    have h := h (by assumption)
    refine ⟨.single ?_ h.1.hole, restLast_of (ps := []) (by simp)⟩
    open_all
    constructor <;> first | assumption | omega
  · rename_i h1 _ h2 h3 hx
    refine W.loop (src := src) (fun acc m => At src m ∧ Adv src l m ∧
      Reads src true .pat Pattern.loc (fun p => (Node.pat p).isHole = false ∧ isRest p = false) l acc m) (fun acc m hm => ?_)
      (by mono) ⟨by assumption, ?_, .single ?_ ⟨hx.1.hole, hx.2⟩⟩
    · obtain ⟨h1, h2, h3⟩ := hm
      have hr : ∀ p ∈ acc, isRest p = false := fun p hp => (h3.extra p hp).2
      have h3' : Reads src true .pat Pattern.loc (fun p => (Node.pat p).isHole = false) l acc m :=
        ⟨h3.good, h3.lo, h3.ord, h3.mid, h3.hi, h3.order, h3.apart, fun p hp => (h3.extra p hp).1⟩
      walk
      · exact ⟨h3'.adv (by open_all; omega) (by open_all; omega), restLast_of hr⟩
      · rename_i h
        have h := h (by assumption)
        exact ⟨h3'.snoc (fun _ => by open_all; omega) h.1.toRead h.1.hole (by open_all; omega) (by open_all; omega) (by open_all; omega) (by open_all; omega),
          restLast_snoc hr⟩
      · rename_i h4 h5 h6
        refine ⟨h4, ?_, h3.snoc (fun _ => ?_) h6.1.toRead ⟨h6.1.hole, h6.2⟩ ?_ ?_ ?_ ?_⟩
        · constructor <;> (open_all; omega)
        all_goals (open_all; omega)
      · exact ⟨h3'.adv (by open_all; omega) (by open_all; omega), restLast_of hr⟩
    · constructor <;> (open_all; omega)
    · open_all
      constructor <;> first | assumption | omega⟩

/-- A function that was read. -/
structure FuncRead (src : Bytes) (k : NameKind) (l : Lex) (f : Func) (l' : Lex) : Prop where
  good : (Node.func f).Forall (Good src)
  lo : l.tokenStart ≤ (funcBodyLoc f).start
  ord : (funcBodyLoc f).start ≤ (funcBodyLoc f).stop
  first : l.index ≤ (funcBodyLoc f).stop
  hi : (funcBodyLoc f).stop ≤ l'.tokenStart
  same : f.bodyStop = (funcBodyLoc f).stop
  name : match k with
    | .empty => funcName f = .empty
    | .optional => Name.isOptional (funcName f) = true
    | .mandatory => Name.isMandatory (funcName f) = true

instance {k} : Sp src (functionParse n R k) (FuncRead src k) := ⟨fun l hl => by
  unfold functionParse
  walk
  all_goals
    obtain ⟨loc, body⟩ := a
    inst_all
    dsimp only [ParamsRead] at *
    cases_type* BlockRead
    open_all
    constructor
    · good <;> grind
    all_goals grind⟩

/-! ### Properties -/

instance : Sp src (methodParse n R) fun l r l' => FuncRead src .empty l r.2 l' ∧ r.1.start = l.tokenStart ∧ r.1.stop = (funcBodyLoc r.2).stop :=
  ⟨fun l hl => by
    unfold methodParse
    walk
    rename_i h
    exact ⟨h, rfl, h.same⟩⟩

/-- A property key that was read. -/
structure KeyRead (src : Bytes) (l : Lex) (k : PropKey) (l' : Lex) : Prop where
  good : (Node.key k).Forall (Good src)
  lo : l.tokenStart ≤ (keyLoc k).start
  ord : (keyLoc k).start ≤ (keyLoc k).stop
  first : l.index ≤ (keyLoc k).stop
  hi : (keyLoc k).stop ≤ l'.tokenStart

/-- Its text is at its span. -/
def KeyText (src : Bytes) (k : PropKey) : Prop := ∀ x ∈ keyWritten k, slice src x.1.start x.1.stop = x.2

theorem IdentRead.literalKey {l l' : Lex} {i : Ident} (h : IdentRead src l i l') (hl' : At src l') :
    KeyRead src l (.literal i.loc i.name) l' ∧ KeyText src (.literal i.loc i.name) := by
  open_all
  refine ⟨?_, by simpa [KeyText] using by assumption⟩
  constructor
  · good <;> grind
  all_goals grind

theorem IdentRead.binaryKey {l l' : Lex} {i : Ident} (h : IdentRead src l i l') (hl' : At src l') :
    KeyRead src l (.binary i.loc i.name) l' ∧ KeyText src (.binary i.loc i.name) := by
  open_all
  refine ⟨?_, by simpa [KeyText] using by assumption⟩
  constructor
  · good <;> grind
  all_goals grind

theorem propertyValue_ok {l0 l : Lex} {k : PropKey} (hl : At src l) (h0 : At src l0) (hk : KeyRead src l0 k l) (hx : KeyText src k)
    (hst : l0.tokenStart = (keyLoc k).start) : W (propertyValue n R l0.tokenStart k) l (PropRead src l0 · ·) := by
  unfold propertyValue
  unfold KeyText at hx
  walk
  · cases hk
    open_all
    full
    · good <;> grind
    all_goals grind
  · rename_i h1 h2 h3
    inst_all
    cases_type* KeyRead And FuncRead
    open_all
    full
    · good <;> grind
    all_goals grind

instance : Sp src (property n R) (PropRead src) := ⟨fun l hl => by
  unfold property
  walk
  · exact propertyValue_ok (by assumption) hl
      ((hl.ident (by simp [named, *]) (by assumption)).literalKey (by assumption)).1
      ((hl.ident (by simp [named, *]) (by assumption)).literalKey (by assumption)).2 rfl
  · exact propertyValue_ok (by assumption) hl
      ((hl.ident (by simp [named, *]) (by assumption)).literalKey (by assumption)).1
      ((hl.ident (by simp [named, *]) (by assumption)).literalKey (by assumption)).2 rfl
  · obtain ⟨_, _, _, _, _, _⟩ := hl.ident (by simp [named, *]) (by assumption)
    open_all
    full
    · good <;> grind
    all_goals grind
  · open_all
    full
    · good <;> grind
    all_goals grind
  · exact propertyValue_ok (by assumption) hl
      ((hl.ident (by simp [named, *]) (by assumption)).literalKey (by assumption)).1
      ((hl.ident (by simp [named, *]) (by assumption)).literalKey (by assumption)).2 rfl
  · exact propertyValue_ok (by assumption) hl
      ((hl.ident (by simp [named, *]) (by assumption)).literalKey (by assumption)).1
      ((hl.ident (by simp [named, *]) (by assumption)).literalKey (by assumption)).2 rfl
  · exact propertyValue_ok (by assumption) hl
      ((hl.ident (by simp [named, *]) (by assumption)).binaryKey (by assumption)).1
      ((hl.ident (by simp [named, *]) (by assumption)).binaryKey (by assumption)).2 rfl
  · refine propertyValue_ok (by assumption) hl ?_ (by simp [KeyText]) rfl
    open_all
    constructor
    · good <;> grind
    all_goals grind⟩

/-! ### Classes -/

theorem At.text_length {l : Lex} (h : At src l) : l.tokenAsStr.length = l.index - l.tokenStart := by
  rw [← h.text, slice]
  have := h.len
  simp
  omega

theorem BehindWord.mono {w : Bytes} {k : PropKey} {a b : Nat} (h : BehindWord src w k a) (hab : a ≤ b) : BehindWord src w k b := by
  obtain ⟨l, n, x, h1, h2, h3, h4, h5⟩ := h
  exact ⟨l, n, x, h1, h2, h3, h4, Nat.le_trans h5 hab⟩

abbrev MemberRead (src : Bytes) (l : Lex) (m : ClassMember) (l' : Lex) : Prop := Full src (.member m) (memberLoc m) l l'

theorem classMemberValue_ok {l0 l : Lex} {k : PropKey} {st : Bool} {kind : MethodKind} (hl : At src l) (h0 : At src l0)
    (hk : KeyRead src l0 k l)
    (hx : kind ≠ .Get → kind ≠ .Set → KeyText src k) (hg : kind = .Get → BehindWord src bs!"get" k l.tokenStart)
    (hs : kind = .Set → BehindWord src bs!"set" k l.tokenStart)
    (hc : kind = .Constructor → st = false ∧ keyNames k = [bs!"constructor"])
    (hst : (st = true → Opens src l0.tokenStart bs!"static") ∧ (st = false → l0.tokenStart = (keyLoc k).start)) :
    W (classMemberValue n R l0.tokenStart st kind k) l (MemberRead src l0 · ·) := by
  have hlit : kind = .Get ∨ kind = .Set → ∃ l n, k = .literal l n := by
    rintro (h | h)
    · obtain ⟨l, n, x, h1, -⟩ := hg h
      exact ⟨l, n, h1⟩
    · obtain ⟨l, n, x, h1, -⟩ := hs h
      exact ⟨l, n, h1⟩
  have hg' : ∀ b, l.tokenStart ≤ b → kind = .Get → BehindWord src bs!"get" k b := fun b hb h => BehindWord.mono (hg h) hb
  have hs' : ∀ b, l.tokenStart ≤ b → kind = .Set → BehindWord src bs!"set" k b := fun b hb h => BehindWord.mono (hs h) hb
  have hb : ∀ b, l.tokenStart ≤ b → KeyText src k ∨ BehindWord src bs!"get" k b ∨ BehindWord src bs!"set" k b := by
    intro b hb
    by_cases h1 : kind = .Get
    · exact .inr (.inl (hg' b hb h1))
    by_cases h2 : kind = .Set
    · exact .inr (.inr (hs' b hb h2))
    exact .inl (hx h1 h2)
  unfold KeyText at *
  unfold classMemberValue
  walk
  all_goals
    inst_all
    clear hg hs
    cases_type* KeyRead And FuncRead
    open_all
    full
    · good <;> grind
    all_goals grind

end Ratel
