import Verif.Lemmas.CompleteLists
/-! The parser finds every phrase of the grammar: objects, patterns, functions, classes, blocks and arrow
functions. -/
namespace Ratel
open Spec
set_option linter.unusedSectionVars false
set_option linter.unusedSimpArgs false
variable [Unicode]
variable {k : Nat} {i m n o q j : List Item} {e a b c : Expr}

namespace Complete

/-! ### Functions -/

def kindOf : Naming → NameKind
  | .never => .empty | .optional => .optional | .always => .mandatory

theorem name {nk : Naming} {nm : Name} (h : NameAt nk i nm j) : Parses (fun _ => parseName (kindOf nk)) bareName i nm j := by
  intro l hl
  cases h with
  | never =>
    apply Found.intro
    · simp only [kindOf, parseName]
      ev []
    · assumption
    · simp only [bareName]
  | given h =>
    obtain ⟨ht, hw, l1, hc, hl1⟩ := hl.wd h
    have hw := text_of ht hw
    apply Found.intro
    · simp only [kindOf, parseName]
      ev [ht]
    · assumption
    · simp only [bareName, Option.map_some, bareIdent, hw]
  | missing h =>
    have ht : l.token ≠ .Identifier := by rw [hl.token]; exact h
    apply Found.intro
    · simp only [kindOf, parseName]
      ev [ht]
    · assumption
    · simp only [bareName, Option.map_none]
  | always h =>
    obtain ⟨ht, hw, l1, hc, hl1⟩ := hl.wd h
    have hw := text_of ht hw
    apply Found.intro
    · simp only [kindOf, parseName]
      ev [ht]
    · assumption
    · simp only [bareName, bareIdent, hw]

theorem identifier_run {w : Bytes} (h : Wd .Identifier w i j) : Parses (fun _ => identifier) bareIdent i ⟨z, w⟩ j := by
  intro l hl
  obtain ⟨ht, hw, l1, hc, hl1⟩ := hl.wd h
  have hw := text_of ht hw
  apply Found.intro
  · simp only [identifier]
    ev [ht]
  · assumption
  · simp only [bareIdent, hw]

/-! ### Objects -/

def propsBody (n : Nat) (acc : List Property) : P (Step (List Property) (List Property)) := do
  match ← tok with
  | .BraceClose => pure (.done acc)
  | .Comma => do
    consume
    if (← tok) = .BraceClose then pure (.done acc)
    else
      let x ← (procs n).property
      pure (.again (acc ++ [x]))
  | _ => do
    error
    pure (.done acc)

def Prop' (i : List Item) (p : Property) (j : List Item) : Prop :=
  look i ≠ .BraceClose ∧ Parses (fun n => (procs n).property) bareProp i p j

def Props (i : List Item) (ps : List Property) (j : List Item) : Prop :=
  Items (fun n => (procs n).property) propsBody bareProp (fun t => t == .BraceClose) i ps j

theorem propsNone (h : look j = .BraceClose) : Props j [] j := Items.none (by rw [h]; rfl)

theorem propsLast {p : Property} (h : Prop' i p j) (h' : look j = .BraceClose) : Props i [p] j := by
  refine Items.last h.2 (by simpa using h.1) fun l acc hl => ?_
  have ht : l.token = .BraceClose := by rw [hl.token]; exact h'
  unfold propsBody
  ev [ht]

theorem propsMore {p : Property} {ps : List Property} (h : Prop' i p m) (h1 : Tk .Comma m n) (h2 : Props n ps j) :
    Props i (p :: ps) j := by
  refine Items.more h.2 (by simpa using h.1) h1 h2 ?_ ?_
  · intro l l1 acc ht hc hs
    have hs : l1.token = .BraceClose := by simpa using hs
    unfold propsBody
    ev [ht, hs]
  · intro l l1 acc x l2 ht hc hs hx
    have hs : l1.token ≠ .BraceClose := by simpa using hs
    unfold propsBody
    ev [ht, hs]

theorem props_run {ps : List Property} (h : Props i ps j) :
    Parses (fun n => propertyList n (procs n)) bareProps i ps j := by
  intro l hl
  rcases h l hl with ⟨rfl, rfl, hs⟩ | ⟨hs, x, l1, xs, l', hx, hes, hl', hlp⟩
  · have ht : l.token = .BraceClose := by rw [hl.token]; simpa using hs
    apply Found.intro
    · unfold propertyList
      ev [ht]
    · assumption
    · simp only [bareProps]
  · have ht : l.token ≠ .BraceClose := by rw [hl.token]; simpa using hs
    have hlp := Ev.loop (hlp [x])
    apply Found.intro
    · unfold propertyList
      ev [ht]
      exact hlp
    · assumption
    · rw [bareProps_map, ← hes]; rfl

theorem object {ps : List Property} (h : Tk .BraceOpen i m) (h1 : Props m ps n) (h2 : Tk .BraceClose n j) :
    Opens k i (.object z ps) j := by
  refine Opens.head (h := .OBJ) (by rw [h.look]; decide +kernel) (by decide) fun l hl => ?_
  obtain ⟨ht, l1, hc, hl1⟩ := hl.tk h
  obtain ⟨e', l2, he, hl2, hev⟩ := props_run h1 l1 hl1
  obtain ⟨ht2, l3, hc2, hl3⟩ := hl2.tk h2
  apply Found.intro
  · unfold runEH
    simp only [objectExpression]
    ev []
  · assumption
  · simp only [bareExpr, he]

def PropValue (i : List Item) (k : PropKey) (p : Property) (j : List Item) : Prop :=
  (look i = .Colon ∨ look i = .ParenOpen) ∧
  ∀ s k', bareKey k' = k → Parses (fun n => propertyValue n (procs n) s k') bareProp i p j

theorem isWord_plain {t : Token} (h : t.isWord = true) : t ≠ .Accessor ∧ t ≠ .TemplateOpen ∧ t ≠ .TemplateClosed ∧
    t ≠ .BraceClose ∧ t ≠ .EndOfProgram ∧ t ≠ .ParenClose := by
  have h1 : ∀ t ∈ Token.all, t.isWord = true → t ≠ .Accessor ∧ t ≠ .TemplateOpen ∧ t ≠ .TemplateClosed ∧
    t ≠ .BraceClose ∧ t ≠ .EndOfProgram ∧ t ≠ .ParenClose := by decide +kernel
  exact h1 t t.mem_all h

theorem word_text {l : Lex} {t : Token} {w : Bytes} (ht : l.token = t) (hw : l.text = w) (h : t.isWord = true) :
    l.tokenAsStr = w := text_of ht hw (isWord_plain h).1 (isWord_plain h).2.1 (isWord_plain h).2.2.1

theorem shorthand {t : Token} {w : Bytes} (h : Wd t w i j) (ht : t.isWord = true) (h1 : look j ≠ .Colon)
    (h2 : look j ≠ .ParenOpen) : Prop' i (.shorthand z w) j := by
  refine ⟨by rw [h.look]; exact (isWord_plain ht).2.2.2.1, fun l hl => ?_⟩
  obtain ⟨ht', hw, l1, hc, hl1⟩ := hl.wd h
  have hw := word_text ht' hw ht
  have h1 : l1.token ≠ .Colon := by rw [hl1.token]; exact h1
  have h2 : l1.token ≠ .ParenOpen := by rw [hl1.token]; exact h2
  apply Found.intro
  · apply Ev.property
    unfold property
    ev [ht', ht]
  · assumption
  · simp only [bareProp, hw]

theorem propWord {t : Token} {w : Bytes} {p : Property} (h : Wd t w i m) (ht : t.isWord = true)
    (h1 : PropValue m (.literal z w) p j) : Prop' i p j := by
  refine ⟨by rw [h.look]; exact (isWord_plain ht).2.2.2.1, fun l hl => ?_⟩
  obtain ⟨ht', hw, l1, hc, hl1⟩ := hl.wd h
  have hw := word_text ht' hw ht
  have ht1 : l1.token = .Colon ∨ l1.token = .ParenOpen := by rw [hl1.token]; exact h1.1
  obtain ⟨p', l2, hp, hl2, hev⟩ := h1.2 l.tokenStart (.literal ⟨l.tokenStart, l.index⟩ l.tokenAsStr)
    (by simp only [bareKey, hw]) l1 hl1
  refine ⟨p', l2, hp, hl2, Ev.property ?_⟩
  unfold property
  rcases ht1 with ht1 | ht1
  · ev [ht', ht, ht1]
  · ev [ht', ht, ht1]

theorem propLiteral {t : Token} {w : Bytes} {p : Property} (h : Wd t w i m) (ht : t = .LiteralString ∨ t = .LiteralNumber)
      (h1 : PropValue m (.literal z w) p j) : Prop' i p j := by
  refine ⟨by rw [h.look]; rcases ht with rfl | rfl <;> decide, fun l hl => ?_⟩
  obtain ⟨ht', hw, l1, hc, hl1⟩ := hl.wd h
  have hw : l.tokenAsStr = w := by
    rcases ht with rfl | rfl
    · exact text_of ht' hw
    · exact text_of ht' hw
  obtain ⟨p', l2, hp, hl2, hev⟩ := h1.2 l.tokenStart (.literal ⟨l.tokenStart, l.index⟩ l.tokenAsStr)
    (by simp only [bareKey, hw]) l1 hl1
  refine ⟨p', l2, hp, hl2, Ev.property ?_⟩
  unfold property
  rcases ht with rfl | rfl
  · have hx : Token.isWord .LiteralString = false := by decide +kernel
    ev [ht', hx, Bool.false_eq_true]
  · have hx : Token.isWord .LiteralNumber = false := by decide +kernel
    ev [ht', hx, Bool.false_eq_true]

theorem propBinary {w : Bytes} {p : Property} (h : Wd .LiteralBinary w i m) (h1 : PropValue m (.binary z w) p j) :
    Prop' i p j := by
  refine ⟨by rw [h.look]; decide, fun l hl => ?_⟩
  obtain ⟨ht', hw, l1, hc, hl1⟩ := hl.wd h
  have hw := text_of ht' hw
  obtain ⟨p', l2, hp, hl2, hev⟩ := h1.2 l.tokenStart (.binary ⟨l.tokenStart, l.index⟩ l.tokenAsStr)
    (by simp only [bareKey, hw]) l1 hl1
  refine ⟨p', l2, hp, hl2, Ev.property ?_⟩
  unfold property
  have hx : Token.isWord .LiteralBinary = false := by decide +kernel
  ev [ht', hx, Bool.false_eq_true]

theorem propComputed {p : Property} (h : Tk .BracketOpen i m) (h1 : Finds 0 m e n) (h2 : Tk .BracketClose n o)
      (h3 : PropValue o (.computed z e) p j) : Prop' i p j := by
  refine ⟨by rw [h.look]; decide, fun l hl => ?_⟩
  obtain ⟨ht', l1, hc, hl1⟩ := hl.tk h
  obtain ⟨e', l2, he, hl2, hev⟩ := h1.run (c := .DEF) (L := .ANY) rfl l1 hl1
  obtain ⟨ht2, l3, hc2, hl3⟩ := hl2.tk h2
  obtain ⟨p', l4, hp, hl4, hev4⟩ := h3.2 l.tokenStart (.computed ⟨l.tokenStart, l2.index⟩ e')
    (by simp only [bareKey, he]) l3 hl3
  refine ⟨p', l4, hp, hl4, Ev.property ?_⟩
  unfold property
  have hx : Token.isWord .BracketOpen = false := by decide +kernel
  ev [ht', hx, Bool.false_eq_true]

theorem propSpread (h : Tk .OperatorSpread i m) (h1 : Finds 1 m e j) : Prop' i (.spread z e) j := by
  refine ⟨by rw [h.look]; decide, fun l hl => ?_⟩
  obtain ⟨ht', l1, hc, hl1⟩ := hl.tk h
  obtain ⟨e', l2, he, hl2, hev⟩ := h1.run (c := .DEF) (L := .B0) rfl l1 hl1
  have hx : Token.isWord .OperatorSpread = false := by decide +kernel
  apply Found.intro
  · apply Ev.property
    unfold property
    ev [ht', hx, Bool.false_eq_true]
  · assumption
  · simp only [bareProp, he]

theorem propField {k : PropKey} (h : Tk .Colon i m) (h1 : Finds 1 m e j) : PropValue i k (.literal z k e) j := by
  refine ⟨.inl h.look, fun s k' hk l hl => ?_⟩
  obtain ⟨ht', l1, hc, hl1⟩ := hl.tk h
  obtain ⟨e', l2, he, hl2, hev⟩ := h1.run (c := .DEF) (L := .B0) rfl l1 hl1
  apply Found.intro
  · unfold propertyValue
    ev [ht']
  · assumption
  · simp only [bareProp, he, hk]

theorem method_run {f : Func} (h1 : Parses (fun n => functionParse n (procs n) (kindOf .never)) bareFunc i f j) :
    Parses (fun n => methodParse n (procs n)) (fun x => bareFunc x.2) i f j := by
  intro l hl
  obtain ⟨f', l2, hf, hl2, hev⟩ := h1 l hl
  apply Found.intro
  · unfold methodParse
    simp only [kindOf] at hev
    ev []
  · assumption
  · assumption

theorem propMethod {k : PropKey} {f : Func} (h : look i = .ParenOpen)
    (h1 : Parses (fun n => functionParse n (procs n) (kindOf .never)) bareFunc i f j) :
      PropValue i k (.method z k z f) j := by
  refine ⟨.inr h, fun s k' hk l hl => ?_⟩
  have ht : l.token = .ParenOpen := by rw [hl.token]; exact h
  obtain ⟨⟨x, f'⟩, l2, hf, hl2, hev⟩ := method_run h1 l hl
  simp only at hf
  apply Found.intro
  · unfold propertyValue
    ev [ht]
  · assumption
  · simp only [bareProp, hf, hk]

/-! ### Patterns -/

def Pat (i : List Item) (p : Pattern) (j : List Item) : Prop :=
  (look i = .Identifier ∨ look i = .BracketOpen ∨ look i = .BraceOpen) ∧
  Parses (fun n => patternParse n (procs n)) barePat i p j

def Param (i : List Item) (p : Pattern) (j : List Item) : Prop :=
  (look i = .Identifier ∨ look i = .BracketOpen ∨ look i = .BraceOpen) ∧
  Parses (fun n => patternParam n (procs n)) barePat i p j

theorem patIdent {w : Bytes} (h : Wd .Identifier w i j) : Pat i (.ident z w) j := by
  refine ⟨.inl h.look, fun l hl => ?_⟩
  obtain ⟨ht, hw, l1, hc, hl1⟩ := hl.wd h
  have hw := text_of ht hw
  apply Found.intro
  · unfold patternParse
    ev [ht, patternIdentifier]
  · assumption
  · simp only [barePat, hw]

abbrev PatElems (i : List Item) (ps : List Pattern) (j : List Item) : Prop :=
  Elems (fun n => patternArrayElement n (procs n)) barePat i ps j

theorem patArray {ps : List Pattern} (h : Tk .BracketOpen i m) (h0 : look m ≠ .BracketClose) (h1 : PatElems m ps n)
      (h2 : Tk .BracketClose n j) : Pat i (.array z ps) j := by
  refine ⟨.inr (.inl h.look), fun l hl => ?_⟩
  obtain ⟨ht, l1, hc, hl1⟩ := hl.tk h
  obtain ⟨e', l2, he, hl2, hev⟩ := elems_run h0 h1 l1 hl1
  obtain ⟨ht2, l3, hc2, hl3⟩ := hl2.tk h2
  apply Found.intro
  · unfold patternParse
    ev [ht]
    apply Ev.patArray
    unfold patternArray
    ev []
  · assumption
  · simp only [barePat, barePats_map, he]

theorem patEmptyArray (h : Tk .BracketOpen i m) (h2 : Tk .BracketClose m j) : Pat i (.array z []) j := by
  refine ⟨.inr (.inl h.look), fun l hl => ?_⟩
  obtain ⟨ht, l1, hc, hl1⟩ := hl.tk h
  obtain ⟨ht2, l3, hc2, hl3⟩ := hl1.tk h2
  apply Found.intro
  · unfold patternParse
    ev [ht]
    apply Ev.patArray
    unfold patternArray arrayElements
    ev [ht2]
  · assumption
  · simp only [barePat, barePats]

theorem patObject {ps : List Property} (h : Tk .BraceOpen i m) (h1 : Props m ps n) (h2 : Tk .BraceClose n j) :
      Pat i (.object z ps) j := by
  refine ⟨.inr (.inr h.look), fun l hl => ?_⟩
  obtain ⟨ht, l1, hc, hl1⟩ := hl.tk h
  obtain ⟨e', l2, he, hl2, hev⟩ := props_run h1 l1 hl1
  obtain ⟨ht2, l3, hc2, hl3⟩ := hl2.tk h2
  apply Found.intro
  · unfold patternParse
    ev [ht, patternObject]
  · assumption
  · simp only [barePat, he]

theorem patternParam_eq (n : Nat) (R : Rec) : patternParam n R = (patternParse n R >>= patternAssign R) := rfl

theorem param {p : Pattern} (h : Pat i p j) (h' : look j ≠ .OperatorAssign) : Param i p j := by
  refine ⟨h.1, fun l hl => ?_⟩
  obtain ⟨p', l1, hp, hl1, hev⟩ := h.2 l hl
  have ht : l1.token ≠ .OperatorAssign := by rw [hl1.token]; exact h'
  refine ⟨p', l1, hp, hl1, ?_⟩
  simp only [patternParam_eq]
  refine hev.bind ?_
  unfold patternAssign
  ev [ht]

theorem paramDefault {p : Pattern} (h : Pat i p m) (h1 : Tk .OperatorAssign m n) (h2 : Finds 1 n e j) :
      Param i (.assign z p e) j := by
  refine ⟨h.1, fun l hl => ?_⟩
  obtain ⟨p', l1, hp, hl1, hev⟩ := h.2 l hl
  obtain ⟨ht, l2, hc, hl2⟩ := hl1.tk h1
  obtain ⟨e', l3, he, hl3, hev3⟩ := h2.run (c := .DEF) (L := .B0) rfl l2 hl2
  apply Found.intro
  · simp only [patternParam_eq]
    unfold patternAssign
    ev [ht]
  · assumption
  · simp only [barePat, hp, he]

theorem patElem {p : Pattern} (h : Param i p j) : Parses (fun n => patternArrayElement n (procs n)) barePat i p j := by
  intro l hl
  obtain ⟨p', l1, hp, hl1, hev⟩ := h.2 l hl
  refine ⟨p', l1, hp, hl1, ?_⟩
  unfold patternArrayElement
  have ht := hl.token
  rcases h.1 with h | h | h <;> rw [h] at ht <;> ev [ht]

theorem patHole (h : look j = .Comma ∨ look j = .BracketClose) :
    Parses (fun n => patternArrayElement n (procs n)) barePat j (.void z) j := by
  intro l hl
  have ht := hl.token
  refine ⟨.void ⟨l.tokenStart, l.tokenStart⟩, l, by simp only [barePat], hl, ?_⟩
  unfold patternArrayElement
  rcases h with h | h <;> rw [h] at ht <;> ev [ht]

/-! ### Parameters -/

def paramsBody (n : Nat) (acc : List Pattern) : P (Step (List Pattern) (List Pattern)) := do
  match ← tok with
  | .Comma => do
    consume
    match ← tok with
    | .ParenClose => do
      consume
      pure (.done acc)
    | .OperatorSpread => do
      let r ← restElement
      pure (.done (acc ++ [r]))
    | _ => do
      let p ← patternParam n (procs n)
      pure (.again (acc ++ [p]))
  | .ParenClose => do
    consume
    pure (.done acc)
  | _ => do
    error
    pure (.done acc)

def Params (i : List Item) (ps : List Pattern) (j : List Item) : Prop :=
  ∀ l, Stream l i → (ps = [] ∧ Tk .ParenClose i j) ∨
    (look i = .OperatorSpread ∧ ∃ r l', Ev (fun _ => restElement) l r l' ∧ Stream l' j ∧ ps = [barePat r]) ∨
    (look i ≠ .ParenClose ∧ look i ≠ .OperatorSpread ∧ ∃ x l1 xs l', Ev (fun n => patternParam n (procs n)) l x l1 ∧
      (x :: xs).map barePat = ps ∧ Stream l' j ∧ ∀ acc, EvLoop paramsBody acc l1 (acc ++ xs) l')

theorem paramsNone (h : Tk .ParenClose i j) : Params i [] j := fun _ _ => .inl ⟨rfl, h⟩

theorem paramsRest {w : Bytes} (h : Tk .OperatorSpread i m) (h1 : Wd .Identifier w m n) (h2 : Tk .ParenClose n j) :
      Params i [.rest z ⟨z, w⟩] j := by
  intro l hl
  obtain ⟨ht, l1, hc, hl1⟩ := hl.tk h
  obtain ⟨p', l2, hp, hl2, hev⟩ := identifier_run h1 l1 hl1
  obtain ⟨ht2, l3, hc2, hl3⟩ := hl2.tk h2
  refine .inr (.inl ⟨h.look, .rest ⟨l.tokenStart, p'.loc.stop⟩ p', l3, ?_, hl3, ?_⟩)
  · unfold restElement
    ev []
  · simp only [barePat, hp]

theorem param_first {p : Pattern} (h : Param i p j) : look i ≠ .ParenClose ∧ look i ≠ .OperatorSpread := by
  rcases h.1 with h | h | h <;> rw [h] <;> decide

theorem paramsLast {p : Pattern} (h : Param i p m) (h1 : Tk .ParenClose m j) : Params i [p] j := by
  intro l hl
  obtain ⟨p', l1, hp, hl1, hev⟩ := h.2 l hl
  obtain ⟨ht, l2, hc, hl2⟩ := hl1.tk h1
  refine .inr (.inr ⟨(param_first h).1, (param_first h).2, p', l1, [], l2, hev, by simp [hp], hl2, fun acc => .done ?_⟩)
  rw [List.append_nil]
  unfold paramsBody
  ev [ht]

theorem paramsMore {p : Pattern} {ps : List Pattern} (h : Param i p m) (h1 : Tk .Comma m n) (h2 : Params n ps j) :
      Params i (p :: ps) j := by
  intro l hl
  obtain ⟨p', l1, hp, hl1, hev⟩ := h.2 l hl
  obtain ⟨ht, l2, hc, hl2⟩ := hl1.tk h1
  have ht2 := hl2.token
  rcases h2 l2 hl2 with ⟨rfl, hn⟩ | ⟨hn, r, l', hr, hl', rfl⟩ | ⟨hn, hn', x, l3, xs, l', hx, rfl, hl', hlp⟩
  · obtain ⟨_, l3, hc3, hl3⟩ := hl2.tk hn
    rw [hn.look] at ht2
    refine .inr (.inr ⟨(param_first h).1, (param_first h).2, p', l1, [], l3, hev, by simp [hp], hl3, fun acc => .done ?_⟩)
    rw [List.append_nil]
    unfold paramsBody
    ev [ht, ht2]
  · rw [hn] at ht2
    refine .inr (.inr ⟨(param_first h).1, (param_first h).2, p', l1, [r], l', hev, by simp [hp], hl', fun acc => .done ?_⟩)
    unfold paramsBody
    ev [ht, ht2]
  · refine .inr (.inr ⟨(param_first h).1, (param_first h).2, p', l1, x :: xs, l', hev, by simp [hp], hl', fun acc => ?_⟩)
    have hlp := hlp (acc ++ [x])
    simp only [List.append_assoc, List.cons_append, List.nil_append] at hlp
    refine .again ?_ hlp
    unfold paramsBody
    ev [ht]
    rw [← ht2] at hn hn'
    split
    · contradiction
    · contradiction
    · ev []

theorem params_run {ps : List Pattern} (h : Tk .ParenOpen i m) (h1 : Params m ps j) :
    Parses (fun n => params n (procs n)) barePats i ps j := by
  intro l hl
  obtain ⟨ht, l1, hc, hl1⟩ := hl.tk h
  have ht1 := hl1.token
  rcases h1 l1 hl1 with ⟨rfl, hn⟩ | ⟨hn, r, l', hr, hl', rfl⟩ | ⟨hn, hn', x, l3, xs, l', hx, rfl, hl', hlp⟩
  · obtain ⟨_, l3, hc3, hl3⟩ := hl1.tk hn
    rw [hn.look] at ht1
    apply Found.intro
    · unfold params
      ev [ht1]
    · assumption
    · simp only [barePats]
  · rw [hn] at ht1
    apply Found.intro
    · unfold params
      ev [ht1]
    · assumption
    · simp only [barePats]
  · rw [← ht1] at hn hn'
    have hlp := Ev.loop (hlp [x])
    refine ⟨[x] ++ xs, l', by rw [barePats_map]; rfl, hl', ?_⟩
    unfold params
    ev []
    exact hlp

/-! ### Blocks -/

/-- The loop of `raw_block`. -/
def rawBody {α : Type} (item : P α) (acc : List α) : P (Step (List α) (List α)) := do
  let t ← tok
  if t ≠ .BraceClose ∧ t ≠ .EndOfProgram then
    let x ← item
    pure (.again (acc ++ [x]))
  else pure (.done acc)

def closes (t : Token) : Bool := t == .BraceClose || t == .EndOfProgram

section
variable {α β : Type} {item : Nat → P α} {f : α → β} {t : β} {ts : List β}

/-- A list up to and with the closing brace, or up to the end of the program. -/
def Tail (item : Nat → P α) (f : α → β) (i : List Item) (ts : List β) (j : List Item) : Prop :=
  ∃ m, Items item (fun n => rawBody (item n)) f closes i ts m ∧ (Tk .BraceClose m j ∨ (m = [] ∧ j = []))

theorem tail_close (h : Tk .BraceClose i j) : Tail item f i [] j :=
  ⟨i, Items.none (by rw [h.look]; rfl), .inl h⟩

theorem tail_end : Tail item f [] [] [] := ⟨[], Items.none rfl, .inr ⟨rfl, rfl⟩⟩

theorem not_closes {t : Token} : closes t = false ↔ t ≠ .BraceClose ∧ t ≠ .EndOfProgram := by
  simp [closes]

theorem tail_more (h : Parses item f i t m) (h0 : closes (look i) = false) (h1 : Tail item f m ts j) :
    Tail item f i (t :: ts) j := by
  obtain ⟨m', h2, h3⟩ := h1
  refine ⟨m', Items.cons h h0 h2 ?_ ?_, h3⟩
  · intro l acc hl hs
    have ht : ¬ (l.token ≠ .BraceClose ∧ l.token ≠ .EndOfProgram) := by
      rw [hl.token, ← not_closes]; simpa using hs
    unfold rawBody
    refine Ev.tok.mpr ?_
    simp only [if_neg ht]
    exact .ret
  · intro l acc x l1 hl hs hx
    have ht : (l.token ≠ .BraceClose ∧ l.token ≠ .EndOfProgram) := by
      rw [hl.token, ← not_closes]; simpa using hs
    unfold rawBody
    refine Ev.tok.mpr ?_
    simp only [if_pos ht]
    ev []

/-- The rest of a block after its opening brace. -/
theorem tail_run (h : Tail item f i ts j) (h0 : ts = [] → i ≠ []) :
    ∀ l, Stream l i → ∃ xs l1 l2, xs.map f = ts ∧ Ev (fun n => rawBlock n (item n)) l xs l1 ∧ l1.consume = .ok l2 ∧
      Stream l2 j := by
  intro l hl
  obtain ⟨m, hm, hj⟩ := h
  have ht := hl.token
  rcases hm l hl with ⟨rfl, rfl, hs⟩ | ⟨hs, x, l1, xs, l', hx, hes, hl', hlp⟩
  · rcases hj with hj | ⟨rfl, rfl⟩
    · obtain ⟨ht, l2, hc, hl2⟩ := hl.tk hj
      refine ⟨[], l, l2, rfl, ?_, hc, hl2⟩
      unfold rawBlock
      ev [ht]
    · exact absurd rfl (h0 rfl)
  · have hlp := Ev.loop (hlp [x])
    obtain ⟨l2, hc, hl2⟩ : ∃ l2, l'.consume = .ok l2 ∧ Stream l2 j := by
      rcases hj with hj | ⟨rfl, rfl⟩
      · exact (hl'.tk hj).2
      · exact hl'.more
    refine ⟨[x] ++ xs, l', l2, by rw [← hes]; rfl, ?_, hc, hl2⟩
    have ht : l.token ≠ .BraceClose := by rw [ht]; exact (not_closes.mp hs).1
    unfold rawBlock
    ev [ht]
    exact hlp

theorem block_run (h : Tk .BraceOpen i m) (h1 : Tail item f m ts j) (h0 : ts = [] → m ≠ []) :
    Parses (fun n => Ratel.block n (item n)) (fun x => x.2.map f) i ts j := by
  intro l hl
  obtain ⟨ht, l1, hc, hl1⟩ := hl.tk h
  obtain ⟨xs, l2, l3, hxs, hev, hc2, hl3⟩ := tail_run h1 h0 l1 hl1
  apply Found.intro
  · unfold Ratel.block
    ev []
  · assumption
  · assumption

theorem unchecked_run (h : Tk .BraceOpen i m) (h1 : Tail item f m ts j) (h0 : ts = [] → m ≠ []) :
    Parses (fun n => uncheckedBlock n (item n)) (fun x => x.2.map f) i ts j := by
  intro l hl
  obtain ⟨ht, l1, hc, hl1⟩ := hl.tk h
  obtain ⟨xs, l2, l3, hxs, hev, hc2, hl3⟩ := tail_run h1 h0 l1 hl1
  apply Found.intro
  · unfold uncheckedBlock
    ev []
  · assumption
  · assumption
end

/-- A block of statements. -/
def Blk (i : List Item) (b : Block) (j : List Item) : Prop :=
  look i = .BraceOpen ∧ Parses (fun n => stmtBlock n (procs n)) bareBlock i b j ∧
  Parses (fun n => uncheckedBlock n (procs n).stmt) (fun x => bareBlock (.mk x.1 x.2)) i b j

theorem block {ss : List Stmt} (h : Tk .BraceOpen i m) (h1 : Tail (fun n => (procs n).stmt) bareStmt m ss j)
    (h0 : ss = [] → m ≠ []) : Blk i (.mk z ss) j := by
  refine ⟨h.look, fun l hl => ?_, fun l hl => ?_⟩
  · obtain ⟨⟨x, b⟩, l1, hb, hl1, hev⟩ := block_run h h1 h0 l hl
    simp only at hb
    apply Found.intro
    · unfold stmtBlock
      ev []
    · assumption
    · simp only [bareBlock, bareStmts_map, hb]
  · obtain ⟨⟨x, b⟩, l1, hb, hl1, hev⟩ := unchecked_run h h1 h0 l hl
    simp only at hb
    exact ⟨_, l1, by simp only [bareBlock, bareStmts_map, hb], hl1, hev⟩

theorem func {nk : Naming} {g : Bool} {nm : Name} {ps : List Pattern} {b : Block} {r : List Item} (h : StarAt i g m)
    (h1 : NameAt nk m nm n) (h2 : Tk .ParenOpen n o) (h3 : Params o ps q) (h4 : Blk q b r) :
    Parses (fun n => functionParse n (procs n) (kindOf nk)) bareFunc i (.mk nm g ps b) r := by
  intro l hl
  obtain ⟨l1, hl1, hev⟩ : ∃ l1, Stream l1 m ∧ Ev (fun _ => do
      if (← tok) = .OperatorMultiplication then
        consume
        pure true
      else pure false) l g l1 := by
    cases h with
    | yes h =>
      obtain ⟨ht, l1, hc, hl1⟩ := hl.tk h
      refine ⟨l1, hl1, ?_⟩
      ev [ht]
    | no h =>
      have ht : l.token ≠ .OperatorMultiplication := by rw [hl.token]; exact h
      refine ⟨l, hl, ?_⟩
      ev [ht]
  obtain ⟨nm', l2, hnm, hl2, hev2⟩ := name h1 l1 hl1
  obtain ⟨ps', l3, hps, hl3, hev3⟩ := params_run h2 h3 l2 hl2
  obtain ⟨b', l4, hb, hl4, hev4⟩ := h4.2.1 l3 hl3
  apply Found.intro
  · unfold functionParse
    with_reducible apply Ev.bind hev
    ev []
  · assumption
  · simp only [bareFunc, hnm, hps, hb]

theorem function {f : Func} (h : Tk .Function i m)
    (h1 : Parses (fun n => functionParse n (procs n) (kindOf .optional)) bareFunc m f j) : Opens k i (.function z f) j := by
  refine Opens.head (h := .FUNC) (by rw [h.look]; decide +kernel) (by decide) fun l hl => ?_
  obtain ⟨ht, l1, hc, hl1⟩ := hl.tk h
  obtain ⟨f', l2, hf, hl2, hev⟩ := h1 l1 hl1
  simp only [kindOf] at hev
  apply Found.intro
  · unfold runEH
    ev []
  · assumption
  · simp only [bareExpr, hf]

/-! ### Arrow functions -/

theorem param_of : (e : Expr) → ∀ p, paramOf (bareExpr e) = some p →
    ∃ p', barePat p' = p ∧ ∀ s, patternFromExpression e s = .ok (p', s)
  | .ident l w, p, h => by
    simp only [bareExpr, paramOf, Option.some.injEq] at h
    exact ⟨.ident l w, by simp only [barePat, h], fun s => rfl⟩
  | .binary l op a b, p, h => by
    simp only [bareExpr] at h
    cases op <;> simp only [paramOf, reduceCtorEq] at h
    rw [Option.map_eq_some_iff] at h
    obtain ⟨pa, ha, rfl⟩ := h
    obtain ⟨p', hp, hev⟩ := param_of a pa ha
    refine ⟨.assign l p' b, by simp only [barePat, hp], fun s => ?_⟩
    unfold patternFromExpression
    change (patternFromExpression a s).bind _ = _
    rw [hev]
    rfl
  | .void _, _, h | .this _, _, h | .lit _ _, _, h | .seq _ _, _, h | .array _ _, _, h | .member _ _ _, _, h
  | .cmember _ _ _, _, h | .metaProp _ _ _, _, h | .call _ _ _, _, h | .prefix _ _ _, _, h
  | .postfix _ _ _, _, h | .cond _ _ _ _, _, h | .template _ _ _, _, h | .tagged _ _ _ _ _, _, h | .spread _ _, _, h
  | .arrowE _ _ _, _, h | .arrowB _ _ _, _, h | .object _ _, _, h | .function _ _, _, h | .class _ _, _, h => by
    simp only [bareExpr, paramOf, reduceCtorEq] at h

theorem params_of (es : List Expr) : ∀ ps, (bareExprs es).mapM paramOf = some ps →
    ∃ ps', barePats ps' = ps ∧ ∀ s, paramsFromExpressions es s = .ok (ps', s) := by
  induction es with
  | nil =>
    intro ps h
    simp only [bareExprs, List.mapM_nil, Option.pure_def, Option.some.injEq] at h
    exact ⟨[], by simp only [barePats, h], fun s => rfl⟩
  | cons e es ih =>
    intro ps h
    simp only [bareExprs, List.mapM_cons, Option.pure_def, Option.bind_eq_bind, Option.bind_eq_some_iff,
      Option.some.injEq] at h
    obtain ⟨p, hp, ps1, hps, rfl⟩ := h
    obtain ⟨p', hp', h1⟩ := param_of e p hp
    obtain ⟨ps', hps', h2⟩ := ih ps1 hps
    refine ⟨p' :: ps', by simp only [barePats, hp', hps'], fun s => ?_⟩
    unfold paramsFromExpressions
    change (patternFromExpression e s).bind _ = _
    rw [h1]
    change (paramsFromExpressions es s).bind _ = _
    rw [h2]
    rfl

/-- The parameters that `=>` takes from the expression before it. -/
def arrowParams : Expr → List Expr
  | .seq _ body => body
  | e => [e]

theorem arrowParams_of {e : Expr} {ps : List Pattern} (h : paramsOf (bareExpr e) = some ps) :
    ∃ ps', barePats ps' = ps ∧ ∀ s, paramsFromExpressions (arrowParams e) s = .ok (ps', s) := by
  apply params_of
  cases e with
  | seq l es => simpa only [arrowParams, bareExpr, paramsOf] using h
  | _ =>
    simp only [arrowParams, bareExpr, paramsOf, bareExprs, List.mapM_cons, List.mapM_nil, Option.pure_def,
      Option.bind_eq_bind, Option.map_eq_some_iff, Option.bind_eq_some_iff, Option.some.injEq, exists_eq_right'] at h ⊢
    obtain ⟨p, hp, rfl⟩ := h
    exact ⟨p, hp, [], rfl, rfl⟩

theorem arrowFun {s : Nat} {es : List Expr} {ps' : List Pattern} (hps : ∀ s, paramsFromExpressions es s = .ok (ps', s))
    (hb : look n ≠ .BraceOpen) (h2 : Finds 1 n b j) :
    Parses (fun n => arrowFunctionExpression n (procs n) s es) bareExpr n (.arrowE z (barePats ps') b) j := by
  intro l hl
  obtain ⟨b', l1, hb', hl1, hev⟩ := h2.run (c := .DEF) (L := .B0) rfl l hl
  have ht : l.token ≠ .BraceOpen := by rw [hl.token]; exact hb
  have hev0 : Ev (fun _ => paramsFromExpressions es) l ps' l := ⟨0, fun _ _ => hps _⟩
  apply Found.intro
  · unfold arrowFunctionExpression
    ev [ht]
  · assumption
  · simp only [bareExpr, hb']

theorem arrowFunBlock {s : Nat} {es : List Expr} {ps' : List Pattern} {b : Block}
    (hps : ∀ s, paramsFromExpressions es s = .ok (ps', s)) (h2 : Blk n b j) :
    Parses (fun n => arrowFunctionExpression n (procs n) s es) bareExpr n (.arrowB z (barePats ps') b) j := by
  intro l hl
  obtain ⟨⟨x, b'⟩, l1, hb', hl1, hev⟩ := h2.2.2 l hl
  simp only at hb'
  have ht : l.token = .BraceOpen := by rw [hl.token]; exact h2.1
  have hev0 : Ev (fun _ => paramsFromExpressions es) l ps' l := ⟨0, fun _ _ => hps _⟩
  apply Found.intro
  · unfold arrowFunctionExpression
    ev [ht]
  · assumption
  · simp only [bareExpr, hb']

theorem arrowTail {r : Expr} {ps : List Pattern} (hk : k ≤ 17) (h : Opens 17 i e m) (hp : paramsOf e = some ps)
      (h1 : Tk .OperatorFatArrow m n)
      (h2 : ∀ s es ps', barePats ps' = ps → (∀ s, paramsFromExpressions es s = .ok (ps', s)) →
        Parses (fun n => arrowFunctionExpression n (procs n) s es) bareExpr n r j) :
      Opens k i r j := by
  refine Opens.extend h hk fun a' l ha' hl => ?_
  obtain ⟨ht, l1, hc, hl1⟩ := hl.tk h1
  rw [← ha'] at hp
  obtain ⟨ps', hps', hev0⟩ := arrowParams_of hp
  obtain ⟨r', l2, hr, hl2, hev⟩ := h2 a'.loc.start (arrowParams a') ps' hps' hev0 l1 hl1
  apply Step.intro (h := .ARRW)
  · intro L hL
    rw [ht]
    exact handler_tight rfl
  · unfold runNH
    apply Ev.run_consume
    · assumption
    exact hev
  · assumption
  · assumption

theorem arrow {ps : List Pattern} (hk : k ≤ 17) (h : Opens 17 i e m) (hp : paramsOf e = some ps)
      (h1 : Tk .OperatorFatArrow m n) (hb : look n ≠ .BraceOpen) (h2 : Finds 1 n b j) :
      Opens k i (.arrowE z ps b) j := by
  refine arrowTail hk h hp h1 fun s es ps' hps hev => ?_
  rw [← hps]
  exact arrowFun hev hb h2

theorem arrowBlock {ps : List Pattern} {b : Block} (hk : k ≤ 17) (h : Opens 17 i e m) (hp : paramsOf e = some ps)
      (h1 : Tk .OperatorFatArrow m n) (h2 : Blk n b j) : Opens k i (.arrowB z ps b) j := by
  refine arrowTail hk h hp h1 fun s es ps' hps hev => ?_
  rw [← hps]
  exact arrowFunBlock hev h2

theorem arrowTail0 {r : Expr} (h : Tk .ParenOpen i m) (h0 : Tk .ParenClose m n)
      (h1 : Tk .OperatorFatArrow n o)
      (h2 : ∀ s, Parses (fun n => arrowFunctionExpression n (procs n) s []) bareExpr o r j) :
      Opens k i r j := by
  refine Opens.head (h := .PRN) (by rw [h.look]; decide +kernel) (by decide) fun l hl => ?_
  obtain ⟨ht, l1, hc, hl1⟩ := hl.tk h
  obtain ⟨ht1, l2, hc1, hl2⟩ := hl1.tk h0
  obtain ⟨ht2, l3, hc2, hl3⟩ := hl2.tk h1
  obtain ⟨r', l4, hr, hl4, hev⟩ := h2 l.tokenStart l3 hl3
  refine ⟨r', l4, hr, hl4, ?_⟩
  unfold runEH
  simp only [parenExpression]
  ev [ht1]

theorem arrow0 (h : Tk .ParenOpen i m) (h0 : Tk .ParenClose m n) (h1 : Tk .OperatorFatArrow n o)
    (hb : look o ≠ .BraceOpen) (h2 : Finds 1 o b j) : Opens k i (.arrowE z [] b) j := by
  refine arrowTail0 h h0 h1 fun s => ?_
  have := arrowFun (s := s) (es := []) (ps' := []) (fun _ => rfl) hb h2
  simpa only [barePats] using this

theorem arrowBlock0 {b : Block} (h : Tk .ParenOpen i m) (h0 : Tk .ParenClose m n) (h1 : Tk .OperatorFatArrow n o)
    (h2 : Blk o b j) : Opens k i (.arrowB z [] b) j := by
  refine arrowTail0 h h0 h1 fun s => ?_
  have := arrowFunBlock (s := s) (es := []) (ps' := []) (fun _ => rfl) h2
  simpa only [barePats] using this

end Complete
end Ratel
