import Verif.Lemmas.CompleteRules
/-! The parser finds every phrase of the grammar: lists, templates, arguments, objects and patterns. -/
namespace Ratel
open Spec
set_option linter.unusedSectionVars false
set_option linter.unusedSimpArgs false
variable [Unicode]

/-! ### Lists -/

/-- What the parser does with a list: nothing where a token in `stop` is seen, otherwise the first item
by `item`, then the others by a loop with the given body. -/
def Items {α β : Type} (item : Nat → P α) (body : Nat → List α → P (Step (List α) (List α))) (f : α → β)
    (stop : Token → Bool) (i : List Item) (ts : List β) (j : List Item) : Prop :=
  ∀ l, Stream l i → (ts = [] ∧ i = j ∧ stop (look i) = true) ∨
    (stop (look i) = false ∧ ∃ x l1 xs l', Ev item l x l1 ∧ (x :: xs).map f = ts ∧ Stream l' j ∧
      ∀ acc, EvLoop body acc l1 (acc ++ xs) l')

namespace Items
variable {α β : Type} {item : Nat → P α} {body : Nat → List α → P (Step (List α) (List α))} {f : α → β}
  {stop : Token → Bool} {i m n j : List Item} {t : β} {ts : List β}

theorem none (h : stop (look j) = true) : Items item body f stop j [] j :=
  fun _ _ => .inl ⟨rfl, rfl, h⟩

theorem last (h : Parses item f i t j) (h0 : stop (look i) = false)
    (hb : ∀ l acc, Stream l j → Ev (fun n => body n acc) l (.done acc) l) : Items item body f stop i [t] j := by
  intro l hl
  obtain ⟨x, l1, hx, hl1, hev⟩ := h l hl
  refine .inr ⟨h0, x, l1, [], l1, hev, by simp [hx], hl1, fun acc => ?_⟩
  rw [List.append_nil]
  exact .done (hb l1 acc hl1)

/-- The items are not separated by anything. -/
theorem cons (h : Parses item f i t m) (h0 : stop (look i) = false) (h2 : Items item body f stop m ts j)
    (hb : ∀ l acc, Stream l m → stop (look m) = true → Ev (fun n => body n acc) l (.done acc) l)
    (hg : ∀ l acc x l1, Stream l m → stop (look m) = false → Ev item l x l1 →
      Ev (fun n => body n acc) l (.again (acc ++ [x])) l1) :
    Items item body f stop i (t :: ts) j := by
  intro l hl
  obtain ⟨x, l1, hx, hl1, hev⟩ := h l hl
  rcases h2 l1 hl1 with ⟨rfl, rfl, hs⟩ | ⟨hs, y, l2, ys, l', hy, hys, hl', hlp⟩
  · refine .inr ⟨h0, x, l1, [], l1, hev, by simp [hx], hl1, fun acc => ?_⟩
    rw [List.append_nil]
    exact .done (hb l1 acc hl1 hs)
  · refine .inr ⟨h0, x, l1, y :: ys, l', hev, by simp only [List.map_cons, hx]; rw [← hys]; rfl, hl', fun acc => ?_⟩
    refine .again (hg l1 acc y l2 hl1 hs hy) ?_
    have := hlp (acc ++ [y])
    simpa using this

/-- The items are separated by commas, and the last may be followed by one. -/
theorem more (h : Parses item f i t m) (h0 : stop (look i) = false) (h1 : Tk .Comma m n)
    (h2 : Items item body f stop n ts j)
    (hb : ∀ l l1 acc, l.token = .Comma → l.consume = .ok l1 → stop l1.token = true →
      Ev (fun n => body n acc) l (.done acc) l1)
    (hg : ∀ l l1 acc x l2, l.token = .Comma → l.consume = .ok l1 → stop l1.token = false → Ev item l1 x l2 →
      Ev (fun n => body n acc) l (.again (acc ++ [x])) l2) :
    Items item body f stop i (t :: ts) j := by
  intro l hl
  obtain ⟨x, l1, hx, hl1, hev⟩ := h l hl
  obtain ⟨ht, l2, hc, hl2⟩ := hl1.tk h1
  rcases h2 l2 hl2 with ⟨rfl, rfl, hs⟩ | ⟨hs, y, l3, ys, l', hy, hys, hl', hlp⟩
  · refine .inr ⟨h0, x, l1, [], l2, hev, by simp [hx], hl2, fun acc => ?_⟩
    rw [List.append_nil]
    exact .done (hb l1 l2 acc ht hc (by rw [hl2.token]; exact hs))
  · refine .inr ⟨h0, x, l1, y :: ys, l', hev, by simp only [List.map_cons, hx]; rw [← hys]; rfl, hl', fun acc => ?_⟩
    refine .again (hg l1 l2 acc y l3 ht hc (by rw [hl2.token]; exact hs) hy) ?_
    have := hlp (acc ++ [y])
    simpa using this

end Items

theorem bareExprs_map (es : List Expr) : bareExprs es = es.map bareExpr := by
  induction es with
  | nil => simp only [bareExprs, List.map_nil]
  | cons e es ih => simp only [bareExprs, List.map_cons, ih]
theorem bareProps_map (es : List Property) : bareProps es = es.map bareProp := by
  induction es with
  | nil => simp only [bareProps, List.map_nil]
  | cons e es ih => simp only [bareProps, List.map_cons, ih]
theorem barePats_map (es : List Pattern) : barePats es = es.map barePat := by
  induction es with
  | nil => simp only [barePats, List.map_nil]
  | cons e es ih => simp only [barePats, List.map_cons, ih]
theorem bareMembers_map (es : List ClassMember) : bareMembers es = es.map bareMember := by
  induction es with
  | nil => simp only [bareMembers, List.map_nil]
  | cons e es ih => simp only [bareMembers, List.map_cons, ih]
theorem bareStmts_map (es : List Stmt) : bareStmts es = es.map bareStmt := by
  induction es with
  | nil => simp only [bareStmts, List.map_nil]
  | cons e es ih => simp only [bareStmts, List.map_cons, ih]
theorem bareDeclarators_map (es : List Declarator) : bareDeclarators es = es.map bareDeclarator := by
  induction es with
  | nil => simp only [bareDeclarators, List.map_nil]
  | cons e es ih => simp only [bareDeclarators, List.map_cons, ih]
theorem bareCases_map (es : List SwitchCase) : bareCases es = es.map bareCase := by
  induction es with
  | nil => simp only [bareCases, List.map_nil]
  | cons e es ih => simp only [bareCases, List.map_cons, ih]

variable {k : Nat} {i m n o q j : List Item} {e a b c p : Expr}

namespace Complete

/-! ### Sequences -/

/-- The loop of `SEQ`. -/
def seqBody (n : Nat) (acc : List Expr) : P (Step (List Expr) (List Expr)) := do
  if (← tok) = .Comma then
    consume
    let x ← (procs n).expr .DEF .B0
    pure (.again (acc ++ [x]))
  else pure (.done acc)

def SeqItems (i : List Item) (es : List Expr) (j : List Item) : Prop :=
  Items (fun n => (procs n).expr .DEF .B0) seqBody bareExpr (fun _ => false) i es j

theorem commaLast (h : Finds 1 i e j) (h' : look j ≠ .Comma) : SeqItems i [e] j := by
  refine Items.last (h.run rfl) rfl fun l acc hl => ?_
  have ht : l.token ≠ .Comma := by rw [hl.token]; exact h'
  unfold seqBody
  ev [ht]

theorem commaMore {es : List Expr} (h : Finds 1 i e m) (h1 : Tk .Comma m n) (h2 : SeqItems n es j) :
    SeqItems i (e :: es) j := by
  refine Items.more (h.run rfl) rfl h1 h2 ?_ ?_
  · intro _ _ _ _ _ h; cases h
  · intro l l1 acc x l2 ht hc _ hx
    unfold seqBody
    ev [ht]

theorem comma {es : List Expr} (h : Opens 1 i a m) (h1 : Tk .Comma m n) (h2 : SeqItems n es j) :
    Opens 0 i (.seq z (a :: es)) j := by
  refine Opens.extend h (by omega) fun a' l ha hl => ?_
  obtain ⟨ht, l1, hc, hl1⟩ := hl.tk h1
  rcases h2 l1 hl1 with ⟨_, _, h⟩ | ⟨_, x, l2, xs, l', hx, hes, hl', hlp⟩
  · cases h
  have hlp := Ev.loop (hlp [a', x])
  apply Step.intro (h := .SEQ)
  · intro L hL
    rw [ht, minPower_zero hL]
    exact handler_comma
  · unfold runNH
    unfold seqBody at hlp
    ev []
  · assumption
  · rw [← hes, ← ha]; simp only [bareExpr, bareExprs_map, List.map_append, List.map_cons, List.map_nil, List.cons_append, List.nil_append]

/-! ### Arguments -/

def argsBody (n : Nat) (acc : List Expr) : P (Step (List Expr) (List Expr)) := do
  match ← tok with
  | .ParenClose => pure (.done acc)
  | .Comma => do
    consume
    if (← tok) = .ParenClose then pure (.done acc)
    else
      let x ← (procs n).expr .CALL .B0
      pure (.again (acc ++ [x]))
  | _ => do
    error
    pure (.done acc)

def Arg (i : List Item) (e : Expr) (j : List Item) : Prop :=
  look i ≠ .ParenClose ∧ Parses (fun n => (procs n).expr .CALL .B0) bareExpr i e j

def Args (i : List Item) (es : List Expr) (j : List Item) : Prop :=
  Items (fun n => (procs n).expr .CALL .B0) argsBody bareExpr (fun t => t == .ParenClose) i es j

theorem ne_of_finds {t : Token} (h : Finds k i e j) (ht : exprHandler .DEF t = .ERR := by decide +kernel) : look i ≠ t := by
  intro hh
  apply h.1
  rw [hh, ht]

theorem arg (h : Finds 1 i e j) : Arg i e j := ⟨ne_of_finds h, h.run rfl⟩

theorem spread_run {c : Ctx} (hc : exprHandler c .OperatorSpread = .SPRD) (h : Tk .OperatorSpread i m)
    (h1 : Finds 1 m e j) : Parses (fun n => (procs n).expr c .B0) bareExpr i (.spread z e) j := by
  intro l hl
  obtain ⟨ht, l1, hcc, hl1⟩ := hl.tk h
  obtain ⟨e', l2, he, hl2, hev⟩ := h1.run (c := .DEF) (L := .B0) rfl l1 hl1
  have hstop : nestedHandler .B0 l2.asi l2.token = none := by
    rw [hl2.asi, hl2.token]
    exact handler_none h1.2.1
  refine ⟨.spread ⟨l.tokenStart, e'.loc.stop⟩ e', l2, by simp only [bareExpr, he], hl2, Ev.expr ?_⟩
  refine expression_of (h := .SPRD) (by rw [ht]; exact hc) ?_ (Nest.stop hstop)
  unfold runEH
  ev []

theorem argSpread (h : Tk .OperatorSpread i m) (h1 : Finds 1 m e j) : Arg i (.spread z e) j :=
  ⟨by rw [h.look]; decide, spread_run (by decide +kernel) h h1⟩

theorem argsNone (h : look j = .ParenClose) : Args j [] j := Items.none (by rw [h]; rfl)

theorem argsLast (h : Arg i e j) (h' : look j = .ParenClose) : Args i [e] j := by
  refine Items.last h.2 (by simpa using h.1) fun l acc hl => ?_
  have ht : l.token = .ParenClose := by rw [hl.token]; exact h'
  unfold argsBody
  ev [ht]

theorem argsMore {es : List Expr} (h : Arg i e m) (h1 : Tk .Comma m n) (h2 : Args n es j) : Args i (e :: es) j := by
  refine Items.more h.2 (by simpa using h.1) h1 h2 ?_ ?_
  · intro l l1 acc ht hc hs
    have hs : l1.token = .ParenClose := by simpa using hs
    unfold argsBody
    ev [ht, hs]
  · intro l l1 acc x l2 ht hc hs hx
    have hs : l1.token ≠ .ParenClose := by simpa using hs
    unfold argsBody
    ev [ht, hs]

theorem args_run {es : List Expr} (h : Args i es j) :
    Parses (fun n => callArguments n (procs n)) bareExprs i es j := by
  intro l hl
  rcases h l hl with ⟨rfl, rfl, hs⟩ | ⟨hs, x, l1, xs, l', hx, hes, hl', hlp⟩
  · have ht : l.token = .ParenClose := by rw [hl.token]; simpa using hs
    apply Found.intro
    · unfold callArguments
      ev [ht]
    · assumption
    · simp only [bareExprs]
  · have ht : l.token ≠ .ParenClose := by rw [hl.token]; simpa using hs
    have hlp := Ev.loop (hlp [x])
    apply Found.intro
    · unfold callArguments
      ev [ht]
      exact hlp
    · assumption
    · rw [bareExprs_map, ← hes]; rfl

theorem call {es : List Expr} (hk : k ≤ 17) (h : Opens 17 i e m) (h1 : Tk .ParenOpen m n)
      (h2 : Args n es o) (h3 : Tk .ParenClose o j) : Opens k i (.call z e es) j := by
  refine Opens.extend h hk fun a' l ha' hl => ?_
  obtain ⟨ht, l1, hc, hl1⟩ := hl.tk h1
  obtain ⟨b', l2, hb, hl2, hev2⟩ := args_run h2 l1 hl1
  obtain ⟨ht3, l3, hc3, hl3⟩ := hl2.tk h3
  apply Step.intro (h := .CALL)
  · intro L hL
    rw [ht]
    exact handler_tight rfl
  · unfold runNH
    ev []
  · assumption
  · simp only [bareExpr, ha', hb]

/-! ### Arrays -/

/-- The loop of `array_elements`. -/
def elemsBody {α : Type} (get : P α) (acc : List α) : P (Step (List α) (List α)) := do
  match ← tok with
  | .Comma => do
    consume
    let x ← get
    pure (.again (acc ++ [x]))
  | .BracketClose => pure (.done acc)
  | _ => do
    error
    pure (.done acc)

section
variable {α β : Type} {get : Nat → P α} {f : α → β} {t : β} {ts : List β}

def Elems (get : Nat → P α) (f : α → β) (i : List Item) (ts : List β) (j : List Item) : Prop :=
  Items get (fun n => elemsBody (get n)) f (fun _ => false) i ts j

theorem elems_last (h : Parses get f i t j) (h' : look j = .BracketClose) : Elems get f i [t] j := by
  refine Items.last h rfl fun l acc hl => ?_
  have ht : l.token = .BracketClose := by rw [hl.token]; exact h'
  unfold elemsBody
  ev [ht]

theorem elems_more (h : Parses get f i t m) (h1 : Tk .Comma m n) (h2 : Elems get f n ts j) : Elems get f i (t :: ts) j := by
  refine Items.more h rfl h1 h2 ?_ ?_
  · intro _ _ _ _ _ h; cases h
  · intro l l1 acc x l2 ht hc _ hx
    unfold elemsBody
    ev [ht]

theorem elems_run (h0 : look i ≠ .BracketClose) (h : Elems get f i ts j) :
    Parses (fun n => arrayElements n (get n)) (List.map f) i ts j := by
  intro l hl
  rcases h l hl with ⟨_, _, h⟩ | ⟨_, x, l1, xs, l', hx, hes, hl', hlp⟩
  · cases h
  have hlp := Ev.loop (hlp [x])
  have ht : l.token ≠ .BracketClose := by rw [hl.token]; exact h0
  apply Found.intro
  · unfold arrayElements
    ev [ht]
    exact hlp
  · assumption
  · rw [← hes]; rfl
end

theorem elem (h : Finds 1 i e j) : Parses (fun n => (procs n).expr .ARRAY .B0) bareExpr i e j := h.run rfl
theorem elemSpread (h : Tk .OperatorSpread i m) (h1 : Finds 1 m e j) :
    Parses (fun n => (procs n).expr .ARRAY .B0) bareExpr i (.spread z e) j := spread_run (by decide +kernel) h h1
theorem elemHole (h : look j = .Comma ∨ look j = .BracketClose) :
    Parses (fun n => (procs n).expr .ARRAY .B0) bareExpr j (.void z) j := by
  intro l hl
  have hh : exprHandler .ARRAY l.token = .VOID := by
    rw [hl.token]; rcases h with h | h <;> rw [h] <;> decide +kernel
  have hstop : nestedHandler .B0 l.asi l.token = none := by
    rw [hl.asi, hl.token]
    refine handler_none ?_
    rw [continues_eq]
    rcases h with h | h <;> rw [h] <;> rfl
  refine ⟨.void ⟨l.tokenStart, l.tokenStart⟩, l, by simp only [bareExpr], hl, Ev.expr ?_⟩
  refine expression_of hh ?_ (Nest.stop hstop)
  unfold runEH
  ev []

theorem array {es : List Expr} (h : Tk .BracketOpen i m) (h0 : look m ≠ .BracketClose)
    (h1 : Elems (fun n => (procs n).expr .ARRAY .B0) bareExpr m es n)
    (h2 : Tk .BracketClose n j) : Opens k i (.array z es) j := by
  refine Opens.head (h := .ARR) (by rw [h.look]; decide +kernel) (by decide) fun l hl => ?_
  obtain ⟨ht, l1, hc, hl1⟩ := hl.tk h
  obtain ⟨e', l2, he, hl2, hev⟩ := elems_run h0 h1 l1 hl1
  obtain ⟨ht2, l3, hc2, hl3⟩ := hl2.tk h2
  apply Found.intro
  · unfold runEH
    simp only [arrayExpression]
    ev []
  · assumption
  · simp only [bareExpr, bareExprs_map, he]

theorem emptyArray (h : Tk .BracketOpen i m) (h2 : Tk .BracketClose m j) : Opens k i (.array z []) j := by
  refine Opens.head (h := .ARR) (by rw [h.look]; decide +kernel) (by decide) fun l hl => ?_
  obtain ⟨ht, l1, hc, hl1⟩ := hl.tk h
  obtain ⟨ht2, l3, hc2, hl3⟩ := hl1.tk h2
  apply Found.intro
  · unfold runEH
    simp only [arrayExpression, arrayElements]
    ev [ht2]
  · assumption
  · simp only [bareExpr, bareExprs]

/-! ### Templates -/

/-- The loop of `template_literal`. -/
def tplBody (s n : Nat) : List Expr × List Ident → P (Step (List Expr × List Ident) (Loc × List Expr × List Ident)) :=
  fun (es, qs) => do
    match ← tok with
    | .TemplateOpen => do
      let q ← quasi
      let l ← curLoc
      consume
      let e ← (procs n).expr .DEF .ANY
      let es := es ++ [e]
      let qs := qs ++ [⟨l, q⟩]
      if (← tok) = .BraceClose then
        readTemplateKind
        pure (.again (es, qs))
      else
        let stop' ← stop
        error
        pure (.done (⟨s, stop'⟩, es, qs))
    | .TemplateClosed => do
      let q ← quasi
      let l ← curLoc
      let stop' ← endThenConsume
      pure (.done (⟨s, stop'⟩, es, qs ++ [⟨l, q⟩]))
    | _ => do
      let stop' ← stop
      error
      pure (.done (⟨s, stop'⟩, es, qs))

def bareTpl (x : Loc × List Expr × List Ident) : List Expr × List Ident := (bareExprs x.2.1, x.2.2.map bareIdent)

def TplTail (i : List Item) (es : List Expr) (qs : List Ident) (j : List Item) : Prop :=
  ∀ l, Stream l i → l.token = .BraceClose ∧ ∃ l1 es' qs' st l', l.readTemplateKind = .ok l1 ∧ bareExprs es' = es ∧
    qs'.map bareIdent = qs ∧ Stream l' j ∧
    ∀ s xs ys, EvLoop (tplBody s) (xs, ys) l1 (⟨s, st⟩, xs ++ es', ys ++ qs') l'

def Tpl (i : List Item) (es : List Expr) (qs : List Ident) (j : List Item) : Prop :=
  (look i = .TemplateClosed ∧ Parses (fun _ => templateString) bareTpl i (es, qs) j) ∨
  (look i = .TemplateOpen ∧ Parses (fun n => templateLiteral n (procs n)) bareTpl i (es, qs) j)

theorem templateClosed {w : Bytes} (h : Wd .TemplateClosed w i j) : Tpl i [] [⟨z, w⟩] j := by
  refine .inl ⟨h.look, fun l hl => ?_⟩
  obtain ⟨ht, hw, l1, hc, hl1⟩ := hl.wd h
  have hw := quasi_of (.inr ht) hw
  apply Found.intro
  · unfold templateString
    ev []
  · assumption
  · simp only [bareTpl, bareExprs, List.map_cons, List.map_nil, bareIdent, hw]

theorem templateOpen {w : Bytes} {es : List Expr} {qs : List Ident} (h : Wd .TemplateOpen w i m) (h1 : Finds 0 m e n)
      (h2 : TplTail n es qs j) : Tpl i (e :: es) (⟨z, w⟩ :: qs) j := by
  refine .inr ⟨h.look, fun l hl => ?_⟩
  obtain ⟨ht, hw, l1, hc, hl1⟩ := hl.wd h
  have hw := quasi_of (.inl ht) hw
  obtain ⟨e', l2, he, hl2, hev⟩ := h1.run (c := .DEF) (L := .ANY) rfl l1 hl1
  obtain ⟨ht2, l3, es', qs', st, l', hr, hes, hqs, hl', hlp⟩ := h2 l2 hl2
  have hlp := Ev.loop (hlp l.tokenStart [e'] [⟨⟨l.tokenStart, l.index⟩, l.quasi⟩])
  apply Found.intro
  · unfold templateLiteral
    ev [ht2]
    exact hlp
  · assumption
  · simp only [bareTpl, ← he, ← hes, ← hqs, hw, bareExprs_map, List.map_append, List.map_cons, List.map_nil, bareIdent,
      List.cons_append, List.nil_append]

theorem templateEnd {w : Bytes} : TplTail (.resume true w :: j) [] [⟨z, w⟩] j := by
  intro l hl
  cases hl with
  | @resume _ l1 l' _ _ _ ht ha hr h1 hw hc h =>
  simp only [if_true] at h1
  refine ⟨ht, l1, [], [⟨⟨l1.tokenStart, l1.index⟩, w⟩], l1.index, l', hr, by simp only [bareExprs], ?_, h, fun s xs ys => ?_⟩
  · simp only [List.map_cons, List.map_nil, bareIdent]
  · refine .done ?_
    unfold tplBody
    subst hw
    rw [List.append_nil]
    ev [h1]

theorem templateMore {w : Bytes} {es : List Expr} {qs : List Ident} (h1 : Finds 0 m e n) (h2 : TplTail n es qs j) :
      TplTail (.resume false w :: m) (e :: es) (⟨z, w⟩ :: qs) j := by
  intro l hl
  cases hl with
  | @resume _ l1 l1' _ _ _ ht ha hr h1' hw hc h =>
  simp only [Bool.false_eq_true, if_false] at h1'
  obtain ⟨e', l2, he, hl2, hev⟩ := h1.run (c := .DEF) (L := .ANY) rfl l1' h
  obtain ⟨ht2, l3, es', qs', st, l', hr3, hes, hqs, hl', hlp⟩ := h2 l2 hl2
  refine ⟨ht, l1, e' :: es', ⟨⟨l1.tokenStart, l1.index⟩, w⟩ :: qs', st, l', hr, ?_, ?_, hl', fun s xs ys => ?_⟩
  · simp only [bareExprs, he, hes]
  · simp only [List.map_cons, bareIdent, hqs]
  · have hlp := hlp s (xs ++ [e']) (ys ++ [⟨⟨l1.tokenStart, l1.index⟩, w⟩])
    simp only [List.append_assoc, List.cons_append, List.nil_append] at hlp
    refine .again ?_ hlp
    subst hw
    unfold tplBody
    ev [h1', ht2]

theorem template {es : List Expr} {qs : List Ident} (h : Tpl i es qs j) : Opens k i (.template z es qs) j := by
  rcases h with ⟨ht, h⟩ | ⟨ht, h⟩
  · refine Opens.head (h := .TPLS) (by rw [ht]; decide +kernel) (by decide) fun l hl => ?_
    obtain ⟨⟨x, y, w⟩, l1, hx, hl1, hev⟩ := h l hl
    simp only [bareTpl, Prod.mk.injEq] at hx
    apply Found.intro
    · unfold runEH
      ev []
    · assumption
    · simp only [bareExpr, hx.1, hx.2]
  · refine Opens.head (h := .TPLE) (by rw [ht]; decide +kernel) (by decide) fun l hl => ?_
    obtain ⟨⟨x, y, w⟩, l1, hx, hl1, hev⟩ := h l hl
    simp only [bareTpl, Prod.mk.injEq] at hx
    apply Found.intro
    · unfold runEH
      ev []
    · assumption
    · simp only [bareExpr, hx.1, hx.2]

theorem tagged {es : List Expr} {qs : List Ident} (hk : k ≤ 17) (h : Opens 17 i e m) (h1 : Tpl m es qs j) :
    Opens k i (.tagged z e z es qs) j := by
  refine Opens.extend h hk fun a' l ha' hl => ?_
  rcases h1 with ⟨ht, h⟩ | ⟨ht, h⟩
  · obtain ⟨⟨x, y, w⟩, l1, hx, hl1, hev⟩ := h l hl
    simp only [bareTpl, Prod.mk.injEq] at hx
    apply Step.intro (h := .TPLS)
    · intro L hL
      rw [hl.token, ht]
      exact handler_tight rfl
    · unfold runNH
      ev []
    · assumption
    · simp only [bareExpr, hx.1, hx.2, ha']
  · obtain ⟨⟨x, y, w⟩, l1, hx, hl1, hev⟩ := h l hl
    simp only [bareTpl, Prod.mk.injEq] at hx
    apply Step.intro (h := .TPLE)
    · intro L hL
      rw [hl.token, ht]
      exact handler_tight rfl
    · unfold runNH
      ev []
    · assumption
    · simp only [bareExpr, hx.1, hx.2, ha']

end Complete
end Ratel
