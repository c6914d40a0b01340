import Verif.Lemmas.CompleteStmt
/-! The parser finds every phrase of the grammar: `for`, `try`, `switch`, labels, imports and programs. -/
namespace Ratel
open Spec
set_option linter.unusedSectionVars false
set_option linter.unusedSimpArgs false
variable [Unicode]
variable {k : Nat} {i m n o q r u v j : List Item} {e a b c : Expr} {s s' : Stmt}

namespace Complete

/-! ### `for` -/

/-- The optional expressions in the header of `for`. -/
def Opt (t : Token) (i : List Item) (x : Option Expr) (j : List Item) : Prop :=
  Parses (fun n => do
    if (← tok) = t then
      consume
      pure none
    else
      let e ← (procs n).expr .DEF .ANY
      expect t
      pure (some e)) (fun x => x.map bareExpr) i x j

theorem optExprNone {t : Token} (h : Tk t i j) : Opt t i none j := by
  intro l hl
  obtain ⟨ht, l1, hc, hl1⟩ := hl.tk h
  apply Found.intro
  · ev [ht]
  · assumption
  · rfl

theorem optExprSome {t : Token} (ht : t = .Semicolon ∨ t = .ParenClose) (h : Finds 0 i e m) (h1 : Tk t m j) :
    Opt t i (some e) j := by
  intro l hl
  obtain ⟨e', l1, he, hl1, hev⟩ := h.run (c := .DEF) (L := .ANY) rfl l hl
  obtain ⟨ht1, l2, hc, hl2⟩ := hl1.tk h1
  have ht : l.token ≠ t := by
    rw [hl.token]
    intro hh
    have := h.1
    rw [hh] at this
    rcases ht with rfl | rfl
    · exact this (by decide +kernel)
    · exact this (by decide +kernel)
  apply Found.intro
  · ev [ht]
  · assumption
  · simp only [Option.map_some, he]

/-- The rest of a `for` after the first semicolon. -/
theorem forRest_run {t y : Option Expr} {x : Option ForInit} {st : Nat} (h3 : Opt .Semicolon o t q)
    (h4 : Opt .ParenClose q y r) (h5 : Stm r s j) :
    Parses (fun n => forRest (procs n) st x) bareStmt o (.forS z (x.map bareInit) t y s) j := by
  intro l hl
  obtain ⟨t', l1, ht, hl1, hev1⟩ := h3 l hl
  obtain ⟨y', l2, hy, hl2, hev2⟩ := h4 l1 hl1
  obtain ⟨s', l3, hs, hl3, hev3⟩ := h5.2 l2 hl2
  apply Found.intro
  · unfold forRest
    with_reducible apply Ev.bind hev1
    with_reducible apply Ev.bind hev2
    ev []
  · assumption
  · subst ht hy hs
    cases x <;> cases t' <;> cases y' <;> rfl

theorem forLoop {t y : Option Expr} (h : Tk .For i m) (h1 : Tk .ParenOpen m n) (h2 : Tk .Semicolon n o)
      (h3 : Opt .Semicolon o t q) (h4 : Opt .ParenClose q y r) (h5 : Stm r s j) :
      Stm i (.forS z none t y s) j := by
  refine Stm.of (h := .FOR) (by rw [h.look]; decide +kernel) (by decide) fun l hl => ?_
  obtain ⟨ht, l1, hc, hl1⟩ := hl.tk h
  obtain ⟨ht1, l2, hc1, hl2⟩ := hl1.tk h1
  obtain ⟨ht2, l3, hc2, hl3⟩ := hl2.tk h2
  obtain ⟨s1, l4, hs, hl4, hev⟩ := forRest_run (x := none) (st := l.tokenStart) h3 h4 h5 l3 hl3
  refine ⟨s1, l4, hs, hl4, ?_⟩
  unfold runSH
  simp only [forStatement]
  ev [ht2]

/-- A header of `for` up to the separator after the first part: with everything the parser does after it,
the statement is found. -/
def Header (i : List Item) (x : ForInit) (o : List Item) : Prop :=
  ∀ l, Stream l i → ∃ x' l', bareInit x' = x ∧ Stream l' o ∧ ∀ (_ : look o ≠ .ParenClose) st s' l2,
    Ev (fun n => forAfterInit (procs n) st x') l' s' l2 →
    Ev (fun n => do match ← tok with
      | .Semicolon => do
        consume
        forRest (procs n) st none
      | .DeclarationVar => do
        let i ← forInit n (procs n) .Var
        forAfterInit (procs n) st i
      | .DeclarationLet => do
        let i ← forInit n (procs n) .Let
        forAfterInit (procs n) st i
      | .DeclarationConst => do
        let i ← forInit n (procs n) .Const
        forAfterInit (procs n) st i
      | _ => do
        let init ← (procs n).expr .DEF .ANY
        match init with
        | .binary _ .In left right => do
          expect .ParenClose
          let body ← (procs n).stmt
          pure (.forIn ⟨st, body.loc.stop⟩ (.expr left.loc left) right body)
        | init => forAfterInit (procs n) st (.expr init.loc init)) l s' l2

theorem forInitDecl {t : Token} {k : DeclKind} {ds : List Declarator} (h : Tk t i m) (hk : declKindOf t = some k)
    (h1 : Decls m ds j) : Header i (.decl z k ds) j := by
  intro l hl
  obtain ⟨ht, l1, hc, hl1⟩ := hl.tk h
  obtain ⟨ds', l2, hds, hl2, hev⟩ := decls_run h1 l1 hl1
  refine ⟨.decl ⟨l.tokenStart, l2.index⟩ k ds', l2, by simp only [bareInit, hds], hl2, fun _ st s' l3 hs => ?_⟩
  unfold declKindOf at hk
  split at hk <;> simp only [Option.some.injEq, reduceCtorEq] at hk <;> subst hk <;> simp only [forInit] <;> ev [ht]

theorem ne_special (h : exprHandler .DEF (look i) ≠ .ERR) : look i ≠ .Semicolon ∧ look i ≠ .DeclarationVar ∧
    look i ≠ .DeclarationLet ∧ look i ≠ .DeclarationConst := by
  have h1 : ∀ t ∈ Token.all, exprHandler .DEF t ≠ .ERR → t ≠ .Semicolon ∧ t ≠ .DeclarationVar ∧
    t ≠ .DeclarationLet ∧ t ≠ .DeclarationConst := by decide +kernel
  exact h1 _ (Token.mem_all _) h

theorem forInitExpr (h : Finds 0 i e j) (h1 : ∀ a b, e ≠ .binary z .In a b) : Header i (.expr z e) j := by
  intro l hl
  obtain ⟨e', l1, he, hl1, hev⟩ := h.run (c := .DEF) (L := .ANY) rfl l hl
  refine ⟨.expr e'.loc e', l1, by simp only [bareInit, he], hl1, fun _ st s' l3 hs => ?_⟩
  obtain ⟨t1, t2, t3, t4⟩ := ne_special h.1
  rw [← hl.token] at t1 t2 t3 t4
  apply Ev.tok.mpr
  split
  · contradiction
  · contradiction
  · contradiction
  · contradiction
  · with_reducible apply Ev.bind hev
    split
    · rename_i left right
      exact absurd he.symm (by simp only [bareExpr]; exact h1 _ _)
    · exact hs

theorem forLoopInit {x : ForInit} {t y : Option Expr} (h : Tk .For i m) (h1 : Tk .ParenOpen m n) (h2 : Header n x o)
      (h2' : Tk .Semicolon o q) (h3 : Opt .Semicolon q t r) (h4 : Opt .ParenClose r y v)
      (h5 : Stm v s j) : Stm i (.forS z (some x) t y s) j := by
  refine Stm.of (h := .FOR) (by rw [h.look]; decide +kernel) (by decide) fun l hl => ?_
  obtain ⟨ht, l1, hc, hl1⟩ := hl.tk h
  obtain ⟨ht1, l2, hc1, hl2⟩ := hl1.tk h1
  obtain ⟨x', l3, hx, hl3, hall⟩ := h2 l2 hl2
  obtain ⟨ht2, l4, hc2, hl4⟩ := hl3.tk h2'
  obtain ⟨s1, l5, hs, hl5, hev⟩ := forRest_run (x := some x') (st := l.tokenStart) h3 h4 h5 l4 hl4
  rw [Option.map_some, hx] at hs
  refine ⟨s1, l5, hs, hl5, ?_⟩
  unfold runSH
  simp only [forStatement]
  apply Ev.run_startThenConsume hc
  apply Ev.run_expect ht1 hc1
  refine hall (by rw [h2'.look]; decide) _ _ _ ?_
  unfold forAfterInit
  ev [ht2]

theorem forEach_run {st : Nat} (h4 : Finds 0 q e r) (h5 : Tk .ParenClose r v) (h6 : Stm v s j) :
    Parses (fun n => forEachRest (procs n) st) (fun x => (bareExpr x.2.1, bareStmt x.2.2)) q (e, s) j := by
  intro l hl
  obtain ⟨e', l1, he, hl1, hev⟩ := h4.run (c := .DEF) (L := .ANY) rfl l hl
  obtain ⟨ht, l2, hc, hl2⟩ := hl1.tk h5
  obtain ⟨s', l3, hs, hl3, hev3⟩ := h6.2 l2 hl2
  apply Found.intro
  · unfold forEachRest
    ev []
  · assumption
  · simp only [he, hs]

theorem forInDecl {x : ForInit} (h : Tk .For i m) (h1 : Tk .ParenOpen m n)
      (h2 : Header n x o) (h3 : Tk .OperatorIn o q) (h4 : Finds 0 q e r)
      (h5 : Tk .ParenClose r v) (h6 : Stm v s j) : Stm i (.forIn z x e s) j := by
  refine Stm.of (h := .FOR) (by rw [h.look]; decide +kernel) (by decide) fun l hl => ?_
  obtain ⟨ht, l1, hc, hl1⟩ := hl.tk h
  obtain ⟨ht1, l2, hc1, hl2⟩ := hl1.tk h1
  obtain ⟨x', l3, hx, hl3, hall⟩ := h2 l2 hl2
  obtain ⟨ht2, l4, hc2, hl4⟩ := hl3.tk h3
  obtain ⟨⟨y, e', s1⟩, l5, hs, hl5, hev⟩ := forEach_run (st := l.tokenStart) h4 h5 h6 l4 hl4
  simp only [Prod.mk.injEq] at hs
  apply Found.intro
  · unfold runSH
    simp only [forStatement]
    apply Ev.run_startThenConsume hc
    apply Ev.run_expect ht1 hc1
    apply hall (by rw [h3.look]; decide)
    unfold forAfterInit
    ev [ht2]
  · assumption
  · simp only [bareStmt, hx, hs.1, hs.2]

theorem forOf {x : ForInit} (h : Tk .For i m) (h1 : Tk .ParenOpen m n) (h2 : Header n x o)
      (h3 : Wd .Identifier bs!"of" o q) (h4 : Finds 0 q e r) (h5 : Tk .ParenClose r v) (h6 : Stm v s j) :
      Stm i (.forOf z x e s) j := by
  refine Stm.of (h := .FOR) (by rw [h.look]; decide +kernel) (by decide) fun l hl => ?_
  obtain ⟨ht, l1, hc, hl1⟩ := hl.tk h
  obtain ⟨ht1, l2, hc1, hl2⟩ := hl1.tk h1
  obtain ⟨x', l3, hx, hl3, hall⟩ := h2 l2 hl2
  obtain ⟨ht2, hw, l4, hc2, hl4⟩ := hl3.wd h3
  have hw := text_of ht2 hw
  obtain ⟨⟨y, e', s1⟩, l5, hs, hl5, hev⟩ := forEach_run (st := l.tokenStart) h4 h5 h6 l4 hl4
  simp only [Prod.mk.injEq] at hs
  apply Found.intro
  · unfold runSH
    simp only [forStatement]
    apply Ev.run_startThenConsume hc
    apply Ev.run_expect ht1 hc1
    apply hall (by rw [h3.look]; decide)
    unfold forAfterInit
    ev [ht2, hw]
  · assumption
  · simp only [bareStmt, hx, hs.1, hs.2]

theorem forInExpr (h : Tk .For i m) (h1 : Tk .ParenOpen m n)
      (h2 : Finds 0 n (.binary z .In a b) o) (h3 : Tk .ParenClose o q) (h4 : Stm q s j) :
      Stm i (.forIn z (.expr z a) b s) j := by
  refine Stm.of (h := .FOR) (by rw [h.look]; decide +kernel) (by decide) fun l hl => ?_
  obtain ⟨ht, l1, hc, hl1⟩ := hl.tk h
  obtain ⟨ht1, l2, hc1, hl2⟩ := hl1.tk h1
  obtain ⟨e', l3, he, hl3, hev⟩ := h2.run (c := .DEF) (L := .ANY) rfl l2 hl2
  obtain ⟨ht3, l4, hc3, hl4⟩ := hl3.tk h3
  obtain ⟨s', l5, hs, hl5, hev2⟩ := h4.2 l4 hl4
  obtain ⟨t1, t2, t3, t4⟩ := ne_special h2.1
  rw [← hl2.token] at t1 t2 t3 t4
  obtain ⟨x, a', b', rfl, ha, hb⟩ : ∃ x a' b', e' = .binary x .In a' b' ∧ bareExpr a' = a ∧ bareExpr b' = b := by
    cases e' <;> simp only [bareExpr, reduceCtorEq, Expr.binary.injEq] at he
    obtain ⟨_, rfl, rfl, rfl⟩ := he
    exact ⟨_, _, _, rfl, rfl, rfl⟩
  apply Found.intro
  · unfold runSH
    simp only [forStatement]
    apply Ev.run_startThenConsume hc
    apply Ev.run_expect ht1 hc1
    apply Ev.tok.mpr
    split
    · contradiction
    · contradiction
    · contradiction
    · contradiction
    · ev []
  · assumption
  · simp only [bareStmt, bareInit, ha, hb, hs]

/-! ### `try` -/

def Ctch (i : List Item) (c : Catch) (j : List Item) : Prop :=
  look i = .Catch ∧ Parses (fun n => catchClause n (procs n)) bareCatch i c j

theorem «catch» {p : Pattern} {b : Block} (h : Tk .Catch i m) (h1 : Tk .ParenOpen m n) (h2 : Pat n p o) (h3 : Tk .ParenClose o q)
      (h4 : Blk q b j) : Ctch i (.mk z p b) j := by
  refine ⟨h.look, fun l hl => ?_⟩
  obtain ⟨ht, l1, hc, hl1⟩ := hl.tk h
  obtain ⟨ht1, l2, hc1, hl2⟩ := hl1.tk h1
  obtain ⟨p', l3, hp, hl3, hev⟩ := h2.2 l2 hl2
  obtain ⟨ht3, l4, hc3, hl4⟩ := hl3.tk h3
  obtain ⟨b', l5, hb, hl5, hev2⟩ := h4.2.1 l4 hl4
  apply Found.intro
  · unfold catchClause
    ev []
  · assumption
  · simp only [bareCatch, hp, hb]

theorem tryCatch {b : Block} {c : Catch} (h : Tk .Try i m) (h1 : Blk m b n) (h2 : Ctch n c j) (h3 : look j ≠ .Finally) :
      Stm i (.tryS z b (some c) none) j := by
  refine Stm.of (h := .TRY) (by rw [h.look]; decide +kernel) (by decide) fun l hl => ?_
  obtain ⟨ht, l1, hc, hl1⟩ := hl.tk h
  obtain ⟨b', l2, hb, hl2, hev⟩ := h1.2.1 l1 hl1
  have ht2 : l2.token = .Catch := by rw [hl2.token]; exact h2.1
  obtain ⟨c', l3, hc', hl3, hev2⟩ := h2.2 l2 hl2
  have ht3 : l3.token ≠ .Finally := by rw [hl3.token]; exact h3
  apply Found.intro
  · unfold runSH
    simp only [tryStatement]
    ev [ht2, ht3]
  · assumption
  · simp only [bareStmt, hb, hc']

theorem tryCatchFinally {b f : Block} {c : Catch} (h : Tk .Try i m) (h1 : Blk m b n) (h2 : Ctch n c o)
      (h3 : Tk .Finally o q) (h4 : Blk q f j) : Stm i (.tryS z b (some c) (some f)) j := by
  refine Stm.of (h := .TRY) (by rw [h.look]; decide +kernel) (by decide) fun l hl => ?_
  obtain ⟨ht, l1, hc, hl1⟩ := hl.tk h
  obtain ⟨b', l2, hb, hl2, hev⟩ := h1.2.1 l1 hl1
  have ht2 : l2.token = .Catch := by rw [hl2.token]; exact h2.1
  obtain ⟨c', l3, hc', hl3, hev2⟩ := h2.2 l2 hl2
  obtain ⟨ht3, l4, hc3, hl4⟩ := hl3.tk h3
  obtain ⟨f', l5, hf, hl5, hev4⟩ := h4.2.1 l4 hl4
  apply Found.intro
  · unfold runSH
    simp only [tryStatement]
    ev [ht2, ht3]
  · assumption
  · simp only [bareStmt, hb, hc', hf]

theorem tryFinally {b f : Block} (h : Tk .Try i m) (h1 : Blk m b n) (h3 : Tk .Finally n o) (h4 : Blk o f j) :
      Stm i (.tryS z b none (some f)) j := by
  refine Stm.of (h := .TRY) (by rw [h.look]; decide +kernel) (by decide) fun l hl => ?_
  obtain ⟨ht, l1, hc, hl1⟩ := hl.tk h
  obtain ⟨b', l2, hb, hl2, hev⟩ := h1.2.1 l1 hl1
  obtain ⟨ht3, l4, hc3, hl4⟩ := hl2.tk h3
  obtain ⟨f', l5, hf, hl5, hev4⟩ := h4.2.1 l4 hl4
  apply Found.intro
  · unfold runSH
    simp only [tryStatement]
    ev [ht3]
  · assumption
  · simp only [bareStmt, hb, hf]

/-! ### `switch` -/

def caseBodyLoop (n : Nat) (x : Nat × List Stmt) : P (Step (Nat × List Stmt) (Nat × List Stmt)) :=
  match x with
  | (e, acc) => do
    match ← tok with
    | .Case | .Default | .BraceClose => pure (.done (e, acc))
    | _ => do
      let st ← (procs n).stmt
      pure (.again (st.loc.stop, acc ++ [st]))

def CBody (i : List Item) (ss : List Stmt) (j : List Item) : Prop :=
  ∀ l, Stream l i → ∀ e acc, ∃ e' xs l', xs.map bareStmt = ss ∧ Stream l' j ∧
    EvLoop caseBodyLoop (e, acc) l (e', acc ++ xs) l'

theorem caseBodyEnd (h : look j = .Case ∨ look j = .Default ∨ look j = .BraceClose) : CBody j [] j := by
  intro l hl e acc
  refine ⟨e, [], l, rfl, hl, .done ?_⟩
  rw [List.append_nil]
  unfold caseBodyLoop
  simp only
  rw [← hl.token] at h
  rcases h with h | h | h <;> ev [h]

theorem caseBodyMore {ss : List Stmt} (h : Stm i s m) (h1 : CBody m ss j) : CBody i (s :: ss) j := by
  intro l hl e acc
  obtain ⟨s', l1, hs, hl1, hev⟩ := h.2 l hl
  obtain ⟨e', xs, l', hxs, hl', hlp⟩ := h1 l1 hl1 s'.loc.stop (acc ++ [s'])
  refine ⟨e', s' :: xs, l', by rw [List.map_cons, hs, hxs], hl', .again ?_ (by simpa using hlp)⟩
  obtain ⟨t1, t2, t3, _⟩ := h.first
  have t1 := (not_closes.mp t1).1
  rw [← hl.token] at t1 t2 t3
  unfold caseBodyLoop
  simp only
  apply Ev.tok.mpr
  split
  · contradiction
  · contradiction
  · contradiction
  · ev []

def Case' (i : List Item) (c : SwitchCase) (j : List Item) : Prop :=
  closes (look i) = false ∧ Parses (fun n => Ratel.switchCase n (procs n)) bareCase i c j

theorem case' {ss : List Stmt} (h : Tk .Case i m) (h1 : Finds 0 m e n) (h2 : Tk .Colon n o) (h3 : CBody o ss j) :
    Case' i (.mk z (some e) ss) j := by
  refine ⟨by rw [h.look]; rfl, fun l hl => ?_⟩
  obtain ⟨ht, l1, hc, hl1⟩ := hl.tk h
  obtain ⟨e', l2, he, hl2, hev⟩ := h1.run (c := .DEF) (L := .ANY) rfl l1 hl1
  obtain ⟨ht2, l3, hc2, hl3⟩ := hl2.tk h2
  obtain ⟨x, ss', l4, hss, hl4, hlp⟩ := h3 l3 hl3 l2.index []
  have hlp := Ev.loop hlp
  apply Found.intro (a := .mk ⟨l.tokenStart, x⟩ (some e') ([] ++ ss')) (l' := l4)
  · simp only [Ratel.switchCase]
    ev [ht]
    exact hlp.bind .ret
  · assumption
  · simp only [bareCase, he, List.nil_append, bareStmts_map, hss]

theorem default' {ss : List Stmt} (h : Tk .Default i m) (h1 : Tk .Colon m n) (h2 : CBody n ss j) :
    Case' i (.mk z none ss) j := by
  refine ⟨by rw [h.look]; rfl, fun l hl => ?_⟩
  obtain ⟨ht, l1, hc, hl1⟩ := hl.tk h
  obtain ⟨ht2, l3, hc2, hl3⟩ := hl1.tk h1
  obtain ⟨x, ss', l4, hss, hl4, hlp⟩ := h2 l3 hl3 l1.index []
  have hlp := Ev.loop hlp
  apply Found.intro (a := .mk ⟨l.tokenStart, x⟩ none ([] ++ ss')) (l' := l4)
  · simp only [Ratel.switchCase]
    ev [ht]
    exact hlp.bind .ret
  · assumption
  · simp only [bareCase, List.nil_append, bareStmts_map, hss]

theorem switch {cs : List SwitchCase} (h : Tk .Switch i m) (h1 : Tk .ParenOpen m n) (h2 : Finds 0 n e o)
      (h3 : Tk .ParenClose o q) (h4 : Tk .BraceOpen q r)
      (h5 : (cs = [] → r ≠ []) ∧ Tail (fun n => Ratel.switchCase n (procs n)) bareCase r cs j) :
      Stm i (.switch z e z cs) j := by
  refine Stm.of (h := .SWCH) (by rw [h.look]; decide +kernel) (by decide) fun l hl => ?_
  obtain ⟨ht, l1, hc, hl1⟩ := hl.tk h
  obtain ⟨ht1, l2, hc1, hl2⟩ := hl1.tk h1
  obtain ⟨e', l3, he, hl3, hev⟩ := h2.run (c := .DEF) (L := .ANY) rfl l2 hl2
  obtain ⟨ht3, l4, hc3, hl4⟩ := hl3.tk h3
  obtain ⟨⟨x, cs'⟩, l5, hcs, hl5, hev2⟩ := block_run h4 h5.2 h5.1 l4 hl4
  simp only at hcs
  apply Found.intro
  · unfold runSH
    simp only [switchStatement]
    ev []
  · assumption
  · simp only [bareStmt, bareCases_map, he, hcs]

/-! ### Labels, functions, classes -/

theorem labeled {w : Bytes} (h : Wd .Identifier w i m) (h1 : Tk .Colon m n) (h2 : Stm n s j) :
      Stm i (.labeled z w s) j := by
  refine Stm.of (h := .LABL) (by rw [h.look]; decide +kernel) (by decide) fun l hl => ?_
  obtain ⟨ht, hw, l1, hc, hl1⟩ := hl.wd h
  have hw := text_of ht hw
  obtain ⟨ht1, l2, hc1, hl2⟩ := hl1.tk h1
  obtain ⟨s', l3, hs, hl3, hev⟩ := h2.2 l2 hl2
  apply Found.intro
  · unfold runSH
    simp only [labeledOrExpressionStatement]
    ev [ht1]
  · assumption
  · simp only [bareStmt, hw, hs]

theorem functionStmt {f : Func} (h : Tk .Function i m)
    (h1 : Parses (fun n => functionParse n (procs n) (kindOf .always)) bareFunc m f j) : Stm i (.function z f) j := by
  refine Stm.of (h := .FUNC) (by rw [h.look]; decide +kernel) (by decide) fun l hl => ?_
  obtain ⟨ht, l1, hc, hl1⟩ := hl.tk h
  obtain ⟨f', l2, hf, hl2, hev⟩ := h1 l1 hl1
  simp only [kindOf] at hev
  apply Found.intro
  · unfold runSH
    ev []
  · assumption
  · simp only [bareStmt, hf]

theorem classStmt {c : Class} (h : Tk .Class i m) (h1 : Cls .always m c j) : Stm i (.class z c) j := by
  refine Stm.of (h := .CLAS) (by rw [h.look]; decide +kernel) (by decide) fun l hl => ?_
  obtain ⟨ht, l1, hc, hl1⟩ := hl.tk h
  obtain ⟨f', l2, hf, hl2, hev⟩ := h1 l1 hl1
  simp only [kindOf] at hev
  apply Found.intro
  · unfold runSH
    ev []
  · assumption
  · simp only [bareStmt, hf]

end Complete
end Ratel
