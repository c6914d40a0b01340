import Verif.Lemmas.CompleteClass
import Verif.Lemmas.Retoken
/-! The parser finds every phrase of the grammar: statements. -/
namespace Ratel
open Spec
set_option linter.unusedSectionVars false
set_option linter.unusedSimpArgs false
variable [Unicode]
variable {k : Nat} {i m n o q r u v j : List Item} {e a b c : Expr} {s s' : Stmt}

namespace Complete

/-- What the parser does with a statement. -/
def Stm (i : List Item) (s : Stmt) (j : List Item) : Prop :=
  stmtHandler (look i) ≠ .ERR ∧ Parses (fun n => (procs n).stmt) bareStmt i s j

theorem Stm.of {h : SH} (hh : stmtHandler (look i) = h) (hne : h ≠ .ERR)
    (hp : Parses (fun n => runSH n (procs n) h) bareStmt i s j) : Stm i s j := by
  refine ⟨by rw [hh]; exact hne, fun l hl => ?_⟩
  obtain ⟨s', l', h1, h2, h3⟩ := hp l hl
  refine ⟨s', l', h1, h2, Ev.stmt ?_⟩
  unfold statement
  refine Ev.tok.mpr ?_
  rw [hl.token, hh]
  exact h3

theorem Stm.first (h : Stm i s j) : closes (look i) = false ∧ look i ≠ .Case ∧ look i ≠ .Default ∧ look i ≠ .EndOfProgram := by
  have h1 : ∀ t ∈ Token.all, stmtHandler t ≠ .ERR → closes t = false ∧ t ≠ .Case ∧ t ≠ .Default ∧ t ≠ .EndOfProgram := by
    decide +kernel
  exact h1 _ (Token.mem_all _) h.1

theorem semi (h : Semi i j) : ∀ l, Stream l i → ∃ l', Stream l' j ∧ Ev (fun _ => expectSemicolon) l () l' := by
  intro l hl
  cases h with
  | written =>
    have ha := hl.asi
    obtain ⟨ht, l1, hc, hl1⟩ := hl.tk ⟨_, _, rfl⟩
    simp only [semicolon] at ha
    refine ⟨l1, hl1, ?_⟩
    unfold expectSemicolon
    ev [ha]
  | inserted h =>
    have ha := hl.asi
    rw [h] at ha
    refine ⟨l, hl, ?_⟩
    unfold expectSemicolon
    ev [ha]

theorem empty (h : Tk .Semicolon i j) : Stm i (.empty z) j := by
  refine Stm.of (h := .EMPT) (by rw [h.look]; decide +kernel) (by decide) fun l hl => ?_
  obtain ⟨ht, l1, hc, h1⟩ := hl.tk h
  apply Found.intro
  · unfold runSH
    ev []
  · assumption
  · simp only [bareStmt]

theorem debugger (h : Tk .Debugger i j) : Stm i (.debugger z) j := by
  refine Stm.of (h := .DBGGR) (by rw [h.look]; decide +kernel) (by decide) fun l hl => ?_
  obtain ⟨ht, l1, hc, h1⟩ := hl.tk h
  apply Found.intro
  · unfold runSH
    ev []
  · assumption
  · simp only [bareStmt]

theorem blockStmt {ss : List Stmt} (h : Blk i (.mk z ss) j) : Stm i (.block z ss) j := by
  refine Stm.of (h := .BLCK) (by rw [h.1]; decide +kernel) (by decide) fun l hl => ?_
  obtain ⟨⟨x, b⟩, l1, hb, hl1, hev⟩ := h.2.2 l hl
  simp only [bareBlock, Block.mk.injEq, true_and] at hb
  apply Found.intro
  · unfold runSH
    ev []
  · assumption
  · simp only [bareStmt, hb]

/-! ### Expression statements -/

theorem exprStmt_handler {t : Token} (h : exprHandler .DEF t ≠ .ERR) (h1 : t ≠ .BraceOpen) (h2 : t ≠ .Function)
    (h3 : t ≠ .Class) (h4 : t ≠ .Identifier) : stmtHandler t = .E (exprHandler .DEF t) := by
  have h1' : ∀ t ∈ Token.all, exprHandler .DEF t ≠ .ERR → t ≠ .BraceOpen → t ≠ .Function → t ≠ .Class → t ≠ .Identifier →
      stmtHandler t = .E (exprHandler .DEF t) := by decide +kernel
  exact h1' t t.mem_all h h1 h2 h3 h4

/-- The loop of an identifier that starts an expression. -/
theorem identLoop {w : Bytes} {as : Asi} (h : Finds 0 (.tok .Identifier w as :: i) e j) {l l1 : Lex}
    (hl : Stream l (.tok .Identifier w as :: i)) (hc : l.consume = .ok l1) : ∃ e' l', bareExpr e' = e ∧ Stream l' j ∧
      Ev (fun n => nestedExpression n (procs n) .ANY (.ident ⟨l.tokenStart, l.index⟩ w)) l1 e' l' := by
  obtain ⟨e', l', he, hl', hev⟩ := h.2.2 l hl
  refine ⟨e', l', he, hl', ?_⟩
  obtain ⟨ht, hw, _⟩ := hl.wd ⟨as, rfl⟩
  have hw := text_of ht hw
  have hev := hev .DEF .ANY rfl
  unfold expression at hev
  have hev := Ev.tok.mp hev
  rw [ht, show exprHandler .DEF .Identifier = .IDEN by decide +kernel] at hev
  unfold runEH at hev
  simp only at hev
  have hev := Ev.tokStr.mp (Ev.assoc.mp hev)
  have hev := Ev.curLoc.mp (Ev.assoc.mp hev)
  have hev := (Ev.consume_bind hc).mp (Ev.assoc.mp hev)
  have hev := Ev.pure_bind.mp hev
  rw [hw] at hev
  exact hev

theorem exprStmt (h1 : look i ≠ .BraceOpen) (h2 : look i ≠ .Function) (h3 : look i ≠ .Class)
      (h4 : look i = .Identifier → look i.tail ≠ .Colon) (h : Finds 0 i e m) (h5 : Semi m j) :
      Stm i (.expr z e) j := by
  by_cases hid : look i = .Identifier
  · refine Stm.of (h := .LABL) (by rw [hid]; decide +kernel) (by decide) fun l hl => ?_
    have h4 := h4 hid
    cases hl with
    | eof => simp [look] at hid
    | regex => simp [look, Item.token] at hid
    | resume => simp [look, Item.token] at hid
    | @tok _ l1 i t w as ht hw ha hc hl1 =>
    simp only [look, Item.token] at hid
    subst hid
    obtain ⟨e', l2, he, hl2, hev⟩ := identLoop h (.tok ht hw ha hc hl1) hc
    obtain ⟨l3, hl3, hev3⟩ := semi h5 l2 hl2
    have ht1 : l1.token ≠ .Colon := by rw [hl1.token]; exact h4
    have hw := text_of ht hw
    rw [← hw] at hev
    apply Found.intro
    · unfold runSH
      simp only [labeledOrExpressionStatement]
      ev [ht1]
    · assumption
    · simp only [bareStmt, he]
  · refine Stm.of (exprStmt_handler h.1 h1 h2 h3 hid) (by simp) fun l hl => ?_
    obtain ⟨e', l', he, hl', hev⟩ := h.2.2 l hl
    obtain ⟨l3, hl3, hev3⟩ := semi h5 l' hl'
    have hev := hev .DEF .ANY rfl
    unfold expression at hev
    have hev := Ev.tok.mp hev
    rw [hl.token] at hev
    apply Found.intro
    · unfold runSH
      simp only [expressionStatement]
      apply Ev.assoc.mp
      apply Ev.bind hev
      ev []
    · assumption
    · simp only [bareStmt, he]


theorem importExpr {w : Bytes} {as : Asi} (h1 : look i = .Comma ∨ look i = .ParenOpen)
      (h : Finds 0 (.tok .Identifier w as :: i) e m) (h5 : Semi m j) : Stm (.tok .Import w as :: i) (.expr z e) j := by
  refine Stm.of (h := .IMPT) (by simp only [look, Item.token]; decide +kernel) (by decide) fun l hl => ?_
  cases hl with
  | @tok _ l1 i t w as ht hw ha hc hl1 =>
  have hw := text_of ht hw
  obtain ⟨e', l2, he, hl2, hev⟩ := identLoop (l := l.setToken .Identifier) h
    (.tok rfl (by simp only [Lex.text, Lex.setToken]; exact hw) ha (by rw [Lex.consume_token]; exact hc) hl1)
    (by rw [Lex.consume_token]; exact hc)
  obtain ⟨l3, hl3, hev3⟩ := semi h5 l2 hl2
  have ht1 : l1.token = .Comma ∨ l1.token = .ParenOpen := by rw [hl1.token]; exact h1
  rw [← hw] at hev
  simp only [Lex.setToken] at hev
  rcases ht1 with ht1 | ht1
  all_goals
    apply Found.intro
    · unfold runSH
      simp only [importDeclaration]
      ev [ht1]
    · assumption
    · simp only [bareStmt, he]

/-! ### Declarations -/

/-- What the parser does with a declarator. -/
def Decl (i : List Item) (d : Declarator) (j : List Item) : Prop :=
  Parses (fun n => variableDeclarator n (procs n)) bareDeclarator i d j

theorem declarator {p : Pattern} (h : Pat i p j) (h' : look j ≠ .OperatorAssign) : Decl i (.mk z p none) j := by
  intro l hl
  obtain ⟨p', l1, hp, hl1, hev⟩ := h.2 l hl
  have ht : l1.token ≠ .OperatorAssign := by rw [hl1.token]; exact h'
  apply Found.intro
  · unfold variableDeclarator
    ev [ht]
  · assumption
  · simp only [bareDeclarator, hp]

theorem declaratorInit {p : Pattern} (h : Pat i p m) (h1 : Tk .OperatorAssign m n) (h2 : Finds 1 n e j) :
    Decl i (.mk z p (some e)) j := by
  intro l hl
  obtain ⟨p', l1, hp, hl1, hev⟩ := h.2 l hl
  obtain ⟨ht, l2, hc, hl2⟩ := hl1.tk h1
  obtain ⟨e', l3, he, hl3, hev2⟩ := h2.run (c := .DEF) (L := .B0) rfl l2 hl2
  apply Found.intro
  · unfold variableDeclarator
    ev [ht]
  · assumption
  · simp only [bareDeclarator, hp, he]

def declBody (n : Nat) (acc : List Declarator) : P (Step (List Declarator) (List Declarator)) := do
    if (← tok) = .Comma then
      consume
      let d ← variableDeclarator n (procs n)
      pure (.again (acc ++ [d]))
    else pure (.done acc)

def Decls (i : List Item) (ds : List Declarator) (j : List Item) : Prop :=
  Items (fun n => variableDeclarator n (procs n)) declBody bareDeclarator (fun _ => false) i ds j

theorem declaratorsLast {d : Declarator} (h : Decl i d j) (h' : look j ≠ .Comma) : Decls i [d] j := by
  refine Items.last h rfl fun l acc hl => ?_
  have ht : l.token ≠ .Comma := by rw [hl.token]; exact h'
  unfold declBody
  ev [ht]

theorem declaratorsMore {d : Declarator} {ds : List Declarator} (h : Decl i d m) (h1 : Tk .Comma m n)
    (h2 : Decls n ds j) : Decls i (d :: ds) j := by
  refine Items.more h rfl h1 h2 (fun _ _ _ _ _ h => by cases h) fun l l1 acc x l2 ht hc _ hev => ?_
  unfold declBody
  ev [ht]

theorem decls_run {ds : List Declarator} (h : Decls i ds j) :
    Parses (fun n => variableDeclarators n (procs n)) bareDeclarators i ds j := by
  intro l hl
  rcases h l hl with ⟨_, _, hs⟩ | ⟨_, x, l1, xs, l', hx, hes, hl', hlp⟩
  · cases hs
  have hlp := Ev.loop (hlp [x])
  refine ⟨[x] ++ xs, l', by rw [bareDeclarators_map, ← hes]; rfl, hl', ?_⟩
  unfold variableDeclarators
  ev []
  exact hlp

theorem declStmt {t : Token} {k : DeclKind} {ds : List Declarator} (h : Tk t i m) (hk : declKindOf t = some k)
    (h1 : Decls m ds n) (h2 : Semi n j) : Stm i (.decl z k ds) j := by
  have aux : ∀ l, Stream l i → ∃ s l', bareStmt s = .decl z k ds ∧ Stream l' j ∧
      Ev (fun n => variableDeclarationStatement n (procs n) k) l s l' := by
    intro l hl
    obtain ⟨ht, l1, hc, hl1⟩ := hl.tk h
    obtain ⟨ds', l2, hds, hl2, hev⟩ := decls_run h1 l1 hl1
    obtain ⟨l3, hl3, hev3⟩ := semi h2 l2 hl2
    apply Found.intro
    · unfold variableDeclarationStatement
      ev []
    · assumption
    · simp only [bareStmt, hds]
  unfold declKindOf at hk
  split at hk <;> simp only [Option.some.injEq, reduceCtorEq] at hk <;> subst hk
  · exact Stm.of (h := .VAR) (by rw [h.look]; decide +kernel) (by decide) aux
  · exact Stm.of (h := .LET) (by rw [h.look]; decide +kernel) (by decide) aux
  · exact Stm.of (h := .CONS) (by rw [h.look]; decide +kernel) (by decide) aux

/-! ### Jumps -/

theorem ret (h : Tk .Return i m) (h1 : Semi m j) : Stm i (.ret z none) j := by
  refine Stm.of (h := .RET) (by rw [h.look]; decide +kernel) (by decide) fun l hl => ?_
  obtain ⟨ht, l1, hc, hl1⟩ := hl.tk h
  have ha := hl1.asi
  cases h1 with
  | written =>
    obtain ⟨ht1, l2, hc1, hl2⟩ := hl1.tk ⟨_, _, rfl⟩
    simp only [semicolon] at ha
    apply Found.intro
    · unfold runSH
      simp only [returnStatement]
      ev [ha]
    · assumption
    · simp only [bareStmt]
  | inserted h =>
    rw [h] at ha
    apply Found.intro
    · unfold runSH
      simp only [returnStatement]
      ev [ha]
    · assumption
    · simp only [bareStmt]

theorem retValue (h : Tk .Return i m) (h0 : semicolon m = .NoSemicolon) (h1 : Finds 0 m e n)
      (h2 : Semi n j) : Stm i (.ret z (some e)) j := by
  refine Stm.of (h := .RET) (by rw [h.look]; decide +kernel) (by decide) fun l hl => ?_
  obtain ⟨ht, l1, hc, hl1⟩ := hl.tk h
  have ha := hl1.asi
  rw [h0] at ha
  obtain ⟨e', l2, he, hl2, hev⟩ := h1.run (c := .DEF) (L := .ANY) rfl l1 hl1
  obtain ⟨l3, hl3, hev3⟩ := semi h2 l2 hl2
  apply Found.intro
  · unfold runSH
    simp only [returnStatement]
    ev [ha]
  · assumption
  · simp only [bareStmt, he]


theorem jump {t : Token} (h : Tk t i m) (h1 : Semi m j) :
    Parses (fun _ => jumpStatement) (fun x => x.2.map bareIdent) i none j := by
  intro l hl
  obtain ⟨ht, l1, hc, hl1⟩ := hl.tk h
  have ha := hl1.asi
  cases h1 with
  | written =>
    obtain ⟨ht1, l2, hc1, hl2⟩ := hl1.tk ⟨_, _, rfl⟩
    simp only [semicolon] at ha
    apply Found.intro
    · simp only [jumpStatement]
      ev [ha]
    · assumption
    · rfl
  | inserted h =>
    rw [h] at ha
    apply Found.intro
    · simp only [jumpStatement]
      ev [ha]
    · assumption
    · rfl

theorem jumpLabel {t : Token} {w : Bytes} (h : Tk t i m) (h0 : semicolon m = .NoSemicolon) (h1 : Wd .Identifier w m n)
      (h2 : Semi n j) : Parses (fun _ => jumpStatement) (fun x => x.2.map bareIdent) i (some ⟨z, w⟩) j := by
  intro l hl
  obtain ⟨ht, l1, hc, hl1⟩ := hl.tk h
  have ha := hl1.asi
  rw [h0] at ha
  obtain ⟨e', l2, he, hl2, hev⟩ := identifier_run h1 l1 hl1
  obtain ⟨l3, hl3, hev3⟩ := semi h2 l2 hl2
  apply Found.intro
  · simp only [jumpStatement]
    ev [ha]
  · assumption
  · simp only [Option.map_some, he]

theorem brk {x : Option Ident} (ht : look i = .Break)
    (h : Parses (fun _ => jumpStatement) (fun x => x.2.map bareIdent) i x j) : Stm i (.brk z x) j := by
  refine Stm.of (h := .BRK) (by rw [ht]; decide +kernel) (by decide) fun l hl => ?_
  obtain ⟨⟨y, o⟩, l1, hb, hl1, hev⟩ := h l hl
  simp only at hb
  apply Found.intro
  · unfold runSH
    ev []
  · assumption
  · cases o <;> simp only [bareStmt, ← hb, Option.map_none, Option.map_some]

theorem cont {x : Option Ident} (ht : look i = .Continue)
    (h : Parses (fun _ => jumpStatement) (fun x => x.2.map bareIdent) i x j) : Stm i (.cont z x) j := by
  refine Stm.of (h := .CONT) (by rw [ht]; decide +kernel) (by decide) fun l hl => ?_
  obtain ⟨⟨y, o⟩, l1, hb, hl1, hev⟩ := h l hl
  simp only at hb
  apply Found.intro
  · unfold runSH
    ev []
  · assumption
  · cases o <;> simp only [bareStmt, ← hb, Option.map_none, Option.map_some]

theorem throw (h : Tk .Throw i m) (h1 : Finds 0 m e n) (h2 : Semi n j) : Stm i (.throw z e) j := by
  refine Stm.of (h := .THRW) (by rw [h.look]; decide +kernel) (by decide) fun l hl => ?_
  obtain ⟨ht, l1, hc, hl1⟩ := hl.tk h
  obtain ⟨e', l2, he, hl2, hev⟩ := h1.run (c := .DEF) (L := .ANY) rfl l1 hl1
  obtain ⟨l3, hl3, hev3⟩ := semi h2 l2 hl2
  apply Found.intro
  · unfold runSH
    simp only [throwStatement]
    ev []
  · assumption
  · simp only [bareStmt, he]

/-! ### Conditions and loops -/

theorem ifThen (h : Tk .If i m) (h1 : Tk .ParenOpen m n) (h2 : Finds 0 n e o)
      (h3 : Tk .ParenClose o q) (h4 : Stm q s j) (h5 : look j ≠ .Else) : Stm i (.ifS z e s none) j := by
  refine Stm.of (h := .IF) (by rw [h.look]; decide +kernel) (by decide) fun l hl => ?_
  obtain ⟨ht, l1, hc, hl1⟩ := hl.tk h
  obtain ⟨ht1, l2, hc1, hl2⟩ := hl1.tk h1
  obtain ⟨e', l3, he, hl3, hev⟩ := h2.run (c := .DEF) (L := .ANY) rfl l2 hl2
  obtain ⟨ht3, l4, hc3, hl4⟩ := hl3.tk h3
  obtain ⟨s', l5, hs, hl5, hev2⟩ := h4.2 l4 hl4
  have ht5 : l5.token ≠ .Else := by rw [hl5.token]; exact h5
  apply Found.intro
  · unfold runSH
    simp only [ifStatement]
    ev [ht5]
  · assumption
  · simp only [bareStmt, he, hs]

theorem ifElse (h : Tk .If i m) (h1 : Tk .ParenOpen m n) (h2 : Finds 0 n e o)
      (h3 : Tk .ParenClose o q) (h4 : Stm q s r) (h5 : Tk .Else r u) (h6 : Stm u s' j) :
      Stm i (.ifS z e s (some s')) j := by
  refine Stm.of (h := .IF) (by rw [h.look]; decide +kernel) (by decide) fun l hl => ?_
  obtain ⟨ht, l1, hc, hl1⟩ := hl.tk h
  obtain ⟨ht1, l2, hc1, hl2⟩ := hl1.tk h1
  obtain ⟨e', l3, he, hl3, hev⟩ := h2.run (c := .DEF) (L := .ANY) rfl l2 hl2
  obtain ⟨ht3, l4, hc3, hl4⟩ := hl3.tk h3
  obtain ⟨s1, l5, hs, hl5, hev2⟩ := h4.2 l4 hl4
  obtain ⟨ht5, l6, hc5, hl6⟩ := hl5.tk h5
  obtain ⟨s2, l7, hs2, hl7, hev3⟩ := h6.2 l6 hl6
  apply Found.intro
  · unfold runSH
    simp only [ifStatement]
    ev [ht5]
  · assumption
  · simp only [bareStmt, he, hs, hs2]

theorem whileLoop (h : Tk .While i m) (h1 : Tk .ParenOpen m n) (h2 : Finds 0 n e o)
      (h3 : Tk .ParenClose o q) (h4 : Stm q s j) : Stm i (.whileS z e s) j := by
  refine Stm.of (h := .WHL) (by rw [h.look]; decide +kernel) (by decide) fun l hl => ?_
  obtain ⟨ht, l1, hc, hl1⟩ := hl.tk h
  obtain ⟨ht1, l2, hc1, hl2⟩ := hl1.tk h1
  obtain ⟨e', l3, he, hl3, hev⟩ := h2.run (c := .DEF) (L := .ANY) rfl l2 hl2
  obtain ⟨ht3, l4, hc3, hl4⟩ := hl3.tk h3
  obtain ⟨s', l5, hs, hl5, hev2⟩ := h4.2 l4 hl4
  apply Found.intro
  · unfold runSH
    simp only [whileStatement]
    ev []
  · assumption
  · simp only [bareStmt, he, hs]

theorem doLoop (h : Tk .Do i m) (h1 : Stm m s n) (h2 : Tk .While n o) (h3 : Tk .ParenOpen o q)
      (h4 : Finds 0 q e r) (h5 : Tk .ParenClose r j) : Stm i (.doS z s e) j := by
  refine Stm.of (h := .DO) (by rw [h.look]; decide +kernel) (by decide) fun l hl => ?_
  obtain ⟨ht, l1, hc, hl1⟩ := hl.tk h
  obtain ⟨s', l2, hs, hl2, hev⟩ := h1.2 l1 hl1
  obtain ⟨ht2, l3, hc2, hl3⟩ := hl2.tk h2
  obtain ⟨ht3, l4, hc3, hl4⟩ := hl3.tk h3
  obtain ⟨e', l5, he, hl5, hev2⟩ := h4.run (c := .DEF) (L := .ANY) rfl l4 hl4
  obtain ⟨ht5, l6, hc5, hl6⟩ := hl5.tk h5
  apply Found.intro
  · unfold runSH
    simp only [doStatement]
    ev []
  · assumption
  · simp only [bareStmt, he, hs]

end Complete
end Ratel
