import Verif.Lemmas.CompleteFor
/-! The parser finds every phrase of the grammar: imports and programs. -/
namespace Ratel
open Spec
set_option linter.unusedSectionVars false
set_option linter.unusedSimpArgs false
variable [Unicode]
variable {k : Nat} {i m n o q r u v j : List Item} {e a b c : Expr} {s s' : Stmt}

namespace Complete

/-! ### Imports -/

def importNamedBody (_ : Nat) (acc : List ImportSpec) : P (Step (List ImportSpec) (List ImportSpec)) := do
    if (← tok) = .Identifier then
      let s ← start
      let name ← identifier
      let loc' ← (do
        if (← tok) = .Identifier ∧ (← tokStr) = bs!"as" then
          consume
          identifier
        else pure name)
      let e ← stop
      let acc := acc ++ [.named ⟨s, e⟩ name loc']
      match ← tok with
      | .Comma => do
        consume
        pure (.again acc)
      | .BraceClose => do
        consume
        pure (.done acc)
      | _ => do
        error
        pure (.again acc)
    else
      error
      pure (.done acc)

theorem importName {sp : ImportSpec} (h : ImportName i sp j) : look i = .Identifier ∧
    ∀ l, Stream l i → ∃ nm lc l1 l2, (∀ x, bareSpec (.named x nm lc) = sp) ∧ Ev (fun _ => identifier) l nm l1 ∧
      Ev (fun _ => do
        if (← tok) = .Identifier ∧ (← tokStr) = bs!"as" then
          consume
          identifier
        else pure nm) l1 lc l2 ∧ Stream l2 j := by
  cases h with
  | plain h h' =>
    refine ⟨h.look, fun l hl => ?_⟩
    obtain ⟨nm, l1, hnm, hl1, hev⟩ := identifier_run h l hl
    refine ⟨nm, nm, l1, l1, fun x => by simp only [bareSpec, hnm], hev, ?_, hl1⟩
    apply Ev.tok.mpr
    by_cases ht : l1.token = .Identifier
    · have hw : l1.tokenAsStr ≠ bs!"as" := by
        intro hw
        cases hl1 with
        | tok ht1 hw1 ha hc hl2 =>
          rw [ht] at ht1
          subst ht1
          have := text_of ht hw1
          rw [hw] at this
          subst this
          exact h' _ ⟨_, rfl⟩
        | eof ht1 => rw [ht] at ht1; cases ht1
        | regex ht1 => rw [ht] at ht1; cases ht1
        | resume ht1 => rw [ht] at ht1; cases ht1
      ev [ht, hw]
    · ev [ht]
  | renamed h h1 h2 =>
    refine ⟨h.look, fun l hl => ?_⟩
    obtain ⟨nm, l1, hnm, hl1, hev⟩ := identifier_run h l hl
    obtain ⟨ht, hw, l2, hc, hl2⟩ := hl1.wd h1
    have hw := text_of ht hw
    obtain ⟨nm', l3, hnm', hl3, hev3⟩ := identifier_run h2 l2 hl2
    refine ⟨nm, nm', l1, l3, fun x => by simp only [bareSpec, hnm, hnm'], hev, ?_, hl3⟩
    ev [ht, hw]

theorem importNames {ss : List ImportSpec} (h : ImportNames i ss j) : ∀ l, Stream l i → ∃ xs l', xs.map bareSpec = ss ∧
    Stream l' j ∧ ∀ acc, EvLoop importNamedBody acc l (acc ++ xs) l' := by
  induction h with
  | last h h1 =>
    intro l hl
    obtain ⟨hi, hn⟩ := importName h
    obtain ⟨nm, lc, l1, l2, hsp, hev1, hev2, hl2⟩ := hn l hl
    obtain ⟨ht2, l3, hc, hl3⟩ := hl2.tk h1
    have ht : l.token = .Identifier := by rw [hl.token]; exact hi
    refine ⟨[.named ⟨l.tokenStart, l2.index⟩ nm lc], l3, by simp only [List.map_cons, hsp, List.map_nil], hl3,
      fun acc => .done ?_⟩
    unfold importNamedBody
    apply Ev.tok.mpr
    simp only [ht, if_true]
    apply Ev.start.mpr
    apply Ev.bind hev1
    apply Ev.bind hev2
    ev [ht2]
  | more h h1 h2 ih =>
    intro l hl
    obtain ⟨hi, hn⟩ := importName h
    obtain ⟨nm, lc, l1, l2, hsp, hev1, hev2, hl2⟩ := hn l hl
    obtain ⟨ht2, l3, hc, hl3⟩ := hl2.tk h1
    have ht : l.token = .Identifier := by rw [hl.token]; exact hi
    obtain ⟨xs, l', hxs, hl', hlp⟩ := ih l3 hl3
    refine ⟨.named ⟨l.tokenStart, l2.index⟩ nm lc :: xs, l', by simp only [List.map_cons, hsp, hxs], hl',
      fun acc => .again (y := acc ++ [.named ⟨l.tokenStart, l2.index⟩ nm lc]) (l1 := l3) ?_
        (by have := hlp (acc ++ [.named ⟨l.tokenStart, l2.index⟩ nm lc]); rwa [List.append_assoc] at this)⟩
    unfold importNamedBody
    apply Ev.tok.mpr
    simp only [ht, if_true]
    apply Ev.start.mpr
    apply Ev.bind hev1
    apply Ev.bind hev2
    ev [ht2]

theorem importGroup {ss : List ImportSpec} (h : ImportGroup i ss j) :
    (look i = .BraceOpen ∨ look i = .OperatorMultiplication) ∧ ∀ l, Stream l i → ∀ acc, ∃ xs l', xs.map bareSpec = ss ∧
    Stream l' j ∧ Ev (fun n => importSecond n acc) l (acc ++ xs) l' := by
  cases h with
  | names h h1 =>
    refine ⟨.inl h.look, fun l hl acc => ?_⟩
    obtain ⟨ht, l1, hc, hl1⟩ := hl.tk h
    obtain ⟨xs, l', hxs, hl', hlp⟩ := importNames h1 l1 hl1
    refine ⟨xs, l', hxs, hl', ?_⟩
    have hlp := Ev.loop (hlp acc)
    unfold importSecond
    ev [ht]
    unfold importNamed
    exact hlp
  | all h h1 h2 =>
    refine ⟨.inr h.look, fun l hl acc => ?_⟩
    obtain ⟨ht, l1, hc, hl1⟩ := hl.tk h
    obtain ⟨ht1, hw1, l2, hc1, hl2⟩ := hl1.wd h1
    have hw1 := text_of ht1 hw1
    obtain ⟨nm, l3, hnm, hl3, hev⟩ := identifier_run h2 l2 hl2
    refine ⟨[.namespace ⟨l.tokenStart, l3.index⟩ nm], l3, by simp only [List.map_cons, List.map_nil, bareSpec, hnm], hl3, ?_⟩
    unfold importSecond
    ev [ht, ht1, hw1]

theorem stringContent_run {w : Bytes} {l : Lex} (hw : 2 ≤ w.length) : Ev (fun _ => stringContent w) l (unquoted w) l := by
  unfold stringContent
  rw [if_neg (by omega)]
  exact .ret

theorem importFrom_run {st : Nat} {w : Bytes} {ss : List ImportSpec} (h2 : Wd .Identifier bs!"from" n o)
      (h3 : Wd .LiteralString w o j) (hw : 2 ≤ w.length) :
      Parses (fun _ => Ratel.importFrom st ss) bareStmt n (.import z (ss.map bareSpec) (unquoted w)) j := by
  intro l hl
  obtain ⟨ht, hw1, l1, hc, hl1⟩ := hl.wd h2
  have hw1 := text_of ht hw1
  obtain ⟨ht1, hw2, l2, hc2, hl2⟩ := hl1.wd h3
  have hw2 := text_of ht1 hw2
  have hsc := stringContent_run (l := l1) hw
  rw [← hw2] at hsc
  apply Found.intro
  · unfold Ratel.importFrom
    ev [ht, hw1, ht1]
  · assumption
  · simp only [bareStmt, hw2]

theorem importBare {w : Bytes} (h : Tk .Import i m) (h1 : Wd .LiteralString w m j) (hw : 2 ≤ w.length) :
      Stm i (.import z [] (unquoted w)) j := by
  refine Stm.of (h := .IMPT) (by rw [h.look]; decide +kernel) (by decide) fun l hl => ?_
  obtain ⟨ht, l1, hc, hl1⟩ := hl.tk h
  obtain ⟨ht1, hw2, l2, hc2, hl2⟩ := hl1.wd h1
  have hw2 := text_of ht1 hw2
  have hsc := stringContent_run (l := l1) hw
  rw [← hw2] at hsc
  apply Found.intro
  · unfold runSH
    simp only [importDeclaration]
    ev [ht1]
  · assumption
  · simp only [bareStmt, hw2, List.map_nil]

theorem importFrom {w : Bytes} {ss : List ImportSpec} (h : Tk .Import i m) (h1 : ImportHead m ss n) (h2 : Wd .Identifier bs!"from" n o)
      (h3 : Wd .LiteralString w o j) (hw : 2 ≤ w.length) : Stm i (.import z ss (unquoted w)) j := by
  refine Stm.of (h := .IMPT) (by rw [h.look]; decide +kernel) (by decide) fun l hl => ?_
  obtain ⟨ht, l1, hc, hl1⟩ := hl.tk h
  cases h1 with
  | one h1 h' =>
    have ht1 : l1.token = .Identifier := by rw [hl1.token]; exact h1.look
    obtain ⟨nm, l2, hnm, hl2, hev⟩ := identifier_run h1 l1 hl1
    have ht2 : l2.token ≠ .Comma := by rw [hl2.token]; exact h'
    obtain ⟨s1, l3, hs, hl3, hev2⟩ := importFrom_run (st := l.tokenStart)
      (ss := [.default ⟨l1.tokenStart, l2.index⟩ nm]) h2 h3 hw l2 hl2
    simp only [List.map_cons, List.map_nil, bareSpec, hnm] at hs
    apply Found.intro
    · unfold runSH
      simp only [importDeclaration]
      ev [ht1, ht2]
    · assumption
    · assumption
  | both h1 h2' h3' =>
    have ht1 : l1.token = .Identifier := by rw [hl1.token]; exact h1.look
    obtain ⟨nm, l2, hnm, hl2, hev⟩ := identifier_run h1 l1 hl1
    obtain ⟨ht2, l3, hc2, hl3⟩ := hl2.tk h2'
    obtain ⟨xs, l4, hxs, hl4, hev3⟩ := (importGroup h3').2 l3 hl3 [.default ⟨l1.tokenStart, l2.index⟩ nm]
    obtain ⟨s1, l5, hs, hl5, hev2⟩ := importFrom_run (st := l.tokenStart)
      (ss := [.default ⟨l1.tokenStart, l2.index⟩ nm] ++ xs) h2 h3 hw l4 hl4
    simp only [List.cons_append, List.nil_append, List.map_cons, bareSpec, hnm, hxs] at hs
    apply Found.intro
    · unfold runSH
      simp only [importDeclaration]
      ev [ht1, ht2]
    · assumption
    · assumption
  | group h1 =>
    obtain ⟨hlk, hrun⟩ := importGroup h1
    obtain ⟨xs, l2, hxs, hl2, hev⟩ := hrun l1 hl1 []
    obtain ⟨s1, l3, hs, hl3, hev2⟩ := importFrom_run (st := l.tokenStart) (ss := [] ++ xs) h2 h3 hw l2 hl2
    simp only [List.nil_append, hxs] at hs
    rw [← hl1.token] at hlk
    rcases hlk with ht1 | ht1
    all_goals
      apply Found.intro
      · unfold runSH
        simp only [importDeclaration]
        ev [ht1]
      · assumption
      · assumption

/-! ### Programs -/

def programBody (n : Nat) (acc : List Stmt) : P (Step (List Stmt) (List Stmt)) := do
      if (← tok) = .EndOfProgram then pure (.done acc)
      else
        let s ← (procs n).stmt
        pure (.again (acc ++ [s]))

def Prog (i : List Item) (ss : List Stmt) (j : List Item) : Prop :=
  j = [] ∧ Items (fun n => (procs n).stmt) programBody bareStmt (· == .EndOfProgram) i ss j

theorem programEnd : Prog [] [] [] := ⟨rfl, Items.none rfl⟩

theorem programMore {ss : List Stmt} (h : Stm i s m) (h1 : Prog m ss j) : Prog i (s :: ss) j := by
  refine ⟨h1.1, Items.cons h.2 (by simpa using h.first.2.2.2) h1.2 ?_ ?_⟩
  · intro l acc hl hs
    have ht : l.token = .EndOfProgram := by rw [hl.token]; simpa using hs
    unfold programBody
    ev [ht]
  · intro l acc x l1 hl hs hx
    have ht : l.token ≠ .EndOfProgram := by rw [hl.token]; simpa using hs
    unfold programBody
    ev [ht]

theorem program_run {ss : List Stmt} (h : Prog i ss j) : Parses (fun n => program n (procs n)) bareStmts i ss j := by
  intro l hl
  have ht := hl.token
  rcases h.2 l hl with ⟨rfl, rfl, hs⟩ | ⟨hs, x, l1, xs, l', hx, hes, hl', hlp⟩
  · have hs : look i = .EndOfProgram := by simpa using hs
    rw [hs] at ht
    refine ⟨[], l, by simp only [bareStmts], hl, ?_⟩
    unfold program
    ev [ht]
  · have hs : look i ≠ .EndOfProgram := by simpa using hs
    rw [← ht] at hs
    have hlp := Ev.loop (hlp [x])
    refine ⟨[x] ++ xs, l', by rw [bareStmts_map, ← hes]; rfl, hl', ?_⟩
    unfold program
    ev [hs]
    exact hlp

/-! ### All phrases -/

/-- What the parser does with a phrase. -/
def Goal (i : List Item) (x : Phrase) (j : List Item) : Prop :=
  match x with
  | .expr k e => Opens k i e j
  | .whole k e => Finds k i e j
  | .commaTail es => SeqItems i es j
  | .arg e => Arg i e j
  | .args es => Args i es j
  | .elem e => Parses (fun n => (procs n).expr .ARRAY .B0) bareExpr i e j
  | .elems es => Elems (fun n => (procs n).expr .ARRAY .B0) bareExpr i es j
  | .template es qs => Tpl i es qs j
  | .templateTail es qs => TplTail i es qs j
  | .prop p => Prop' i p j
  | .props ps => Props i ps j
  | .propValue k p => PropValue i k p j
  | .pat p => Pat i p j
  | .param p => Param i p j
  | .params ps => Params i ps j
  | .patElem p => Parses (fun n => patternArrayElement n (procs n)) barePat i p j
  | .patElems ps => PatElems i ps j
  | .func k f => Parses (fun n => functionParse n (procs n) (kindOf k)) bareFunc i f j
  | .cls k c => Cls k i c j
  | .member m => Member i m j
  | .memberValue s kd k m => MemberValue i s kd k m j
  | .membersTail ms => MTail i ms j
  | .block b => Blk i b j
  | .stmtsTail ss => Tail (fun n => (procs n).stmt) bareStmt i ss j
  | .stmt s => Stm i s j
  | .declarator d => Decl i d j
  | .declarators ds => Decls i ds j
  | .optExpr t e => t = .Semicolon ∨ t = .ParenClose → Opt t i e j
  | .forInit x => Header i x j
  | .switchCase c => Case' i c j
  | .cases cs => (cs = [] → i ≠ []) ∧ Tail (fun n => Ratel.switchCase n (procs n)) bareCase i cs j
  | .caseBody ss => CBody i ss j
  | .catch c => Ctch i c j
  | .program ss => Prog i ss j

theorem all {x : Phrase} (h : G i x j) : Goal i x j := by
  induction h with
  | whole h h' ih_h => exact Opens.whole ih_h h'
  | ident hk h => exact Complete.ident h
  | this hk h => exact Complete.this h
  | lit hk h hv => exact Complete.lit h hv
  | regex hk => exact Complete.regex 
  | array hk h h0 h1 h2 ih_h1 => exact Complete.array h h0 ih_h1 h2
  | emptyArray hk h h2 => exact Complete.emptyArray h h2
  | object hk h h1 h2 ih_h1 => exact Complete.object h ih_h1 h2
  | function hk h h1 ih_h1 => exact Complete.function h ih_h1
  | «class» hk h h1 ih_h1 => exact Complete.«class» h ih_h1
  | template hk h ih_h => exact Complete.template ih_h
  | paren hk h h1 h2 ih_h1 => exact Complete.paren h ih_h1 h2
  | newTarget hk h h1 => exact Complete.newTarget h h1
  | member hk h h1 ih_h => exact Complete.member hk ih_h h1
  | index hk h h1 h2 h3 ih_h ih_h2 => exact Complete.index hk ih_h h1 ih_h2 h3
  | call hk h h1 h2 h3 ih_h ih_h2 => exact Complete.call hk ih_h h1 ih_h2 h3
  | tagged hk h h1 ih_h ih_h1 => exact Complete.tagged hk ih_h ih_h1
  | «postfix» hk h he hop ha ih_h => exact Complete.postfixed hk ih_h he hop ha
  | arrow hk h hp h1 hb h2 ih_h ih_h2 => exact Complete.arrow hk ih_h hp h1 hb ih_h2
  | arrowBlock hk h hp h1 h2 ih_h ih_h2 => exact Complete.arrowBlock hk ih_h hp h1 ih_h2
  | arrow0 hk h h0 h1 hb h2 ih_h2 => exact Complete.arrow0 h h0 h1 hb ih_h2
  | arrowBlock0 hk h h0 h1 h2 ih_h2 => exact Complete.arrowBlock0 h h0 h1 ih_h2
  | «prefix» hk h hop h1 ih_h1 => exact Complete.prefixed h hop ih_h1
  | new hk h hm h1 ih_h1 => exact Complete.new h hm ih_h1
  | binary hop hk h h1 h2 ih_h ih_h2 => exact Complete.binary hop hk ih_h h1 ih_h2
  | cond hk h h1 h2 h3 h4 ih_h ih_h2 ih_h4 => exact Complete.cond hk ih_h h1 ih_h2 h3 ih_h4
  | assign hk h ha h1 hop h2 ih_h ih_h2 => exact Complete.assign hk ih_h ha h1 hop ih_h2
  | comma h h1 h2 ih_h ih_h2 => exact Complete.comma ih_h h1 ih_h2
  | commaLast h h' ih_h => exact Complete.commaLast ih_h h'
  | commaMore h h1 h2 ih_h ih_h2 => exact Complete.commaMore ih_h h1 ih_h2
  | arg h ih_h => exact Complete.arg ih_h
  | argSpread h h1 ih_h1 => exact Complete.argSpread h ih_h1
  | argsNone h => exact Complete.argsNone h
  | argsLast h h' ih_h => exact Complete.argsLast ih_h h'
  | argsMore h h1 h2 ih_h ih_h2 => exact Complete.argsMore ih_h h1 ih_h2
  | elem h ih_h => exact Complete.elem ih_h
  | elemSpread h h1 ih_h1 => exact Complete.elemSpread h ih_h1
  | elemHole h => exact Complete.elemHole h
  | elemsLast h h' ih_h => exact Complete.elems_last ih_h h'
  | elemsMore h h1 h2 ih_h ih_h2 => exact Complete.elems_more ih_h h1 ih_h2
  | templateClosed h => exact Complete.templateClosed h
  | templateOpen h h1 h2 ih_h1 ih_h2 => exact Complete.templateOpen h ih_h1 ih_h2
  | templateEnd  => exact Complete.templateEnd 
  | templateMore h1 h2 ih_h1 ih_h2 => exact Complete.templateMore ih_h1 ih_h2
  | shorthand h ht h1 h2 => exact Complete.shorthand h ht h1 h2
  | propWord h ht h1 ih_h1 => exact Complete.propWord h ht ih_h1
  | propLiteral h ht h1 ih_h1 => exact Complete.propLiteral h ht ih_h1
  | propBinary h h1 ih_h1 => exact Complete.propBinary h ih_h1
  | propComputed h h1 h2 h3 ih_h1 ih_h3 => exact Complete.propComputed h ih_h1 h2 ih_h3
  | propSpread h h1 ih_h1 => exact Complete.propSpread h ih_h1
  | propField h h1 ih_h1 => exact Complete.propField h ih_h1
  | propMethod h h1 ih_h1 => exact Complete.propMethod h ih_h1
  | propsNone h => exact Complete.propsNone h
  | propsLast h h' ih_h => exact Complete.propsLast ih_h h'
  | propsMore h h1 h2 ih_h ih_h2 => exact Complete.propsMore ih_h h1 ih_h2
  | patIdent h => exact Complete.patIdent h
  | patArray h h0 h1 h2 ih_h1 => exact Complete.patArray h h0 ih_h1 h2
  | patEmptyArray h h2 => exact Complete.patEmptyArray h h2
  | patObject h h1 h2 ih_h1 => exact Complete.patObject h ih_h1 h2
  | param h h' ih_h => exact Complete.param ih_h h'
  | paramDefault h h1 h2 ih_h ih_h2 => exact Complete.paramDefault ih_h h1 ih_h2
  | patElem h ih_h => exact Complete.patElem ih_h
  | patHole h => exact Complete.patHole h
  | patElemsLast h h' ih_h => exact Complete.elems_last ih_h h'
  | patElemsMore h h1 h2 ih_h ih_h2 => exact Complete.elems_more ih_h h1 ih_h2
  | paramsNone h => exact Complete.paramsNone h
  | paramsRest h h1 h2 => exact Complete.paramsRest h h1 h2
  | paramsLast h h1 ih_h => exact Complete.paramsLast ih_h h1
  | paramsMore h h1 h2 ih_h ih_h2 => exact Complete.paramsMore ih_h h1 ih_h2
  | func h h1 h2 h3 h4 ih_h3 ih_h4 => exact Complete.func h h1 h2 ih_h3 ih_h4
  | cls h h1 h2 h0 ih_h2 => exact Complete.cls h h1 ih_h2 h0
  | clsExtends h h1 h2 h3 h4 h0 ih_h2 ih_h4 => exact Complete.clsExtends h h1 ih_h2 h3 ih_h4 h0
  | memberWord h h1 ht hn h2 ih_h2 => exact Complete.memberWord h h1 ht hn ih_h2
  | memberGet h h1 ht h2 ht' h3 ih_h3 => exact Complete.memberGet h h1 ht h2 ht' ih_h3
  | memberSet h h1 ht h2 ht' h3 ih_h3 => exact Complete.memberSet h h1 ht h2 ht' ih_h3
  | memberNumber h h1 h2 ih_h2 => exact Complete.memberNumber h h1 ih_h2
  | memberBinary h h1 h2 ih_h2 => exact Complete.memberBinary h h1 ih_h2
  | memberComputed h h1 h2 h3 h4 ih_h2 ih_h4 => exact Complete.memberComputed h h1 ih_h2 h3 ih_h4
  | memberMethod h h1 h2 ih_h1 => exact Complete.memberMethod h ih_h1 h2
  | memberField h h1 h2 ih_h1 => exact Complete.memberField h ih_h1 h2
  | membersClose h => exact Complete.tail_close h
  | membersEnd  => exact Complete.tail_end 
  | membersMore h h1 ih_h ih_h1 => exact tail_more ih_h.2 ih_h.1 ih_h1
  | block h h1 h0 ih_h1 => exact Complete.block h ih_h1 h0
  | stmtsClose h => exact Complete.tail_close h
  | stmtsEnd  => exact Complete.tail_end 
  | stmtsMore h h1 ih_h ih_h1 => exact tail_more ih_h.2 ih_h.first.1 ih_h1
  | empty h => exact Complete.empty h
  | debugger h => exact Complete.debugger h
  | blockStmt h ih_h => exact Complete.blockStmt ih_h
  | exprStmt h1 h2 h3 h4 h h5 ih_h => exact Complete.exprStmt h1 h2 h3 h4 ih_h h5
  | importExpr h1 h h5 ih_h => exact Complete.importExpr h1 ih_h h5
  | declStmt h hk h1 h2 ih_h1 => exact Complete.declStmt h hk ih_h1 h2
  | ret h h1 => exact Complete.ret h h1
  | retValue h h0 h1 h2 ih_h1 => exact Complete.retValue h h0 ih_h1 h2
  | brk h h1 => exact brk h.look (jump h h1)
  | brkLabel h h0 h1 h2 => exact brk h.look (jumpLabel h h0 h1 h2)
  | cont h h1 => exact cont h.look (jump h h1)
  | contLabel h h0 h1 h2 => exact cont h.look (jumpLabel h h0 h1 h2)
  | throw h h1 h2 ih_h1 => exact Complete.throw h ih_h1 h2
  | ifThen h h1 h2 h3 h4 h5 ih_h2 ih_h4 => exact Complete.ifThen h h1 ih_h2 h3 ih_h4 h5
  | ifElse h h1 h2 h3 h4 h5 h6 ih_h2 ih_h4 ih_h6 => exact Complete.ifElse h h1 ih_h2 h3 ih_h4 h5 ih_h6
  | whileLoop h h1 h2 h3 h4 ih_h2 ih_h4 => exact Complete.whileLoop h h1 ih_h2 h3 ih_h4
  | doLoop h h1 h2 h3 h4 h5 ih_h1 ih_h4 => exact Complete.doLoop h ih_h1 h2 h3 ih_h4 h5
  | forLoop h h1 h2 h3 h4 h5 ih_h3 ih_h4 ih_h5 => exact forLoop h h1 h2 (ih_h3 (.inl rfl)) (ih_h4 (.inr rfl)) ih_h5
  | forLoopInit h h1 h2 h2' h3 h4 h5 ih_h2 ih_h3 ih_h4 ih_h5 => exact forLoopInit h h1 ih_h2 h2' (ih_h3 (.inl rfl)) (ih_h4 (.inr rfl)) ih_h5
  | forInDecl h h1 h2 h3 h4 h5 h6 ih_h2 ih_h4 ih_h6 => exact Complete.forInDecl h h1 ih_h2 h3 ih_h4 h5 ih_h6
  | forInExpr h h1 h2 h3 h4 ih_h2 ih_h4 => exact Complete.forInExpr h h1 ih_h2 h3 ih_h4
  | forOf h h1 h2 h3 h4 h5 h6 ih_h2 ih_h4 ih_h6 => exact Complete.forOf h h1 ih_h2 h3 ih_h4 h5 ih_h6
  | forInitDecl h hk h1 ih_h1 => exact Complete.forInitDecl h hk ih_h1
  | forInitExpr h h1 ih_h => exact Complete.forInitExpr ih_h h1
  | optExprNone h => exact fun _ => optExprNone h
  | optExprSome h h1 ih_h => exact fun ht => optExprSome ht ih_h h1
  | tryCatch h h1 h2 h3 ih_h1 ih_h2 => exact Complete.tryCatch h ih_h1 ih_h2 h3
  | tryCatchFinally h h1 h2 h3 h4 ih_h1 ih_h2 ih_h4 => exact Complete.tryCatchFinally h ih_h1 ih_h2 h3 ih_h4
  | tryFinally h h1 h3 h4 ih_h1 ih_h4 => exact Complete.tryFinally h ih_h1 h3 ih_h4
  | «catch» h h1 h2 h3 h4 ih_h2 ih_h4 => exact Complete.«catch» h h1 ih_h2 h3 ih_h4
  | switch h h1 h2 h3 h4 h5 ih_h2 ih_h5 => exact Complete.switch h h1 ih_h2 h3 h4 ih_h5
  | casesClose h => exact ⟨fun _ hi => (by rw [hi] at h; obtain ⟨_, _, h⟩ := h; cases h), tail_close h⟩
  | casesMore h h1 ih_h ih_h1 => exact ⟨nofun, tail_more ih_h.2 ih_h.1 ih_h1.2⟩
  | case h h1 h2 h3 ih_h1 ih_h3 => exact Complete.case' h ih_h1 h2 ih_h3
  | «default» h h1 h2 ih_h2 => exact Complete.default' h h1 ih_h2
  | caseBodyEnd h => exact Complete.caseBodyEnd h
  | caseBodyMore h h1 ih_h ih_h1 => exact Complete.caseBodyMore ih_h ih_h1
  | labeled h h1 h2 ih_h2 => exact Complete.labeled h h1 ih_h2
  | functionStmt h h1 ih_h1 => exact Complete.functionStmt h ih_h1
  | classStmt h h1 ih_h1 => exact Complete.classStmt h ih_h1
  | importBare h h1 hw => exact Complete.importBare h h1 hw
  | importFrom h h1 h2 h3 hw => exact Complete.importFrom h h1 h2 h3 hw
  | declarator h h' ih_h => exact Complete.declarator ih_h h'
  | declaratorInit h h1 h2 ih_h ih_h2 => exact Complete.declaratorInit ih_h h1 ih_h2
  | declaratorsLast h h' ih_h => exact Complete.declaratorsLast ih_h h'
  | declaratorsMore h h1 h2 ih_h ih_h2 => exact Complete.declaratorsMore ih_h h1 ih_h2
  | programEnd  => exact Complete.programEnd 
  | programMore h h1 ih_h ih_h1 => exact Complete.programMore ih_h ih_h1

end Complete
end Ratel
