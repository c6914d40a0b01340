import Verif.Parser
import Verif.Props.Lexer
/-! Every parser procedure is built from a few primitives. `IsProg src pre m` says so for a procedure
`m` that is started in a lexer state satisfying `pre`; explicit panics have to be unreachable. What
holds of the primitives then holds of the parser by one induction over `IsProg`. -/
namespace Ratel
open Spec

set_option linter.unusedSectionVars false
variable [Unicode]

inductive IsProg (src : Bytes) : {α : Type} → (Lex → Prop) → P α → Prop where
  | pure {α : Type} {pre} (a : α) : IsProg src pre (pure a)
  | bind {α β : Type} {pre} {m : P α} {f : α → P β} (h : IsProg src pre m)
      (hf : ∀ a, IsProg src (fun _ => True) (f a)) : IsProg src pre (m >>= f)
  | tok {β : Type} {pre} {f : Token → P β} (hf : ∀ t, IsProg src (fun l => pre l ∧ l.token = t) (f t)) :
      IsProg src pre (tok >>= f)
  | asi {β : Type} {pre} {f : Asi → P β} (hf : ∀ t, IsProg src pre (f t)) : IsProg src pre (asi >>= f)
  | start {β : Type} {pre} {f : Nat → P β} (hf : ∀ t, IsProg src pre (f t)) : IsProg src pre (start >>= f)
  | stop {β : Type} {pre} {f : Nat → P β} (hf : ∀ t, IsProg src pre (f t)) : IsProg src pre (stop >>= f)
  | curLoc {β : Type} {pre} {f : Loc → P β} (hf : ∀ t, IsProg src pre (f t)) : IsProg src pre (curLoc >>= f)
  | tokStr {β : Type} {pre} {f : Bytes → P β} (hf : ∀ t, IsProg src (fun l => pre l ∧ l.tokenAsStr = t) (f t)) :
      IsProg src pre (tokStr >>= f)
  | accStr {β : Type} {pre} {f : Bytes → P β} (hf : ∀ t, IsProg src pre (f t)) : IsProg src pre (accStr >>= f)
  | quasi {β : Type} {pre} {f : Bytes → P β} (hf : ∀ t, IsProg src pre (f t)) : IsProg src pre (quasi >>= f)
  | consume {pre} : IsProg src pre consume
  | template {pre} (h : ∀ l, pre l → l.token = .BraceClose) : IsProg src pre readTemplateKind
  | regex {pre} (h : ∀ l, pre l → l.token = .OperatorDivision) : IsProg src pre readRegex
  | error {pre} : IsProg src pre error
  | timeout {α : Type} {pre} : IsProg src pre (fun _ => .timeout : P α)
  | panic {α : Type} {pre} (h : ∀ l, Lexing src l → pre l → False) : IsProg src pre (panic : P α)

namespace IsProg
variable {src : Bytes}

theorem weaken {α : Type} {pre pre' : Lex → Prop} {m : P α} (h : IsProg src pre m) (hp : ∀ l, pre' l → pre l) :
    IsProg src pre' m := by
  induction h generalizing pre' with
  | pure a => exact .pure a
  | bind _ hf ih _ => exact .bind (ih hp) hf
  | tok _ ih => exact .tok fun t => ih t fun l h => ⟨hp l h.1, h.2⟩
  | asi _ ih => exact .asi fun t => ih t hp
  | start _ ih => exact .start fun t => ih t hp
  | stop _ ih => exact .stop fun t => ih t hp
  | curLoc _ ih => exact .curLoc fun t => ih t hp
  | tokStr _ ih => exact .tokStr fun t => ih t fun l h => ⟨hp l h.1, h.2⟩
  | accStr _ ih => exact .accStr fun t => ih t hp
  | quasi _ ih => exact .quasi fun t => ih t hp
  | consume => exact .consume
  | template h => exact .template fun l h' => h l (hp l h')
  | regex h => exact .regex fun l h' => h l (hp l h')
  | error => exact .error
  | timeout => exact .timeout
  | panic h => exact .panic fun l hl h' => h l hl (hp l h')

theorem any {α : Type} {pre : Lex → Prop} {m : P α} (h : IsProg src (fun _ => True) m) : IsProg src pre m :=
  h.weaken fun _ _ => trivial

theorem loop {σ α : Type} {pre : Lex → Prop} {body : σ → P (Step σ α)}
    (hb : ∀ x, IsProg src (fun _ => True) (body x)) : ∀ (n : Nat) (x : σ), IsProg src pre (loop n body x)
  | 0, _ => .timeout
  | n + 1, x => by
    rw [Ratel.loop]
    refine .bind (hb x).any fun r => ?_
    split
    · exact loop hb n _
    · exact .pure _

end IsProg

/-- A procedure that was shown to be a program. -/
class Known (src : Bytes) {α : Type} (m : P α) : Prop where
  is : IsProg src (fun _ => True) m

/-- The recursive procedures are programs. -/
class Rec.Known (src : Bytes) (R : Rec) : Prop where
  expr : ∀ c lvl, Ratel.Known src (R.expr c lvl)
  stmt : Ratel.Known src R.stmt
  patArray : Ratel.Known src R.patArray
  property : Ratel.Known src R.property

instance {src : Bytes} {R : Rec} [h : Rec.Known src R] {c lvl} : Known src (R.expr c lvl) := h.expr c lvl
instance {src : Bytes} {R : Rec} [h : Rec.Known src R] : Known src R.stmt := h.stmt
instance {src : Bytes} {R : Rec} [h : Rec.Known src R] : Known src R.patArray := h.patArray
instance {src : Bytes} {R : Rec} [h : Rec.Known src R] : Known src R.property := h.property

/-- One step of the proof that something is a program. -/
macro "prog_step" : tactic => `(tactic| with_reducible first
  | apply IsProg.pure
  | apply IsProg.consume
  | (apply IsProg.template; intro l hl; simp_all; done)
  | apply IsProg.error
  | (apply IsProg.tok; intro _)
  | (apply IsProg.asi; intro _)
  | (apply IsProg.start; intro _)
  | (apply IsProg.stop; intro _)
  | (apply IsProg.curLoc; intro _)
  | (apply IsProg.tokStr; intro _)
  | (apply IsProg.accStr; intro _)
  | (apply IsProg.quasi; intro _)
  | (apply IsProg.loop; intro _)
  | exact IsProg.any Known.is
  | apply IsProg.bind
  | intro _
  | dsimp only
  | split)

macro "prog" : tactic => `(tactic| repeat' prog_step)

section
variable {src : Bytes}

instance : Known src startThenConsume := ⟨by unfold startThenConsume; prog⟩
instance : Known src endThenConsume := ⟨by unfold endThenConsume; prog⟩
instance {t} : Known src (expect t) := ⟨by unfold expect; prog⟩
instance {k} : Known src (parseName k) := ⟨by unfold parseName; prog⟩
instance : Known src identifier := ⟨by unfold identifier; prog⟩
instance : Known src expectSemicolon := ⟨by unfold expectSemicolon; prog⟩

theorem patternFromExpression_known : (e : Expr) → IsProg src (fun _ => True) (patternFromExpression e) := by
  intro e
  fun_induction patternFromExpression e with
  | case1 loc left right ih => exact .bind ih fun _ => .pure _
  | case2 => exact .pure _
  | case3 => prog
instance {e} : Known src (patternFromExpression e) := ⟨patternFromExpression_known e⟩

instance {es} : Known src (paramsFromExpressions es) := ⟨by
  induction es with
  | nil => exact .pure _
  | cons e es ih => unfold paramsFromExpressions; exact .bind Known.is fun _ => .bind ih fun _ => .pure _⟩

variable {n : Nat} {R : Rec}
instance {α : Type} {item : P α} [Known src item] : Known src (rawBlock n item) := ⟨by unfold rawBlock; prog⟩
instance {α : Type} {item : P α} [Known src item] : Known src (block n item) := ⟨by unfold block; prog⟩
instance {α : Type} {item : P α} [Known src item] : Known src (uncheckedBlock n item) := ⟨by unfold uncheckedBlock; prog⟩
instance {α : Type} {item : P α} [Known src item] : Known src (arrayElements n item) := ⟨by unfold arrayElements; prog⟩
variable [Rec.Known src R]
instance : Known src (stmtBlock n R) := ⟨by unfold stmtBlock; prog⟩
instance : Known src (propertyList n R) := ⟨by unfold propertyList; prog⟩
instance : Known src patternIdentifier := ⟨by unfold patternIdentifier; prog⟩
instance {p} : Known src (patternAssign R p) := ⟨by unfold patternAssign; prog⟩
instance : Known src (patternObject n R) := ⟨by unfold patternObject; prog⟩
instance : Known src (patternParam n R) := ⟨by unfold patternParam; prog⟩
instance : Known src (patternArrayElement n R) := ⟨by unfold patternArrayElement; prog⟩
instance : Known src (patternArray n R) := ⟨by unfold patternArray; prog⟩
instance : Known src (patternParse n R) := ⟨by unfold patternParse; prog⟩
instance : Known src restElement := ⟨by unfold restElement; prog⟩
instance : Known src (params n R) := ⟨by unfold params; prog⟩
instance {k} : Known src (functionParse n R k) := ⟨by unfold functionParse; prog⟩
instance : Known src (methodParse n R) := ⟨by unfold methodParse; prog⟩
instance {s k} : Known src (propertyValue n R s k) := ⟨by unfold propertyValue; prog⟩
instance : Known src (property n R) := ⟨by unfold property; prog⟩
instance : Known src (callArguments n R) := ⟨by unfold callArguments; prog⟩
instance {s ps} : Known src (arrowFunctionExpression n R s ps) := ⟨by unfold arrowFunctionExpression; prog⟩
instance : Known src (parenExpression n R) := ⟨by unfold parenExpression; prog⟩
instance : Known src (objectExpression n R) := ⟨by unfold objectExpression; prog⟩
instance : Known src (arrayExpression n R) := ⟨by unfold arrayExpression; prog⟩
theorem regularExpression_prog : IsProg src (fun l => l.token = .OperatorDivision) regularExpression := by
  unfold regularExpression
  refine .start fun _ => .bind (.regex fun _ h => h) fun _ => ?_
  prog
instance : Known src templateString := ⟨by unfold templateString; prog⟩
instance : Known src (templateLiteral n R) := ⟨by unfold templateLiteral; prog⟩
instance {a b c d} : Known src (classMemberValue n R a b c d) := ⟨by unfold classMemberValue; prog⟩
instance : Known src (classMember n R) := ⟨by unfold classMember; prog⟩
instance {k} : Known src (classParse n R k) := ⟨by unfold classParse; prog⟩
instance {k} : Known src (literalExpr k) := ⟨by unfold literalExpr; prog⟩
instance {h e} : Known src (runNH n R h e) := ⟨by unfold runNH; prog⟩
instance {lvl e} : Known src (nestedExpression n R lvl e) := ⟨by unfold nestedExpression; prog⟩
instance : Known src (variableDeclarator n R) := ⟨by unfold variableDeclarator; prog⟩
instance : Known src (variableDeclarators n R) := ⟨by unfold variableDeclarators; prog⟩
instance {k} : Known src (variableDeclarationStatement n R k) := ⟨by unfold variableDeclarationStatement; prog⟩
instance : Known src (returnStatement R) := ⟨by unfold returnStatement; prog⟩
instance : Known src jumpStatement := ⟨by unfold jumpStatement; prog⟩
instance : Known src (throwStatement R) := ⟨by unfold throwStatement; prog⟩
instance : Known src (catchClause n R) := ⟨by unfold catchClause; prog⟩
instance : Known src (tryStatement n R) := ⟨by unfold tryStatement; prog⟩
instance : Known src (ifStatement R) := ⟨by unfold ifStatement; prog⟩
instance : Known src (whileStatement R) := ⟨by unfold whileStatement; prog⟩
instance : Known src (doStatement R) := ⟨by unfold doStatement; prog⟩
instance {k} : Known src (forInit n R k) := ⟨by unfold forInit; prog⟩
instance {s i} : Known src (forRest R s i) := ⟨by unfold forRest; prog⟩
instance {s} : Known src (forEachRest R s) := ⟨by unfold forEachRest; prog⟩
instance {s i} : Known src (forAfterInit R s i) := ⟨by unfold forAfterInit; prog⟩
instance : Known src (forStatement n R) := ⟨by unfold forStatement; prog⟩
instance : Known src (switchCase n R) := ⟨by unfold switchCase; prog⟩
instance : Known src (switchStatement n R) := ⟨by unfold switchStatement; prog⟩
instance : Known src (labeledOrExpressionStatement n R) := ⟨by unfold labeledOrExpressionStatement; prog⟩
instance {e} : Known src (expressionStatement n R e) := ⟨by unfold expressionStatement; prog⟩
instance {a} : Known src (importNamed n a) := ⟨by unfold importNamed; prog⟩
instance {a} : Known src (importSecond n a) := ⟨by unfold importSecond; prog⟩

/-- Tokens come out of `consume`, unless they belong to a template or a regular expression. -/
theorem Spec.Lexing.lexeme {l : Lex} (h : Lexing src l) (h1 : l.token ≠ .TemplateOpen) (h2 : l.token ≠ .TemplateClosed)
    (h3 : l.token ≠ .UnexpectedEndOfProgram) (h4 : l.token ≠ .UnexpectedToken) (h5 : l.token ≠ .LiteralRegEx) :
    Lexeme l.token l.tokenAsStr l.rest := by
  have hc : ∀ {l l' : Lex}, l.WF src → l.consume = .ok l' → Lexeme l'.token l'.tokenAsStr l'.rest := by
    intro l l' h h'
    rw [Lex.consume_eq] at h'
    obtain ⟨g, p, hs⟩ := (Lex.scanAll_spec _).of_ok h'
    have h0 : Lex.WF src { l with asi := .NoSemicolon } := ⟨h.same, h.rest, h.index, h.start, h.eof⟩
    rw [(h0.scanned hs).2]
    exact hs.lexeme
  cases h with
  | new h =>
    rw [Lex.new] at h
    exact hc (l := Lex.init src) ⟨rfl, rfl, Nat.zero_le _, Nat.le_refl _, by simp [Lex.init]⟩ h
  | consume h h' => exact hc h.wf h'
  | template h h' =>
    obtain ⟨p, q, -, ho, h⟩ := (Lex.readTemplateKind_spec _).of_ok h'
    rcases h with h | h | h <;> simp_all
  | regex h h' =>
    obtain ⟨p, c, q, -, ho, h⟩ := (readRegularExpression_spec _).of_ok h'
    rcases h with h | h | h <;> simp_all

theorem Lexeme.string_length {p r : Bytes} (h : Lexeme .LiteralString p r) : 2 ≤ p.length := by
  generalize ht : Token.LiteralString = t at h
  cases h with
  | punct hp => subst ht; exact absurd hp (by revert p; simp [puncts])
  | word _ _ _ => exact absurd (wordToken_inv ht.symm (by decide)) (by simp [keywords])
  | string hq hs => simp
  | _ => simp at ht

theorem Spec.Lexing.string_length {l : Lex} (h : Lexing src l) (ht : l.token = .LiteralString) :
    2 ≤ l.tokenAsStr.length := by
  have := h.lexeme (by simp [ht]) (by simp [ht]) (by simp [ht]) (by simp [ht]) (by simp [ht])
  rw [ht] at this
  exact Lexeme.string_length this

theorem runEH_prog (h : EH) : IsProg src (fun l => (h = .OP → Op.fromToken l.token ≠ none) ∧
    (h = .REG → l.token = .OperatorDivision)) (runEH n R h) := by
  by_cases hne : h = .OP
  · subst hne
    unfold runEH
    refine .start fun _ => .tok fun t => ?_
    split
    · rename_i e
      refine .panic fun l _ hl => ?_
      rw [hl.2, e] at hl
      exact hl.1.1 rfl rfl
    · prog
  · by_cases hne2 : h = .REG
    · subst hne2
      exact regularExpression_prog.weaken fun l hl => hl.2 rfl
    · cases h <;> first | exact absurd rfl hne | exact absurd rfl hne2 | (unfold runEH; prog)

theorem stringContent_prog {pre : Lex → Prop} {v : Bytes} (h : ∀ l, Lexing src l → pre l → 2 ≤ v.length) :
    IsProg src pre (stringContent v) := by
  unfold stringContent
  split
  · exact .panic fun l hl hp => by have := h l hl hp; omega
  · exact .pure _

instance {s a} : Known src (importFrom s a) := ⟨by
  unfold importFrom
  prog
  all_goals
    refine stringContent_prog fun l hl hp => ?_
    have := hl.string_length (by simp_all)
    rwa [hp.2] at this⟩

instance : Known src (importDeclaration n R) := ⟨by
  unfold importDeclaration
  prog
  all_goals
    refine stringContent_prog fun l hl hp => ?_
    have := hl.string_length (by simp_all)
    rwa [hp.2] at this⟩

theorem exprHandler_op (c : Ctx) (t : Token) : (exprHandler c t = .OP → Op.fromToken t ≠ none) ∧
    (exprHandler c t = .REG → t = .OperatorDivision) := by
  revert t
  cases c <;> exact forall_token (by decide +kernel)

theorem stmtHandler_op (t : Token) : (stmtHandler t = .E .OP → Op.fromToken t ≠ none) ∧
    (stmtHandler t = .E .REG → t = .OperatorDivision) := by
  revert t
  exact forall_token (by decide +kernel)

instance {c lvl} : Known src (expression n R c lvl) := ⟨by
  unfold expression
  refine .tok fun t => .bind ((runEH_prog _).weaken fun l hl => ?_) fun _ => Known.is
  rw [hl.2]
  exact exprHandler_op c t⟩

instance : Known src (statement n R) := ⟨by
  unfold statement
  refine .tok fun t => ?_
  generalize hh : stmtHandler t = h
  by_cases hE : ∃ x, h = .E x
  · obtain ⟨x, rfl⟩ := hE
    unfold runSH
    refine .bind ((runEH_prog _).weaken fun l hl => ?_) fun _ => Known.is
    rw [hl.2]
    exact ⟨fun e => (stmtHandler_op t).1 (hh.trans (by rw [e])), fun e => (stmtHandler_op t).2 (hh.trans (by rw [e]))⟩
  · cases h <;> first | (exfalso; exact hE ⟨_, rfl⟩) | (unfold runSH; prog)⟩

instance : Rec.Known src (body n R) := ⟨fun c lvl => inferInstanceAs (Known src (expression n R c lvl)),
  inferInstanceAs (Known src (statement n R)), inferInstanceAs (Known src (patternArray n R)),
  inferInstanceAs (Known src (property n R))⟩

theorem procs_known : ∀ n, Rec.Known src (procs n)
  | 0 => ⟨fun _ _ => ⟨.timeout⟩, ⟨.timeout⟩, ⟨.timeout⟩, ⟨.timeout⟩⟩
  | n + 1 => have := procs_known n; inferInstanceAs (Rec.Known src (body n (procs n)))
instance : Rec.Known src (procs n) := procs_known n

instance : Known src (program n R) := ⟨by unfold program; prog⟩

end

/-! ### What programs do -/

/-- One call of the lexer by the parser. -/
inductive PStep : PState → PState → Prop where
  | consume {s : PState} {l : Lex} (h : s.lex.consume = .ok l) : PStep s { s with lex := l }
  | template {s : PState} {l : Lex} (h : s.lex.readTemplateKind = .ok l) : PStep s { s with lex := l }
  | regex {s : PState} {l : Lex} {v : Bytes} (h : s.lex.readRegularExpression = .ok (l, v)) : PStep s { s with lex := l }
  | error {s : PState} {l : Lex} {e : Err} (h : s.lex.invalidToken = .ok (e, l)) :
      PStep s { lex := l, errors := s.errors ++ [e] }

/-- Any number of calls. -/
inductive PSteps : PState → PState → Prop where
  | refl {s : PState} : PSteps s s
  | step {s t u : PState} (h : PSteps s t) (h' : PStep t u) : PSteps s u

theorem PSteps.trans {s t u : PState} (h : PSteps s t) (h' : PSteps t u) : PSteps s u := by
  induction h' with
  | refl => exact h
  | step _ h' ih => exact .step ih h'

theorem PStep.steps {s t : PState} (h : PStep s t) : PSteps s t := .step .refl h

theorem invalidToken_ok {l l' : Lex} {e : Err} (h : l.invalidToken = .ok (e, l')) :
    (l.token = .EndOfProgram ∧ l' = l ∨ l.token ≠ .EndOfProgram ∧ l.consume = .ok l') ∧
    e = ⟨l.token, l.tokenStart, l.index, l'.sliceSource l.tokenStart l.index⟩ := by
  rw [Lex.invalidToken] at h
  split at h
  · simp at h
    obtain ⟨rfl, rfl⟩ := h
    exact ⟨.inl ⟨by assumption, rfl⟩, rfl⟩
  · simp only [Out.bind_eq_ok] at h
    obtain ⟨m, hm, h⟩ := h
    simp at h
    obtain ⟨rfl, rfl⟩ := h
    exact ⟨.inr ⟨by assumption, hm⟩, rfl⟩

theorem Spec.Lexing.invalidToken {src : Bytes} {l l' : Lex} {e : Err} (h : Lexing src l) (h' : l.invalidToken = .ok (e, l')) :
    Lexing src l' := by
  rw [Lex.invalidToken] at h'
  split at h'
  · simp at h'; exact h'.2 ▸ h
  · simp only [Out.bind_eq_ok] at h'
    obtain ⟨m, hm, h'⟩ := h'
    simp at h'
    exact h'.2 ▸ h.consume hm

theorem PStep.lexing {src : Bytes} {s t : PState} (h : PStep s t) (hs : Lexing src s.lex) : Lexing src t.lex := by
  cases h with
  | consume h => exact hs.consume h
  | template h => exact hs.template h
  | regex h => exact hs.regex h
  | error h => exact hs.invalidToken h

theorem PSteps.lexing {src : Bytes} {s t : PState} (h : PSteps s t) (hs : Lexing src s.lex) : Lexing src t.lex := by
  induction h with
  | refl => exact hs
  | step _ h' ih => exact h'.lexing ih

namespace P
/-- Sequencing, unfolded. -/
theorem bind_run {α β : Type} (m : P α) (f : α → P β) (s : PState) :
    (m >>= f) s = (m s).bind fun x => f x.1 x.2 := rfl
theorem pure_run {α : Type} (a : α) (s : PState) : (pure a : P α) s = .ok (a, s) := rfl

theorem bind_ok {α β : Type} {m : P α} {f : α → P β} {s : PState} {x : β × PState} :
    (m >>= f) s = .ok x ↔ ∃ a t, m s = .ok (a, t) ∧ f a t = .ok x := by
  rw [bind_run]
  cases h : m s with
  | ok y =>
    obtain ⟨a, t⟩ := y
    exact ⟨fun h' => ⟨a, t, rfl, h'⟩, fun ⟨a', t', h1, h2⟩ => by cases h1; exact h2⟩
  | _ => simp [Out.bind]
end P

/-- Running a program only calls the lexer. -/
theorem IsProg.steps {src : Bytes} {α : Type} {pre : Lex → Prop} {m : P α} (h : IsProg src pre m) {s s' : PState} {a : α}
    (hr : m s = .ok (a, s')) : PSteps s s' := by
  induction h generalizing s s' with
  | pure a => cases hr; exact .refl
  | bind _ _ ih ihf =>
    obtain ⟨a, t, h1, h2⟩ := P.bind_ok.1 hr
    exact (ih h1).trans (ihf a h2)
  | tok _ ih | asi _ ih | start _ ih | stop _ ih | curLoc _ ih | tokStr _ ih | accStr _ ih | quasi _ ih =>
    obtain ⟨a, t, h1, h2⟩ := P.bind_ok.1 hr
    cases h1
    exact ih _ h2
  | consume =>
    cases hc : s.lex.consume <;> simp [Ratel.consume, hc, Out.bind] at hr
    subst hr
    exact (PStep.consume hc).steps
  | template =>
    cases hc : s.lex.readTemplateKind <;> simp [Ratel.readTemplateKind, hc, Out.bind] at hr
    subst hr
    exact (PStep.template hc).steps
  | regex =>
    cases hc : s.lex.readRegularExpression <;> simp [Ratel.readRegex, hc, Out.bind] at hr
    obtain ⟨-, rfl⟩ := hr
    exact (PStep.regex hc).steps
  | error =>
    cases hc : s.lex.invalidToken <;> simp [Ratel.error, hc, Out.bind] at hr
    subst hr
    exact (PStep.error hc).steps
  | timeout => cases hr
  | panic => cases hr

/-- A program panics or reads out of bounds only in the lexer. -/
theorem IsProg.bad {src : Bytes} {α : Type} {pre : Lex → Prop} {m : P α} (h : IsProg src pre m) {s : PState}
    (hs : Lexing src s.lex) (hp : pre s.lex) :
    (m s = .panic → ∃ l, Lexing src l ∧ l.consume = .panic) ∧
    (m s = .oob → ∃ l, Lexing src l ∧
      (l.consume = .oob ∨ (l.token = .BraceClose ∧ l.readTemplateKind = .oob) ∨
        (l.token = .OperatorDivision ∧ l.readRegularExpression = .oob))) := by
  induction h generalizing s with
  | pure a => exact ⟨nofun, nofun⟩
  | bind h _ ih ihf =>
    rw [P.bind_run]
    rename_i m f _
    cases hm : m s with
    | ok x =>
      obtain ⟨a, t⟩ := x
      exact ihf a ((h.steps hm).lexing hs) trivial
    | panic => exact ⟨fun _ => (ih hs hp).1 hm, nofun⟩
    | oob => exact ⟨nofun, fun _ => (ih hs hp).2 hm⟩
    | timeout => exact ⟨nofun, nofun⟩
  | tok _ ih => exact ih s.lex.token hs ⟨hp, rfl⟩
  | tokStr _ ih => exact ih s.lex.tokenAsStr hs ⟨hp, rfl⟩
  | asi _ ih | start _ ih | stop _ ih | curLoc _ ih | accStr _ ih | quasi _ ih => exact ih _ hs hp
  | consume =>
    cases hc : s.lex.consume <;> simp [Ratel.consume, hc, Out.bind]
    · exact ⟨_, hs, .inl hc⟩
    · exact ⟨_, hs, hc⟩
  | template h =>
    have h := h _ hp
    have hp := Lex.readTemplateKind_spec s.lex
    cases hc : s.lex.readTemplateKind <;> simp [Ratel.readTemplateKind, hc, Out.bind]
    · exact ⟨_, hs, .inr (.inl ⟨h, hc⟩)⟩
    · rw [hc] at hp; exact hp.elim
  | regex h =>
    have h := h _ hp
    have hp := readRegularExpression_spec s.lex
    cases hc : s.lex.readRegularExpression <;> simp [Ratel.readRegex, hc, Out.bind]
    · exact ⟨_, hs, .inr (.inr ⟨h, hc⟩)⟩
    · rw [hc] at hp; exact hp.elim
  | error =>
    rw [Ratel.error, Lex.invalidToken]
    split
    · simp [Out.bind]
    · cases hc : s.lex.consume <;> simp [Out.bind]
      · exact ⟨_, hs, .inl hc⟩
      · exact ⟨_, hs, hc⟩
  | timeout => exact ⟨nofun, nofun⟩
  | panic h => exact (h _ hs hp).elim

end Ratel
