import Verif.Lemmas.AcceptAll
import Verif.Lemmas.Reach
/-! Where the parser reads outside of the source: it goes on with a template only behind a back quote. -/
namespace Ratel
open Spec

set_option linter.unusedSectionVars false
variable [Unicode]

/-- A lexer state of the parser in which the next call reads outside of the source. -/
def ReadsOut (src : Bytes) : Prop :=
  ∃ l, Reach src l ∧ (l.consume = .oob ∨ (l.token = .OperatorDivision ∧ l.readRegularExpression = .oob) ∨
    (l.token = .BraceClose ∧ l.readTemplateKind = .oob ∧ #b'`' ∈ src.take l.index))

/-- A lexer state of the parser in which the next call panics. -/
def PanicsOut (src : Bytes) : Prop := ∃ l, Reach src l ∧ l.consume = .panic

/-- A lexer state of the parser: templates are open only behind a back quote. -/
structure Ticked (src : Bytes) (l : Lex) : Prop where
  reach : Reach src l
  tick : l.token = .TemplateOpen → #b'`' ∈ src.take l.index

theorem Ticked.proper {src : Bytes} {l : Lex} (h : Ticked src l) : Proper src l := h.reach.proper

/-- If `m` reads outside of the source, or panics, then for one of these reasons. -/
def Nob (src : Bytes) {α : Type} (m : P α) (l : Lex) : Prop :=
  ∀ es, ((m ⟨l, es⟩ = .oob → ReadsOut src) ∧ (m ⟨l, es⟩ = .panic → PanicsOut src)) ∧ ∀ a s, m ⟨l, es⟩ = .ok (a, s) → Ticked src s.lex

/-- A procedure that can be started in any state. -/
class Nobs (src : Bytes) {α : Type} (m : P α) : Prop where
  is : ∀ l, Ticked src l → Nob src m l

section
variable {src : Bytes} {α β σ : Type} {l : Lex}

theorem Nob.pure {a : α} (hl : Ticked src l) : Nob src (pure a) l := fun _ => ⟨⟨nofun, nofun⟩, fun _ _ h => by cases h; exact hl⟩
theorem Nob.panic (h : False) : Nob src (panic : P α) l := h.elim
theorem Nob.bind {m : P α} {f : α → P β} (h : Nob src m l)
    (hf : ∀ es a s, m ⟨l, es⟩ = .ok (a, s) → Ticked src s.lex → Nob src (f a) s.lex) : Nob src (m >>= f) l := by
  intro es
  rw [P.bind_run]
  cases hm : m ⟨l, es⟩
  · exact hf es _ _ hm ((h es).2 _ _ hm) _
  · exact ⟨⟨fun _ => (h es).1.1 hm, nofun⟩, nofun⟩
  · exact ⟨⟨nofun, fun _ => (h es).1.2 hm⟩, nofun⟩
  · exact ⟨⟨nofun, nofun⟩, nofun⟩
theorem Nob.known {m : P α} [Known src m] {f : α → P β} (hl : Ticked src l) (h : Nob src m l)
    (hf : ∀ a l', Ticked src l' → l.index ≤ l'.index → Nob src (f a) l') : Nob src (m >>= f) l :=
  .bind h fun _ a _ hm ht => hf a _ ht (((Known.is (src := src)).steps hm).adv hl.proper.lexing).index
theorem Nob.tok {f : Token → P β} (h : Nob src (f l.token) l) : Nob src (tok >>= f) l := h
theorem Nob.asi {f : Asi → P β} (h : Nob src (f l.asi) l) : Nob src (asi >>= f) l := h
theorem Nob.start {f : Nat → P β} (h : Nob src (f l.tokenStart) l) : Nob src (start >>= f) l := h
theorem Nob.stop {f : Nat → P β} (h : Nob src (f l.index) l) : Nob src (stop >>= f) l := h
theorem Nob.curLoc {f : Loc → P β} (h : Nob src (f ⟨l.tokenStart, l.index⟩) l) : Nob src (curLoc >>= f) l := h
theorem Nob.tokStr {f : Bytes → P β} (h : Nob src (f l.tokenAsStr) l) : Nob src (tokStr >>= f) l := h
theorem Nob.accStr {f : Bytes → P β} (h : Nob src (f l.accessorAsStr) l) : Nob src (accStr >>= f) l := h
theorem Nob.quasi {f : Bytes → P β} (h : Nob src (f l.quasi) l) : Nob src (quasi >>= f) l := h

instance : Known src consume := ⟨.consume⟩
instance : Known src error := ⟨.error⟩

theorem Reach.ticked_consume {l l' : Lex} (h : Reach src l) (hc : l.consume = .ok l') : Ticked src l' := by
  refine ⟨h.consume hc, fun ht => ?_⟩
  obtain ⟨-, hx⟩ := C02_only_trivia_between_tokens h.proper.lexing hc
  have hsp := C01_token_spans h.proper.lexing hc
  rw [ht] at hx
  have hm := hx.openTick
  rw [hsp.2.2.2] at hm
  exact List.mem_of_mem_drop hm

instance : Nobs src consume := ⟨fun l hl es => by
  cases hc : l.consume <;> simp [Ratel.consume, hc, Out.bind]
  · exact hl.reach.ticked_consume hc
  · exact ⟨l, hl.reach, .inl hc⟩
  · exact ⟨l, hl.reach, hc⟩⟩
instance : Nobs src error := ⟨fun l hl es => by
  unfold error Lex.invalidToken
  split
  · simp [Out.bind]; exact hl
  · cases hc : l.consume <;> simp [Out.bind]
    · exact hl.reach.ticked_consume hc
    · exact ⟨l, hl.reach, .inl hc⟩
    · exact ⟨l, hl.reach, hc⟩⟩

theorem Nob.loop {body : σ → P (Step σ α)} {i : Nat} (hk : ∀ x, Known src (body x))
    (hb : ∀ x l, Ticked src l → i ≤ l.index → Nob src (body x) l) :
    ∀ {n : Nat} {x : σ} {l : Lex}, Ticked src l → i ≤ l.index → Nob src (Ratel.loop n body x) l := by
  intro n
  induction n with
  | zero => exact fun _ _ _ => ⟨⟨nofun, nofun⟩, nofun⟩
  | succ n ih =>
    intro x l hl hi
    rw [Ratel.loop]
    have := hk x
    refine .known hl (hb x l hl hi) fun r l' hl' hi' => ?_
    cases r with
    | again y => exact ih hl' (Nat.le_trans hi hi')
    | done a => exact .pure hl'

theorem mem_take_mono {b : Byte} {i j : Nat} (h : b ∈ src.take i) (hij : i ≤ j) : b ∈ src.take j :=
  (List.take_prefix_take_left hij).subset h

theorem Nob.template (hl : Ticked src l) (ht : l.token = .BraceClose) (hb : #b'`' ∈ src.take l.index) :
    Nob src readTemplateKind l := by
  intro es
  have hp := Lex.readTemplateKind_spec l
  cases hc : l.readTemplateKind <;> simp [Ratel.readTemplateKind, hc, Out.bind]
  · obtain ⟨p, q, -, ho, -⟩ := hp.of_ok hc
    have := ho.index
    exact ⟨hl.reach.template ht (List.mem_of_mem_take hb) hc, fun _ => mem_take_mono hb (by omega)⟩
  · exact ⟨l, hl.reach, .inr (.inr ⟨ht, hc, hb⟩)⟩
  · rw [hc] at hp; exact hp.elim

theorem Nob.regex (hl : Ticked src l) (ht : l.token = .OperatorDivision) : Nob src readRegex l := by
  intro es
  have hp := readRegularExpression_spec l
  cases hc : l.readRegularExpression <;> simp [Ratel.readRegex, hc, Out.bind]
  · obtain ⟨p, c, q, -, ho, hx⟩ := hp.of_ok hc
    refine ⟨hl.reach.regex ht hc, fun ht' => ?_⟩
    rcases hx with hx | hx | hx <;> simp_all
  · exact ⟨l, hl.reach, .inr (.inl ⟨ht, hc⟩)⟩
  · rw [hc] at hp; exact hp.elim

end

macro "nob_step" : tactic => `(tactic| with_reducible first
  | exact Nob.pure (by assumption)
  | (apply Nob.panic; contradiction)
  | apply Nob.tok
  | apply Nob.asi
  | apply Nob.start
  | apply Nob.stop
  | apply Nob.curLoc
  | apply Nob.tokStr
  | apply Nob.accStr
  | apply Nob.quasi
  | (exact Nobs.is _ (by assumption))
  | (refine Nob.loop (i := 0) (fun _ => ⟨by prog⟩) ?_ (by assumption) (Nat.zero_le _); intro x l' hl' hi)
  | apply Nob.bind
  | (intro _ _ _ _ _)
  | dsimp only
  | split)
macro "nob" : tactic => `(tactic| (refine ⟨fun l hl => ?_⟩; repeat' nob_step))

section
variable {src : Bytes}
instance : Nobs src startThenConsume := by unfold startThenConsume; nob
instance : Nobs src endThenConsume := by unfold endThenConsume; nob
instance {t} : Nobs src (expect t) := by unfold expect; nob
instance {k} : Nobs src (parseName k) := by unfold parseName; nob
instance : Nobs src identifier := by unfold identifier; nob
instance : Nobs src expectSemicolon := by unfold expectSemicolon; nob
instance {e} : Nobs src (patternFromExpression e) := ⟨by
  fun_induction patternFromExpression e with
  | case1 loc left right ih => exact fun l hl => .known hl (ih l hl) fun _ _ h _ => .pure h
  | case2 => exact fun _ h => .pure h
  | case3 => intro l hl; repeat' nob_step⟩
instance {es} : Nobs src (paramsFromExpressions es) := by
  induction es with
  | nil => unfold paramsFromExpressions; nob
  | cons e es ih => unfold paramsFromExpressions; nob

/-- The recursive procedures. -/
class Rec.Nobs (src : Bytes) (R : Rec) : Prop where
  expr : ∀ c lvl, Ratel.Nobs src (R.expr c lvl)
  stmt : Ratel.Nobs src R.stmt
  patArray : Ratel.Nobs src R.patArray
  property : Ratel.Nobs src R.property

variable {n : Nat} {R : Rec} {α : Type} {item : P α} [Known src item] [Nobs src item]
instance : Nobs src (rawBlock n item) := by unfold rawBlock; nob
instance : Nobs src (block n item) := by unfold block; nob
instance : Nobs src (uncheckedBlock n item) := by unfold uncheckedBlock; nob
instance : Nobs src (arrayElements n item) := by unfold arrayElements; nob
variable [Rec.Known src R] [hR : Rec.Nobs src R]
instance {c lvl} : Nobs src (R.expr c lvl) := hR.expr c lvl
instance : Nobs src R.stmt := hR.stmt
instance : Nobs src R.patArray := hR.patArray
instance : Nobs src R.property := hR.property
instance : Nobs src (stmtBlock n R) := by unfold stmtBlock; nob
instance : Nobs src (propertyList n R) := by unfold propertyList; nob
instance : Nobs src patternIdentifier := by unfold patternIdentifier; nob
instance {p} : Nobs src (patternAssign R p) := by unfold patternAssign; nob
instance : Nobs src (patternObject n R) := by unfold patternObject; nob
instance : Nobs src (patternParam n R) := by unfold patternParam; nob
instance : Nobs src (patternArrayElement n R) := by unfold patternArrayElement; nob
instance : Nobs src (patternArray n R) := by unfold patternArray; nob
instance : Nobs src (patternParse n R) := by unfold patternParse; nob
instance : Nobs src restElement := by unfold restElement; nob
instance : Nobs src (params n R) := by unfold params; nob
instance {k} : Nobs src (functionParse n R k) := by unfold functionParse; nob
instance : Nobs src (methodParse n R) := by unfold methodParse; nob
instance {s k} : Nobs src (propertyValue n R s k) := by unfold propertyValue; nob
instance : Nobs src (property n R) := by unfold property; nob
instance : Nobs src (callArguments n R) := by unfold callArguments; nob
instance {s ps} : Nobs src (arrowFunctionExpression n R s ps) := by unfold arrowFunctionExpression; nob
instance : Nobs src (parenExpression n R) := by unfold parenExpression; nob
instance : Nobs src (objectExpression n R) := by unfold objectExpression; nob
instance : Nobs src (arrayExpression n R) := by unfold arrayExpression; nob
instance : Nobs src templateString := by unfold templateString; nob
instance {a b c d} : Nobs src (classMemberValue n R a b c d) := by unfold classMemberValue; nob
instance : Nobs src (classMember n R) := by unfold classMember; nob
instance {k} : Nobs src (classParse n R k) := by unfold classParse; nob
instance {k} : Nobs src (literalExpr k) := by unfold literalExpr; nob

theorem tplLoop_nob {i s : Nat} {l : Lex} (hb : #b'`' ∈ src.take i) (hl : Ticked src l) (hi : i ≤ l.index) {x : List Expr × List Ident} :
    Nob src (Ratel.loop n (fun ((es, qs) : List Expr × List Ident) => do
        match ← tok with
        | .TemplateOpen => do
          let q ← quasi
          let l ← curLoc
          consume
          let e ← R.expr .DEF .ANY
          let es := es ++ [e]
          let qs := qs ++ [⟨l, q⟩]
          if (← tok) = .BraceClose then
            readTemplateKind
            pure (.again (es, qs))
          else
            let stop' ← stop
            error
            pure (.done ((⟨s, stop'⟩ : Loc), es, qs))
        | .TemplateClosed => do
          let q ← quasi
          let l ← curLoc
          let stop' ← endThenConsume
          pure (.done (⟨s, stop'⟩, es, qs ++ [⟨l, q⟩]))
        | _ => do
          let stop' ← stop
          error
          pure (.done (⟨s, stop'⟩, es, qs))) x) l := by
  refine Nob.loop (i := i) (fun _ => ⟨by prog⟩) ?_ hl hi
  rintro ⟨es, qs⟩ l4 h4 i4
  refine .tok ?_
  split
  · refine .quasi (.curLoc (.known h4 (Nobs.is _ h4) fun _ l5 h5 i5 => .known h5 (Nobs.is _ h5) fun e l6 h6 i6 => .tok ?_))
    split
    · rename_i hc
      refine .bind (.template h6 hc (mem_take_mono hb (by omega))) fun _ _ _ _ h => .pure h
    · repeat' nob_step
  · repeat' nob_step
  · repeat' nob_step

theorem templateLiteral_nob {l : Lex} (hl : Ticked src l) (ht : l.token = .TemplateOpen) : Nob src (templateLiteral n R) l := by
  have hb := hl.tick ht
  unfold templateLiteral
  refine .quasi (.curLoc (.known hl (Nobs.is _ hl) fun s l1 h1 i1 => ?_))
  refine .known h1 (Nobs.is _ h1) fun e l2 h2 i2 => .tok ?_
  dsimp only
  split
  · rename_i hc
    refine .bind (.template h2 hc (mem_take_mono hb (by omega))) fun _ _ s3 hm h3 => ?_
    have hk : IsProg src (fun l => l.token = .BraceClose) readTemplateKind := .template fun _ h => h
    have i3 := ((hk.steps hm).adv h2.proper.lexing).index
    exact tplLoop_nob hb h3 (by dsimp only at i3; omega)
  · exact .known h2 (Nobs.is _ h2) fun _ l3 h3 i3 => tplLoop_nob hb h3 (by omega)

theorem runEH_nob {h : EH} {l : Lex} (hl : Ticked src l) (hr : h = .REG → l.token = .OperatorDivision)
    (ht : h = .TPLE → l.token = .TemplateOpen) (ho : h = .OP → Op.fromToken l.token ≠ none) : Nob src (runEH n R h) l := by
  cases h with
  | REG =>
    unfold runEH regularExpression
    refine .start (.bind (.regex hl (hr rfl)) fun _ _ _ _ h => ?_)
    repeat' nob_step
  | TPLE =>
    unfold runEH
    exact .known hl (templateLiteral_nob hl (ht rfl)) fun _ _ h _ => .pure h
  | OP =>
    unfold runEH
    refine .start (.tok ?_)
    split
    · rename_i h
      exact .panic (ho rfl h)
    · repeat' nob_step
  | _ => unfold runEH; repeat' nob_step

theorem runNH_nob {h : NH} {e : Expr} {l : Lex} (hl : Ticked src l) (ht : h = .TPLE → l.token = .TemplateOpen) :
    Nob src (runNH n R h e) l := by
  cases h with
  | TPLE =>
    unfold runNH
    exact .known hl (templateLiteral_nob hl (ht rfl)) fun _ _ h _ => .pure h
  | _ => unfold runNH; repeat' nob_step

instance {lvl e} : Nobs src (nestedExpression n R lvl e) := by
  refine ⟨fun l hl => ?_⟩
  unfold nestedExpression
  refine Nob.loop (i := 0) (fun _ => ⟨by prog⟩) ?_ hl (Nat.zero_le _)
  intro x l' hl' _
  refine .asi (.tok ?_)
  split
  · rename_i h
    refine .known hl' (runNH_nob hl' fun e => ?_) fun _ _ h _ => .pure h
    subst e
    simpa [NHTok] using nestedHandler_tok h
  · exact .pure hl'

instance {c lvl} : Nobs src (expression n R c lvl) := by
  refine ⟨fun l hl => ?_⟩
  unfold expression
  refine .tok (.bind (runEH_nob hl (exprHandler_op c _).2 (fun e => ?_) (exprHandler_op c _).1) fun _ _ _ _ h => Nobs.is _ h)
  have := exprHandler_tok c l.token
  rw [e] at this
  simpa [EHTok] using this

instance : Nobs src (variableDeclarator n R) := by unfold variableDeclarator; nob
instance : Nobs src (variableDeclarators n R) := by unfold variableDeclarators; nob
instance {k} : Nobs src (variableDeclarationStatement n R k) := by unfold variableDeclarationStatement; nob
instance : Nobs src (returnStatement R) := by unfold returnStatement; nob
instance : Nobs src jumpStatement := by unfold jumpStatement; nob
instance : Nobs src (throwStatement R) := by unfold throwStatement; nob
instance : Nobs src (catchClause n R) := by unfold catchClause; nob
instance : Nobs src (tryStatement n R) := by unfold tryStatement; nob
instance : Nobs src (ifStatement R) := by unfold ifStatement; nob
instance : Nobs src (whileStatement R) := by unfold whileStatement; nob
instance : Nobs src (doStatement R) := by unfold doStatement; nob
instance {k} : Nobs src (forInit n R k) := by unfold forInit; nob
instance {s i} : Nobs src (forRest R s i) := by unfold forRest; nob
instance {s} : Nobs src (forEachRest R s) := by unfold forEachRest; nob
instance {s i} : Nobs src (forAfterInit R s i) := by unfold forAfterInit; nob
instance : Nobs src (forStatement n R) := by unfold forStatement; nob
instance : Nobs src (switchCase n R) := by unfold switchCase; nob
instance : Nobs src (switchStatement n R) := by unfold switchStatement; nob
instance : Nobs src (labeledOrExpressionStatement n R) := by unfold labeledOrExpressionStatement; nob
instance {e} : Nobs src (expressionStatement n R e) := by unfold expressionStatement; nob
instance {a} : Nobs src (importNamed n a) := by unfold importNamed; nob
instance {a} : Nobs src (importSecond n a) := by unfold importSecond; nob

theorem stringContent_nob {m l : Lex} (hl : Ticked src l) (hm : Ticked src m) (ht : m.token = .LiteralString) :
    Nob src (stringContent m.tokenAsStr) l := by
  have := hm.proper.lexing.string_length ht
  unfold stringContent
  split
  · exact .panic (by omega)
  · exact .pure hl
macro_rules | `(tactic| nob_step) => `(tactic| with_reducible exact stringContent_nob (by assumption) (by assumption) (by assumption))
instance {s a} : Nobs src (importFrom s a) := by unfold importFrom; nob
instance : Nobs src (importDeclaration n R) := by unfold importDeclaration; nob

instance : Nobs src (statement n R) := by
  refine ⟨fun l hl => ?_⟩
  unfold statement
  refine .tok ?_
  generalize hh : stmtHandler l.token = h
  cases h with
  | E h =>
    unfold runSH
    refine .bind (runEH_nob hl (fun e => (stmtHandler_op l.token).2 (by rw [hh, e])) (fun e => ?_)
      fun e => (stmtHandler_op l.token).1 (by rw [hh, e])) fun _ _ _ _ h => Nobs.is _ h
    have := stmtHandler_tok l.token
    rw [hh, e] at this
    simpa [SHTok, EHTok] using this
  | _ =>
    clear hh
    unfold runSH
    repeat' nob_step

theorem procs_nobs : ∀ n, Rec.Nobs src (procs n)
  | 0 => ⟨fun _ _ => ⟨fun _ _ _ => ⟨⟨nofun, nofun⟩, nofun⟩⟩, ⟨fun _ _ _ => ⟨⟨nofun, nofun⟩, nofun⟩⟩,
      ⟨fun _ _ _ => ⟨⟨nofun, nofun⟩, nofun⟩⟩, ⟨fun _ _ _ => ⟨⟨nofun, nofun⟩, nofun⟩⟩⟩
  | n + 1 =>
    have := procs_nobs n
    have := procs_known (src := src) n
    ⟨fun c lvl => (inferInstance : Nobs src (expression n (procs n) c lvl)), (inferInstance : Nobs src (statement n (procs n))),
      (inferInstance : Nobs src (patternArray n (procs n))), (inferInstance : Nobs src (property n (procs n)))⟩

instance : Nobs src (program n R) := by unfold program; nob

end
end Ratel
