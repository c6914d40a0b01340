import Verif.Lemmas.EnoughParts
import Verif.Lemmas.AcceptAll
/-! Expressions, statements and programs do not need more fuel than there are bytes. -/
namespace Ratel
open Spec

set_option linter.unusedSectionVars false
variable [Unicode] {src : Bytes} {n n' : Nat} {R R' : Rec} [hR : Rec.Two src n n' R R'] [Stall R.stmt] [Stall R'.stmt]

theorem regularExpression_two {l : Lex} (hl : Proper src l) (ht : l.token = .OperatorDivision) :
    Two regularExpression regularExpression l fun _ l' => Proper src l' ∧ l'.ahead < l.ahead := by
  unfold regularExpression
  refine .start (.regex hl ht fun v l' hp' hle ht' => .stop (.expect hp' fun l'' h => .pure ⟨h.1, ?_⟩))
  have := h.2.1
  rcases ht' with h' | h'
  · omega
  · have := h.2.2 h'
    omega

theorem runEH_two {h : EH} {l : Lex} (hl : Proper src l) (hn : l.ahead + 1 ≤ n) (hn' : l.ahead + 1 ≤ n') (hr : h = .REG → l.token = .OperatorDivision)
    (ht : h ≠ .ERR → h ≠ .VOID → ¬l.Ended) :
    Two (runEH n R h) (runEH n' R' h) l fun _ l' => Proper src l' ∧ l'.ahead ≤ l.ahead ∧ (h ≠ .VOID → ¬l.Ended → l'.ahead < l.ahead) := by
  cases h with
  | REG => exact (regularExpression_two hl (hr rfl)).weaken fun _ l' h => ⟨h.1, by omega, fun _ _ => h.2⟩
  | ERR => unfold runEH; two
  | VOID => unfold runEH; two
  | _ =>
    replace ht := ht nofun nofun
    clear hr
    unfold runEH
    two

instance two_a1 {h e} : Two.Hi src n n' (runNH n R h e) (runNH n' R' h e) := by
  refine ⟨fun l hl ht hn hn' => ?_⟩
  cases h <;> unfold runNH <;> two

theorem nestedHandler_run {lvl : Lvl} {a : Asi} {l : Lex} {h : NH} (hh : nestedHandler lvl a l.token = some h) : ¬l.Ended := by
  generalize ht : l.token = t at hh
  refine Lex.not_ended ht ?_ ?_
  all_goals
    rintro rfl
    unfold nestedHandler at hh
    split at hh
    · cases hh
  · have : ∀ lvl, ((lut lvl)[Token.EndOfProgram.idx]?).join = none := by intro lvl; cases lvl <;> decide +kernel
    rw [this] at hh
    cases hh
  · have : ∀ lvl, ((lut lvl)[Token.UnexpectedToken.idx]?).join = none := by intro lvl; cases lvl <;> decide +kernel
    rw [this] at hh
    cases hh

instance two_a2 {lvl e} : Two.Ter src n n' (nestedExpression n R lvl e) (nestedExpression n' R' lvl e) 1 false := by
  refine ⟨fun l hl hn hn' => ?_⟩
  unfold nestedExpression
  refine Two.loop' ?_ hl (Nat.le_refl _) hn hn' fun a l' h1 h2 => ⟨h1, h2, nofun⟩
  intro x l' hp' hle
  refine .asi (.tok ?_)
  split
  · rename_i h
    have := nestedHandler_run h
    two
  · two

theorem exprHandler_run (c : Ctx) {l : Lex} (h1 : exprHandler c l.token ≠ .ERR) (h2 : exprHandler c l.token ≠ .VOID) : ¬l.Ended := by
  have key : ∀ t, exprHandler c t ≠ .ERR → exprHandler c t ≠ .VOID → t ≠ .EndOfProgram ∧ t ≠ .UnexpectedToken := by
    cases c <;> exact forall_token (by decide +kernel)
  exact Lex.not_ended rfl (key _ h1 h2).1 (key _ h1 h2).2

instance two_a3 {c lvl} : Two.Ter src n n' (expression n R c lvl) (expression n' R' c lvl) 1 false := by
  refine ⟨fun l hl hn hn' => ?_⟩
  unfold expression
  refine .tok (.bind ((runEH_two hl hn hn' (exprHandler_op c _).2 (exprHandler_run c)).weaken fun a l' h => ?_))
  obtain ⟨h1, h2, -⟩ := h
  two

instance two_a4 : Two.Ter src n n' (variableDeclarator n R) (variableDeclarator n' R') 2 false := by unfold variableDeclarator; ter2
instance two_a5 : Two.Ter src n n' (variableDeclarators n R) (variableDeclarators n' R') 2 false := by unfold variableDeclarators; ter2
instance two_a6 {k} : Two.Hi src n n' (variableDeclarationStatement n R k) (variableDeclarationStatement n' R' k) := by unfold variableDeclarationStatement; hi2
instance two_a7 : Two.Hi src n n' (returnStatement R) (returnStatement R') := by unfold returnStatement; hi2
instance two_a8 : Two.Hi src n n' jumpStatement jumpStatement := by unfold jumpStatement; hi2
instance two_a9 : Two.Hi src n n' (throwStatement R) (throwStatement R') := by unfold throwStatement; hi2
instance two_a10 : Two.Ter src n n' (catchClause n R) (catchClause n' R') 2 false := by unfold catchClause; ter2
instance two_a11 : Two.Hi src n n' (tryStatement n R) (tryStatement n' R') := by unfold tryStatement; hi2
instance two_a12 : Two.Hi src n n' (ifStatement R) (ifStatement R') := by unfold ifStatement; hi2
instance two_a13 : Two.Hi src n n' (whileStatement R) (whileStatement R') := by unfold whileStatement; hi2
instance two_a14 : Two.Hi src n n' (doStatement R) (doStatement R') := by unfold doStatement; hi2
instance two_a15 {k} : Two.Ter src n n' (forInit n R k) (forInit n' R' k) 2 false := by unfold forInit; ter2
instance two_a16 {s i} : Two.Ter src n n' (forRest R s i) (forRest R' s i) 2 false := by unfold forRest; ter2
instance two_a17 {s} : Two.Ter src n n' (forEachRest R s) (forEachRest R' s) 2 false := by unfold forEachRest; ter2
instance two_a18 {s i} : Two.Ter src n n' (forAfterInit R s i) (forAfterInit R' s i) 2 false := by unfold forAfterInit; ter2
instance two_a19 : Two.Hi src n n' (forStatement n R) (forStatement n' R') := by unfold forStatement; hi2
instance two_a20 : Two.Hi src n n' (labeledOrExpressionStatement n R) (labeledOrExpressionStatement n' R') := by unfold labeledOrExpressionStatement; hi2
instance two_a21 {e} : Two.Ter src n n' (expressionStatement n R e) (expressionStatement n' R' e) 1 false := by unfold expressionStatement; ter2
instance two_a22 {a} : Two.Ter src n n' (importNamed n a) (importNamed n' a) 1 false := by unfold importNamed; ter2
instance two_a23 {a} : Two.Ter src n n' (importSecond n a) (importSecond n' a) 1 false := by unfold importSecond; ter2
instance two_a24 {v} : Two.Ter src n n' (stringContent v) (stringContent v) 0 false := by unfold stringContent; ter2
instance two_a25 {s a} : Two.Ter src n n' (importFrom s a) (importFrom s a) 0 false := by unfold importFrom; ter2
instance two_a26 : Two.Hi src n n' (importDeclaration n R) (importDeclaration n' R') := by unfold importDeclaration; hi2

/-- A case body: at the end of the program it goes on forever. -/
theorem caseStep_stuck {m : P Stmt} {s : PState} (h : s.lex.Ended) {I : Lex → Prop}
    (hm : m s = .timeout ∨ ∃ a t, m s = .ok (a, t) ∧ I t.lex) {e : Nat} {acc : List Stmt} :
    (do
      match ← tok with
      | .Case | .Default | .BraceClose => pure (.done (e, acc))
      | _ => do
        let st ← m
        pure (.again (st.loc.stop, acc ++ [st])) : P (Step (Nat × List Stmt) (Nat × List Stmt))) s = .timeout ∨
    ∃ y t, (do
      match ← tok with
      | .Case | .Default | .BraceClose => pure (.done (e, acc))
      | _ => do
        let st ← m
        pure (.again (st.loc.stop, acc ++ [st])) : P (Step (Nat × List Stmt) (Nat × List Stmt))) s = .ok (.again y, t) ∧ I t.lex := by
  have ht : tok s = .ok (s.lex.token, s) := rfl
  have h' : s.lex.token = .EndOfProgram ∨ s.lex.token = .UnexpectedToken := h.imp id And.left
  rw [P.bind_eq ht]
  rcases h' with h' | h' <;> rw [h'] <;> dsimp only <;> rw [P.bind_run] <;>
  · rcases hm with e | ⟨a, t, e, ht⟩
    · rw [e]; exact .inl rfl
    · rw [e]; exact .inr ⟨_, _, rfl, ht⟩

theorem ended_step {m : P Stmt} [hs : Stall m]
    (hm : ∀ s : PState, s.lex.token = .EndOfProgram → m s = .timeout ∨ ∃ a t, m s = .ok (a, t) ∧ t.lex.token = .EndOfProgram)
    {s : PState} (h : s.lex.Ended) : m s = .timeout ∨ ∃ a t, m s = .ok (a, t) ∧ t.lex.Ended := by
  rcases h with h | h
  · exact (hm s h).imp id fun ⟨a, t, h1, h2⟩ => ⟨a, t, h1, .inl h2⟩
  · exact (hs.is s h).imp id fun ⟨a, t, h1, h2⟩ => ⟨a, t, h1, .inr h2⟩

theorem caseBody_two {e : Nat} {acc : List Stmt} {l : Lex} {Q : Nat × List Stmt → Lex → Prop} (hl : Proper src l) (hn : l.ahead + 2 ≤ n) (hn' : l.ahead + 2 ≤ n')
    (hq : ∀ a l', Proper src l' → l'.ahead ≤ l.ahead → Q a l') :
    Two (loop n (fun (e, acc) => do
      match ← tok with
      | .Case | .Default | .BraceClose => pure (.done (e, acc))
      | _ => do
        let st ← R.stmt
        pure (.again (st.loc.stop, acc ++ [st]))) (e, acc))
      (loop n' (fun (e, acc) => do
      match ← tok with
      | .Case | .Default | .BraceClose => pure (.done (e, acc))
      | _ => do
        let st ← R'.stmt
        pure (.again (st.loc.stop, acc ++ [st]))) (e, acc)) l Q := by
  refine .loopAt (m := l.ahead) (I := fun s => s.lex.Ended) (fun _ _ h => caseStep_stuck h (ended_step hR.stuck h)) (fun _ _ h => caseStep_stuck h (ended_step hR.stuck' h)) ?_ hl (Nat.le_refl _)
      (by omega) (by omega) hq
  intro x l2 h2 hle
  by_cases hE : l2.Ended
  · exact .inl fun _ => hE
  · right
    two

instance two_a27 : Two.Ter src n n' (switchCase n R) (switchCase n' R') 2 true := by
  refine ⟨fun l hl hn hn' => ?_⟩
  unfold switchCase
  refine .start ?_
  refine .bind (Two.weaken (Q := fun _ l2 => Proper src l2 ∧ l2.ahead ≤ l.ahead ∧ (¬l.Ended → l2.ahead < l.ahead)) ?_ ?_)
  · two
  · intro a l1 h1
    obtain ⟨h1, h2, h3⟩ := h1
    refine .stop (.expect h1 fun l2 h => ?_)
    obtain ⟨h4, h5, -⟩ := h
    refine .bind (caseBody_two h4 (by omega) (by omega) fun a l3 h6 h7 => .pure ⟨h6, by omega, fun _ hE => ?_⟩)
    have := h3 hE
    omega

instance two_a28 : Stall (switchCase n R) := by
  refine ⟨fun s h => .inl ?_⟩
  obtain ⟨t, ht, hf⟩ := error_fixed h
  obtain ⟨t2, ht2, hf2⟩ := error_fixed hf
  have hk : tok s = .ok (.UnexpectedToken, s) := by rw [← h.1]; rfl
  have hk2 : tok t = .ok (.UnexpectedToken, t) := by rw [← hf.1]; rfl
  unfold switchCase
  rw [P.bind_eq (show start s = .ok (s.lex.tokenStart, s) from rfl)]
  rw [P.bind_eq (a := none) (t := t) (by rw [P.bind_eq hk]; exact P.bind_eq ht)]
  rw [P.bind_eq (show stop t = .ok (t.lex.index, t) from rfl)]
  rw [P.bind_eq (a := ()) (t := t2) (by unfold expect; rw [P.bind_eq hk2]; exact ht2)]
  refine P.bind_timeout (loop_stuck (I := fun s => s.lex.Fixed) (fun _ _ h => caseStep_stuck (.inr h) (Stall.is _ h)) _ _ _ hf2)

instance two_a29 : Two.Hi src n n' (switchStatement n R) (switchStatement n' R') := by unfold switchStatement; hi2

theorem stmtHandler_run {l : Lex} (h : stmtHandler l.token ≠ .ERR) : ¬l.Ended := by
  have key : ∀ t, stmtHandler t ≠ .ERR → t ≠ .EndOfProgram ∧ t ≠ .UnexpectedToken := forall_token (by decide +kernel)
  exact Lex.not_ended rfl (key _ h).1 (key _ h).2
theorem stmtHandler_noVoid (t : Token) : stmtHandler t ≠ .E .VOID := by
  revert t
  exact forall_token (by decide +kernel)

instance two_a30 : Two.Ter src n n' (statement n R) (statement n' R') 1 true := by
  refine ⟨fun l hl hn hn' => ?_⟩
  unfold statement
  refine .tok ?_
  generalize hh : stmtHandler l.token = h
  cases h with
  | ERR => unfold runSH; two
  | E h =>
    unfold runSH
    have hv : h ≠ .VOID := fun e => stmtHandler_noVoid l.token (by rw [hh, e])
    have ht := stmtHandler_run (l := l) (by rw [hh]; nofun)
    refine .bind ((runEH_two hl hn hn' (fun e => (stmtHandler_op l.token).2 (by rw [hh, e])) (fun _ _ => ht)).weaken fun a l' h => ?_)
    obtain ⟨h1, h2, h3⟩ := h
    replace h3 := h3 hv ht
    two
  | _ =>
    have ht := stmtHandler_run (l := l) (by rw [hh]; nofun)
    clear hh
    unfold runSH
    two

theorem Two.Ter.up {α : Type} {m m' : P α} {st : Bool} (h : Two.Ter src n n' m m' 1 st) : Two.Ter src (n + 1) (n' + 1) m m' 2 st :=
  ⟨fun l hl hn hn' => h.is l hl (by omega) (by omega)⟩

omit hR [Stall R.stmt] [Stall R'.stmt] in
theorem statement_ended {s : PState} {I : Lex → Prop} (h : stmtHandler s.lex.token = .ERR) (he : ∃ t, error s = .ok ((), t) ∧ I t.lex) :
    ∃ a t, statement n R s = .ok (a, t) ∧ I t.lex := by
  obtain ⟨t, ht, hI⟩ := he
  refine ⟨.empty ⟨s.lex.tokenStart, s.lex.tokenStart⟩, t, ?_, hI⟩
  change runSH n R (stmtHandler s.lex.token) s = _
  rw [h]
  change (error >>= fun _ => pure _ : P Stmt) s = _
  rw [P.bind_eq ht]
  rfl

omit hR [Stall R.stmt] [Stall R'.stmt] in
theorem procs_eof (n : Nat) {s : PState} (h : s.lex.token = .EndOfProgram) :
    (procs n).stmt s = .timeout ∨ ∃ a t, (procs n).stmt s = .ok (a, t) ∧ t.lex.token = .EndOfProgram := by
  cases n with
  | zero => exact .inl rfl
  | succ n =>
    refine .inr (statement_ended (I := fun l => l.token = .EndOfProgram) (by rw [h]; rfl) ?_)
    unfold error Lex.invalidToken
    rw [if_pos h]
    exact ⟨_, rfl, h⟩

omit hR [Stall R.stmt] [Stall R'.stmt] in
instance procs_stall (n : Nat) : Stall (procs n).stmt := by
  refine ⟨fun s h => ?_⟩
  cases n with
  | zero => exact .inl rfl
  | succ n => exact .inr (statement_ended (I := Lex.Fixed) (by rw [h.1]; rfl) (error_fixed h))

omit hR [Stall R.stmt] [Stall R'.stmt] in
theorem procs_two : ∀ n n', Rec.Two src n n' (procs n) (procs n')
  | 0, _ => ⟨fun _ _ => ⟨fun l hl hn => by omega⟩, ⟨fun l hl hn => by omega⟩, fun l hl hn => by omega, ⟨fun l hl hn => by omega⟩,
      fun _ => procs_eof _, fun _ => procs_eof _⟩
  | _ + 1, 0 => ⟨fun _ _ => ⟨fun l hl hn hn' => by omega⟩, ⟨fun l hl hn hn' => by omega⟩, fun l hl hn hn' => by omega, ⟨fun l hl hn hn' => by omega⟩,
      fun _ => procs_eof _, fun _ => procs_eof _⟩
  | n + 1, n' + 1 =>
    have := procs_two n n'
    ⟨fun c lvl => Two.Ter.up (m := expression n (procs n) c lvl) (m' := expression n' (procs n') c lvl) inferInstance,
      Two.Ter.up (m := statement n (procs n)) (m' := statement n' (procs n')) inferInstance,
      fun l hl hn hn' ht => ((Two.Hi.is (m := patternArray n (procs n)) (m' := patternArray n' (procs n')) (n := n) (n' := n') l hl
          (Lex.not_ended ht (by decide) (by decide)) (by omega) (by omega)).weaken fun a l' h => ⟨h.1, by omega⟩),
      Two.Ter.up (m := property n (procs n)) (m' := property n' (procs n')) inferInstance,
      fun _ => procs_eof _, fun _ => procs_eof _⟩

theorem programStep_stuck {m : P Stmt} [hs : Stall m] {s : PState} (h : s.lex.Fixed) {acc : List Stmt} :
    (do
      if (← tok) = .EndOfProgram then pure (.done acc)
      else
        let s ← m
        pure (.again (acc ++ [s])) : P (Step (List Stmt) (List Stmt))) s = .timeout ∨
    ∃ y t, (do
      if (← tok) = .EndOfProgram then pure (.done acc)
      else
        let s ← m
        pure (.again (acc ++ [s])) : P (Step (List Stmt) (List Stmt))) s = .ok (.again y, t) ∧ t.lex.Fixed := by
  have ht : tok s = .ok (.UnexpectedToken, s) := by rw [← h.1]; rfl
  rw [P.bind_eq ht, if_neg (by decide), P.bind_run]
  rcases hs.is s h with e | ⟨a, t, e, ht⟩
  · rw [e]; exact .inl rfl
  · rw [e]; exact .inr ⟨_, _, rfl, ht⟩

theorem program_two {l : Lex} (hl : Proper src l) (hn : l.ahead + 2 ≤ n) (hn' : l.ahead + 2 ≤ n') :
    Two (program n R) (program n' R') l fun _ _ => True := by
  unfold program
  refine .tok ?_
  split
  · exact .pure trivial
  refine .ter (src := src) (n := n) (n' := n') hl hn hn' fun a l' hp' hm => ?_
  have := hm.1
  refine .loopAt (m := l'.ahead) (I := fun s => s.lex.Fixed) (fun _ _ h => programStep_stuck h) (fun _ _ h => programStep_stuck h) ?_ hp' (Nat.le_refl _)
    (by omega) (by omega) fun a l'' h1 h2 => trivial
  intro x l2 h2 hle
  by_cases hF : l2.Fixed
  · exact .inl fun _ => hF
  right
  refine .tok ?_
  split
  · two
  · rename_i hg
    have hE : ¬l2.Ended := fun h => h.elim hg hF
    two

end Ratel
