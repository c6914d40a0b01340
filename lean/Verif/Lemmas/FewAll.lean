import Verif.Lemmas.FewParts
/-! How many errors expressions, statements and programs report. -/
namespace Ratel
open Spec

set_option linter.unusedSectionVars false
variable [Unicode] {src : Bytes} {n : Nat} {R : Rec} [hR : Rec.Few src R] [Stall R.stmt]

theorem regularExpression_few {l : Lex} {k : Nat} (hl : Proper src l) (ht : l.token = .OperatorDivision) :
    Few regularExpression l k (Few.Paid src l k) := by
  unfold regularExpression
  refine .start (.regex hl ht fun v l' hp' hle ht' => .stop (.expect hp' fun l'' k'' hk h => .pure ⟨h.1, ?_⟩))
  have := h.2.1
  simp only [Expr.claims]
  rcases ht' with h' | h'
  · omega
  · have := h.2.2 h'
    omega

instance few_p30 : Few.Vi src (parenExpression n R) := by
  refine ⟨fun l k hl ht => ?_⟩
  unfold parenExpression
  refine .startThenConsume hl fun l1 h1 => .tok ?_
  obtain ⟨hp1, -, hlt⟩ := h1
  replace hlt := hlt ht
  split
  · refine .consume hp1 fun l2 h2 => .expect h2.1 fun l3 k3 hk3 h3 => ?_
    unfold arrowFunctionExpression paramsFromExpressions
    have := h2.2.1
    have := h3.2.1
    have hp3 := h3.1
    refine .bind (.pure ?_)
    refine .tok ?_
    split
    · few
    · few
  · few

theorem runEH_few {h : EH} {l : Lex} {k : Nat} (hl : Proper src l) (hr : h = .REG → l.token = .OperatorDivision)
    (ht : h ≠ .ERR → h ≠ .VOID → ¬l.Ended) :
    Few (runEH n R h) l k fun a l' k' => Proper src l' ∧ l'.ahead ≤ l.ahead ∧ k' + a.claims + 9 * l'.ahead ≤ k + 9 * l.ahead + 1 ∧
      (h ≠ .VOID → ¬l.Ended → l'.ahead < l.ahead ∧ k' + a.claims + 9 * l'.ahead + 1 ≤ k + 9 * l.ahead) := by
  cases h with
  | REG => exact (regularExpression_few hl (hr rfl)).weaken fun _ l' k' h => ⟨h.1, by omega, by omega, fun _ _ => h.2⟩
  | ERR => unfold runEH; few
  | VOID => unfold runEH; few
  | _ =>
    replace ht := ht nofun nofun
    clear hr
    unfold runEH
    few

theorem runNH_few {h : NH} {e : Expr} {l : Lex} {k : Nat} (hl : Proper src l) (ht : ¬l.Ended) : Few (runNH n R h e) l k fun a l' k' =>
    Proper src l' ∧ l'.ahead < l.ahead ∧ k' + a.claims + 9 * l'.ahead ≤ k + e.claims + 9 * l.ahead := by
  cases h with
  | SEQ =>
    unfold runNH
    refine .consume hl fun l1 h1 => ?_
    obtain ⟨hp1, -, hlt⟩ := h1
    replace hlt := hlt ht
    refine .val (src := src) hp1 fun a l2 k2 hp2 hle2 hk2 => ?_
    refine .bind (.loop' List.length List.length 0 ?_ hp2 (Nat.le_refl _) fun b l3 k3 hp3 hle3 hk3 => ?_)
    · intro x l4 k4 hp4 hle4
      refine .tok ?_
      split
      · few
      · few
    · simp only [List.length_cons, List.length_nil] at hk3
      few
  | ARRW =>
    unfold runNH
    refine .consume hl fun l1 h1 => ?_
    obtain ⟨hp1, -, hlt⟩ := h1
    replace hlt := hlt ht
    have hc : (match e with | .seq _ body => body | e => [e]).length ≤ e.claims + 1 := by
      cases e <;> simp [Expr.claims]
    dsimp only
    generalize (match e with | .seq _ body => body | e => [e]) = ps at hc ⊢
    unfold arrowFunctionExpression
    few
  | _ => unfold runNH; few

instance few_a2 {lvl} : ∀ {e : Expr}, Few.Val src (nestedExpression n R lvl e) e.claims := by
  intro e
  refine ⟨fun l k hl => ?_⟩
  unfold nestedExpression
  refine Few.loop' Expr.claims Expr.claims 0 ?_ hl (Nat.le_refl _) fun a l' k' h1 h2 h3 => ⟨h1, h2, by omega⟩
  intro x l' k' hp' hle
  refine .asi (.tok ?_)
  split
  · rename_i h
    refine .bind ((runNH_few hp' (nestedHandler_run h)).weaken fun a l2 k2 h2 => .pure ⟨h2.1, by omega, by omega⟩)
  · exact .pure ⟨hp', Nat.le_refl _, by omega⟩

instance few_a3 {c lvl} : Few.Val src (expression n R c lvl) 1 := by
  refine ⟨fun l k hl => ?_⟩
  unfold expression
  refine .tok (.bind ((runEH_few hl (exprHandler_op c _).2 (exprHandler_run c)).weaken fun a l' k' h => ?_))
  obtain ⟨h1, h2, h3, -⟩ := h
  few

instance few_a4 : Few.Ter src (variableDeclarator n R) 1 false := by unfold variableDeclarator; ter3
instance few_a5 : Few.Ter src (variableDeclarators n R) 1 false := by
  unfold variableDeclarators
  refine ⟨fun l k hl => ?_⟩
  refine .ter (src := src) hl fun a l' k' hp' hm => ?_
  obtain ⟨hm, hm2, -⟩ := hm
  refine .loop' (fun _ => 0) (fun _ => 0) 0 ?_ hp' (Nat.le_refl _) fun b l3 k3 hp3 hle3 hk3 => ⟨hp3, by omega, by omega, nofun⟩
  intro x l2 k2 hp2 hle2
  few
instance few_a6 {k} : Few.Hi src (variableDeclarationStatement n R k) := by unfold variableDeclarationStatement; hi3
instance few_a7 : Few.Hi src (returnStatement R) := by unfold returnStatement; hi3
instance few_a8 : Few.Hi src jumpStatement := by unfold jumpStatement; hi3
instance few_a9 : Few.Hi src (throwStatement R) := by unfold throwStatement; hi3
instance few_a10 : Few.Hi src (catchClause n R) := by unfold catchClause; hi3
instance few_a11 : Few.Hi src (tryStatement n R) := by unfold tryStatement; hi3
instance few_a12 : Few.Hi src (ifStatement R) := by unfold ifStatement; hi3
instance few_a13 : Few.Hi src (whileStatement R) := by unfold whileStatement; hi3
instance few_a14 : Few.Hi src (doStatement R) := by unfold doStatement; hi3
instance few_a15 {k} : Few.Hi src (forInit n R k) := by unfold forInit; hi3
instance few_a16 {s i} : Few.Ter src (forRest R s i) 5 false := by unfold forRest; ter3
instance few_a17 {s} : Few.Ter src (forEachRest R s) 3 false := by unfold forEachRest; ter3
instance few_a18 {s i} : Few.Ter src (forAfterInit R s i) 6 false := by unfold forAfterInit; ter3
instance few_a19 : Few.Hi src (forStatement n R) := by unfold forStatement; hi3
instance few_a20 : Few.Hi src (labeledOrExpressionStatement n R) := by unfold labeledOrExpressionStatement; hi3 <;> exact ⟨by assumption, by omega, by simp only [Expr.claims] at hkk; omega⟩
theorem identifier_few {l : Lex} {k : Nat} (hl : Proper src l) (ht : l.token = .Identifier) {Q : Ident → Lex → Nat → Prop}
    (hq : ∀ a l', Proper src l' → l'.ahead < l.ahead → Q a l' k) : Few identifier l k Q := by
  unfold identifier
  refine .tok ?_
  rw [if_pos ht]
  exact .tokStr (.curLoc (.consume hl fun l' h => .pure (hq _ _ h.1 (h.2.2 (by tok_run)))))
instance few_a22 {a} : Few.Ter src (importNamed n a) 1 false := by
  unfold importNamed
  refine ⟨fun l k hl => ?_⟩
  refine .loop' (fun _ => 0) (fun _ => 0) 1 ?_ hl (Nat.le_refl _) fun b l3 k3 hp3 hle3 hk3 => ⟨hp3, by omega, by omega, nofun⟩
  intro x l2 k2 hp2 hle2
  refine .tok ?_
  split
  · refine .start (.bind (identifier_few hp2 (by assumption) fun a l3 hp3 hlt3 => ?_))
    few
  · few
instance few_a23 {a} : Few.Ter src (importSecond n a) 1 false := by unfold importSecond; ter3
instance few_a24 {v} : Few.Ter src (stringContent v) 0 false := by unfold stringContent; ter3
instance few_a25 {s a} : Few.Ter src (importFrom s a) 2 false := by unfold importFrom; ter3
instance few_a26 : Few.Hi src (importDeclaration n R) := by unfold importDeclaration; hi3 <;> exact ⟨by assumption, by omega, by simp only [Expr.claims] at hkk; omega⟩

theorem caseBody_few {e : Nat} {acc : List Stmt} {l : Lex} {k : Nat} {Q : Nat × List Stmt → Lex → Nat → Prop} (hl : Proper src l)
    (hq : ∀ a l' k', Proper src l' → l'.ahead ≤ l.ahead → k' + 9 * l'.ahead ≤ k + 9 * l.ahead → ¬l.Ended → Q a l' k') :
    Few (loop n (fun (e, acc) => do
      match ← tok with
      | .Case | .Default | .BraceClose => pure (.done (e, acc))
      | _ => do
        let st ← R.stmt
        pure (.again (st.loc.stop, acc ++ [st]))) (e, acc)) l k Q := by
  have hs : ∀ (x : Nat × List Stmt) (s : PState), s.lex.Ended → (do
      match ← tok with
      | .Case | .Default | .BraceClose => pure (.done (x.1, x.2))
      | _ => do
        let st ← R.stmt
        pure (.again (st.loc.stop, x.2 ++ [st])) : P (Step (Nat × List Stmt) (Nat × List Stmt))) s = .timeout ∨
      ∃ y t, (do
      match ← tok with
      | .Case | .Default | .BraceClose => pure (.done (x.1, x.2))
      | _ => do
        let st ← R.stmt
        pure (.again (st.loc.stop, x.2 ++ [st])) : P (Step (Nat × List Stmt) (Nat × List Stmt))) s = .ok (.again y, t) ∧ t.lex.Ended :=
    fun _ _ h => caseStep_stuck h (ended_step hR.stuck h)
  by_cases hE : l.Ended
  · intro es _ a s hm
    rw [loop_stuck (I := fun s => s.lex.Ended) hs _ _ _ hE] at hm
    cases hm
  refine .loopAt (fun _ => 0) (fun _ => 0) 0 (m := l.ahead) (I := fun s => s.lex.Ended) hs ?_ hl (Nat.le_refl _)
    fun a l' k' h1 h2 h3 => hq a l' k' h1 h2 (by omega) hE
  intro x l2 k2 h2 hle
  by_cases hE : l2.Ended
  · exact .inl fun _ => hE
  · right
    few

theorem Lex.Ended.onto {l l' : Lex} (h : l.Ended) (hp : Proper src l) (hc : l.consume = .ok l' ∨ l' = l) : l'.Ended := by
  rcases hc with hc | rfl
  · rcases h with he | he
    · have := consume_at_nul (hp.lexing.wf.eof he)
      rw [hc] at this
      cases this
      exact .inl rfl
    · exact .inr (he.consume hc)
  · exact h

theorem Few.error_ended' {l : Lex} {k : Nat} {Q : Unit → Lex → Nat → Prop} (hl : Proper src l)
    (h : ∀ l', Onto src l l' → (l.Ended → l'.Ended) → Q () l' (k + 1)) : Few Ratel.error l k Q := by
  intro es he a s hs
  subst he
  unfold Ratel.error at hs
  cases hc : l.invalidToken with
  | ok x =>
    obtain ⟨e, l'⟩ := x
    simp [hc, Out.bind] at hs
    subst hs
    have hx : ∀ x, Onto src l x → (l.Ended → x.Ended) → Q () x (es ++ [e]).length := fun x hx h' => by simpa using h x hx h'
    rcases (invalidToken_ok hc).1 with ⟨ht, rfl⟩ | ⟨-, hc⟩
    · exact hx _ ⟨hl, Nat.le_refl _, fun hn => absurd (.inl ht) hn⟩ id
    · exact hx _ ⟨hl.consume hc, hl.consume_ahead hc⟩ (·.onto hl (.inl hc))
  | _ => simp [hc, Out.bind] at hs

/-- Behind the colon of a case there is a token, if the case is ever finished. -/
instance few_a27 : Few.Ter src (switchCase n R) 1 true := by
  refine ⟨fun l k hl => ?_⟩
  unfold switchCase
  refine .start ?_
  refine .bind (Few.weaken (Q := fun _ l2 k2 => Proper src l2 ∧ l2.ahead ≤ l.ahead ∧ k2 + 9 * l2.ahead ≤ k + 9 * l.ahead + 1 ∧ (l.Ended → l2.Ended) ∧
    (¬l.Ended → l2.ahead < l.ahead ∧ k2 + 9 * l2.ahead + 1 ≤ k + 9 * l.ahead)) ?_ ?_)
  · refine .tok ?_
    split
    · rename_i h
      have hE : ¬l.Ended := by tok_run
      refine .consume hl fun l1 h1 => .val (src := src) h1.1 fun a l2 k2 hp2 hle2 hk2 => .pure ?_
      have := h1.2.2 hE
      exact ⟨hp2, by omega, by omega, fun h => absurd h hE, fun _ => ⟨by omega, by omega⟩⟩
    · rename_i h
      have hE : ¬l.Ended := by tok_run
      refine .consume hl fun l1 h1 => .pure ?_
      have := h1.2.2 hE
      exact ⟨h1.1, by omega, by omega, fun h => absurd h hE, fun _ => ⟨by omega, by omega⟩⟩
    · refine .bind (.error_ended' hl fun l1 h1 h2 => .pure ⟨h1.1, h1.2.1, by have := h1.2.1; omega, h2, fun hE => ?_⟩)
      have := h1.2.2 hE
      exact ⟨this, by omega⟩
  · intro a l1 k1 h1
    obtain ⟨h1, h2, h3, h4, h5⟩ := h1
    refine .stop (.bind ?_)
    unfold expect
    refine .tok ?_
    split
    · refine .consume' h1 fun l2 h => ?_
      obtain ⟨h6, h7, -⟩ := h
      refine .bind (caseBody_few h6 fun a l3 k3 h8 h9 h10 _ => .pure ⟨h8, by omega, by omega, fun _ hE => ?_⟩)
      have := h5 hE
      omega
    · refine .error_ended' h1 fun l2 h hEE => ?_
      obtain ⟨h6, h7, h11⟩ := h
      refine .bind (caseBody_few h6 fun a l3 k3 h8 h9 h10 hE2 => .pure ⟨h8, by omega, ?_, fun _ hE => ?_⟩)
      · by_cases hE : l.Ended
        · exact absurd (hEE (h4 hE)) hE2
        · have := h5 hE; omega
      · have := h5 hE
        omega

instance few_a29 : Few.Hi src (switchStatement n R) := by unfold switchStatement; hi3

instance few_a30 : Few.Ter src (statement n R) 1 true := by
  refine ⟨fun l k hl => ?_⟩
  unfold statement
  refine .tok ?_
  generalize hh : stmtHandler l.token = h
  cases h with
  | ERR => unfold runSH; few
  | E h =>
    unfold runSH
    have hv : h ≠ .VOID := fun e => stmtHandler_noVoid l.token (by rw [hh, e])
    have ht := stmtHandler_run (l := l) (by rw [hh]; nofun)
    refine .bind ((runEH_few hl (fun e => (stmtHandler_op l.token).2 (by rw [hh, e])) (fun _ _ => ht)).weaken fun a l' k' h => ?_)
    obtain ⟨h1, h2, -, h3⟩ := h
    replace h3 := h3 hv ht
    unfold expressionStatement
    few
  | _ =>
    have ht := stmtHandler_run (l := l) (by rw [hh]; nofun)
    clear hh
    unfold runSH
    few

omit hR [Stall R.stmt] in
theorem procs_few : ∀ n, Rec.Few src (procs n)
  | 0 => ⟨fun _ _ => ⟨fun _ _ _ _ _ _ _ => nofun⟩, ⟨fun _ _ _ _ _ _ _ => nofun⟩, fun _ _ _ _ _ _ _ _ => nofun, ⟨fun _ _ _ _ _ _ _ => nofun⟩, fun _ => procs_eof _⟩
  | n + 1 =>
    have := procs_few n
    ⟨fun c lvl => few_a3 (R := procs n), few_a30 (R := procs n),
      fun l k hl ht => ((Few.Hi.is (m := patternArray n (procs n)) l k hl
          (Lex.not_ended ht (by decide) (by decide))).weaken fun a l' k' h => ⟨h.1, by omega, by omega⟩),
      few_p25 (R := procs n), fun _ => procs_eof _⟩

theorem program_few {l : Lex} {k : Nat} (hl : Proper src l) :
    Few (program n R) l k fun _ l' k' => k' + 9 * l'.ahead ≤ k + 9 * l.ahead := by
  unfold program
  refine .tok ?_
  split
  · exact .pure (Nat.le_refl _)
  rename_i hE
  by_cases hF : l.Fixed
  · intro es _ a s hs
    rw [P.bind_run] at hs
    rcases Stall.is (m := R.stmt) ⟨l, es⟩ hF with e | ⟨b, t, e, ht⟩ <;> rw [e] at hs
    · cases hs
    · dsimp only [Out.bind] at hs
      rw [loop_stuck (I := fun s => s.lex.Fixed) (fun _ _ h => programStep_stuck h) _ _ _ ht] at hs
      cases hs
  refine .ter (src := src) hl fun a l' k' hp' hm => ?_
  obtain ⟨h1, h2⟩ := hm.2.2 rfl fun h => h.elim hE hF
  refine .loopAt (fun _ => 0) (fun _ => 0) 0 (m := l'.ahead) (I := fun s => s.lex.Fixed) (fun _ _ h => programStep_stuck h) ?_ hp' (Nat.le_refl _)
    fun a l'' k'' _ h3 h4 => by omega
  intro x l2 k2 h2 hle
  by_cases hF : l2.Fixed
  · exact .inl fun _ => hF
  right
  refine .tok ?_
  split
  · few
  · rename_i hg
    have hE : ¬l2.Ended := fun h => h.elim hg hF
    few

end Ratel
