import Verif.Lemmas.HaltParts
import Verif.Lemmas.AcceptAll
/-! Termination of expressions, statements and programs. -/
namespace Ratel
open Spec

set_option linter.unusedSectionVars false
variable [Unicode] {src : Bytes} [Tame src] {n : Nat} {R : Rec} [hR : Rec.Ter src n R]

theorem regularExpression_fin {l : Lex} (hl : Reach src l) (ht : l.token = .OperatorDivision) :
    Fin regularExpression l fun _ l' => Reach src l' ∧ l'.left < l.left := by
  unfold regularExpression
  refine .start (.regex hl ht fun v l' hp' hle ht' => ?_)
  fin

theorem runEH_fin {h : EH} {l : Lex} (hl : Reach src l) (hn : l.left + 1 ≤ n) (hr : h = .REG → l.token = .OperatorDivision)
    (ht : h ≠ .ERR → h ≠ .VOID → l.token ≠ .EndOfProgram) (hb : h = .TPLE → l.token = .TemplateOpen) :
    Fin (runEH n R h) l fun _ l' => Reach src l' ∧ l'.left ≤ l.left ∧ (h ≠ .VOID → l.token ≠ .EndOfProgram → l'.left < l.left) := by
  cases h with
  | REG => exact (regularExpression_fin hl (hr rfl)).weaken fun _ l' h => ⟨h.1, by omega, fun _ _ => h.2⟩
  | ERR => unfold runEH; fin
  | VOID => unfold runEH; fin
  | TPLE =>
    unfold runEH
    refine .bind ((templateLiteral_fin hl (hb rfl) hn).weaken fun a l' h => ?_)
    obtain ⟨h1, h2⟩ := h
    fin
  | _ =>
    replace ht := ht nofun nofun
    clear hr hb
    unfold runEH
    fin

theorem runNH_fin {h : NH} {e : Expr} {l : Lex} (hl : Reach src l) (ht : l.token ≠ .EndOfProgram) (hn : l.left + 1 ≤ n)
    (hb : h = .TPLE → l.token = .TemplateOpen) : Fin (runNH n R h e) l fun _ l' => Reach src l' ∧ l'.left < l.left := by
  cases h with
  | TPLE =>
    unfold runNH
    refine .bind ((templateLiteral_fin hl (hb rfl) hn).weaken fun a l' h => ?_)
    obtain ⟨h1, h2⟩ := h
    fin
  | _ => clear hb; unfold runNH; fin

theorem nestedHandler_ne {lvl : Lvl} {a : Asi} {t : Token} {h : NH} (hh : nestedHandler lvl a t = some h) : t ≠ .EndOfProgram := by
  rintro rfl
  unfold nestedHandler at hh
  split at hh
  · cases hh
  · have : ∀ lvl, ((lut lvl)[Token.EndOfProgram.idx]?).join = none := by intro lvl; cases lvl <;> decide +kernel
    rw [this] at hh
    cases hh

instance {lvl e} : Ter src n (nestedExpression n R lvl e) 1 false := by
  refine ⟨fun l hl hn => ?_⟩
  unfold nestedExpression
  refine Fin.loop' ?_ hl (Nat.le_refl _) hn fun a l' h1 h2 => ⟨h1, h2, nofun⟩
  intro x l' hp' hle
  refine .asi (.tok ?_)
  split
  · rename_i h
    refine .bind ((runNH_fin hp' (nestedHandler_ne h) (by omega) fun e => ?_).weaken fun a l'' h => ?_)
    · subst e
      simpa [NHTok] using nestedHandler_tok h
    · obtain ⟨h1, h2⟩ := h
      fin
  · fin

theorem exprHandler_ne (c : Ctx) (t : Token) : exprHandler c t ≠ .ERR → exprHandler c t ≠ .VOID → t ≠ .EndOfProgram := by
  revert t
  cases c <;> exact forall_token (by decide +kernel)

instance {c lvl} : Ter src n (expression n R c lvl) 1 false := by
  refine ⟨fun l hl hn => ?_⟩
  unfold expression
  refine .tok (.bind ((runEH_fin hl hn (exprHandler_op c _).2 (exprHandler_ne c _)
    fun e => by have := exprHandler_tok c l.token; rw [e] at this; simpa [EHTok] using this).weaken fun a l' h => ?_))
  obtain ⟨h1, h2, -⟩ := h
  fin

instance : Ter src n (variableDeclarator n R) 2 false := by unfold variableDeclarator; ter
instance : Ter src n (variableDeclarators n R) 2 false := by unfold variableDeclarators; ter
instance {k} : Hi src n (variableDeclarationStatement n R k) := by unfold variableDeclarationStatement; hi
instance : Hi src n (returnStatement R) := by unfold returnStatement; hi
instance : Hi src n jumpStatement := by unfold jumpStatement; hi
instance : Hi src n (throwStatement R) := by unfold throwStatement; hi
instance : Ter src n (catchClause n R) 2 false := by unfold catchClause; ter
instance : Hi src n (tryStatement n R) := by unfold tryStatement; hi
instance : Hi src n (ifStatement R) := by unfold ifStatement; hi
instance : Hi src n (whileStatement R) := by unfold whileStatement; hi
instance : Hi src n (doStatement R) := by unfold doStatement; hi
instance {k} : Ter src n (forInit n R k) 2 false := by unfold forInit; ter
instance {s i} : Ter src n (forRest R s i) 2 false := by unfold forRest; ter
instance {s} : Ter src n (forEachRest R s) 2 false := by unfold forEachRest; ter
instance {s i} : Ter src n (forAfterInit R s i) 2 false := by unfold forAfterInit; ter
instance : Hi src n (forStatement n R) := by unfold forStatement; hi
instance : Hi src n (labeledOrExpressionStatement n R) := by unfold labeledOrExpressionStatement; hi
instance {e} : Ter src n (expressionStatement n R e) 1 false := by unfold expressionStatement; ter
instance {a} : Ter src n (importNamed n a) 1 false := by unfold importNamed; ter
instance {a} : Ter src n (importSecond n a) 1 false := by unfold importSecond; ter
instance {v} : Ter src n (stringContent v) 0 false := by unfold stringContent; ter
instance {s a} : Ter src n (importFrom s a) 0 false := by unfold importFrom; ter
instance : Hi src n (importDeclaration n R) := by unfold importDeclaration; hi

theorem stmtHandler_ne (t : Token) : stmtHandler t ≠ .ERR → t ≠ .EndOfProgram := by
  revert t
  exact forall_token (by decide +kernel)
theorem stmtHandler_switch (t : Token) : stmtHandler t = .SWCH → t = .Switch := by
  revert t
  exact forall_token (by decide +kernel)
theorem stmtHandler_plain (t : Token) : stmtHandler t ≠ .E .VOID := by
  revert t
  exact forall_token (by decide +kernel)

instance : Ter src n (statement n R) 1 true := by
  refine ⟨fun l hl hn => ?_⟩
  unfold statement
  refine .tok ?_
  generalize hh : stmtHandler l.token = h
  cases h with
  | ERR => unfold runSH; fin
  | SWCH => exact absurd (stmtHandler_switch _ hh) (Tame.noSwitch l hl)
  | E h =>
    unfold runSH
    have hv : h ≠ .VOID := fun e => stmtHandler_plain l.token (by rw [hh, e])
    have ht := stmtHandler_ne l.token (by rw [hh]; nofun)
    refine .bind ((runEH_fin hl hn (fun e => (stmtHandler_op l.token).2 (by rw [hh, e])) (fun _ _ => ht)
      fun e => by have := stmtHandler_tok l.token; rw [hh, e] at this; simpa [SHTok, EHTok] using this).weaken fun a l' h => ?_)
    obtain ⟨h1, h2, h3⟩ := h
    replace h3 := h3 hv ht
    fin
  | _ =>
    have ht := stmtHandler_ne l.token (by rw [hh]; nofun)
    clear hh
    unfold runSH
    fin

theorem Ter.up {α : Type} {m : P α} {st : Bool} (h : Ter src n m 1 st) : Ter src (n + 1) m 2 st :=
  ⟨fun l hl hn => h.is l hl (by omega)⟩

omit hR in
theorem procs_ter : ∀ n, Rec.Ter src n (procs n)
  | 0 => ⟨fun _ _ => ⟨fun l hl hn => by omega⟩, ⟨fun l hl hn => by omega⟩, fun l hl hn => by omega, ⟨fun l hl hn => by omega⟩⟩
  | n + 1 =>
    have := procs_ter n
    ⟨fun c lvl => Ter.up (m := expression n (procs n) c lvl) inferInstance, Ter.up (m := statement n (procs n)) inferInstance,
      fun l hl hn ht => ((Hi.is (m := patternArray n (procs n)) (n := n) l hl (ne_eof ht (by decide)) (by omega)).weaken
        fun a l' h => ⟨h.1, by omega⟩),
      Ter.up (m := property n (procs n)) inferInstance⟩

theorem program_fin {l : Lex} (hl : Reach src l) (hn : l.left + 2 ≤ n) : Fin (program n R) l fun _ _ => True := by
  unfold program
  fin

end Ratel
