import Verif.Parser
/-! More fuel does not change a result: every procedure of the parser, run with more fuel, gives the same outcome
unless it ran out of fuel. -/
namespace Ratel

set_option linter.unusedSectionVars false
variable [Unicode]

/-- `m'` gives the same outcome as `m`, unless `m` ran out of fuel. -/
class LeP {α : Type} (m m' : P α) : Prop where
  le : ∀ s, m s = .timeout ∨ m s = m' s

namespace LeP

theorem refl {α : Type} {m : P α} : LeP m m := ⟨fun _ => .inr rfl⟩

theorem bind {α β : Type} {m m' : P α} {f f' : α → P β} (h : LeP m m') (hf : ∀ a, LeP (f a) (f' a)) :
    LeP (m >>= f) (m' >>= f') := ⟨fun s => by
  change (m s).bind _ = _ ∨ (m s).bind _ = (m' s).bind _
  rcases h.le s with h | h
  · rw [h]; exact .inl rfl
  · rw [← h]
    cases hm : m s with
    | ok x => exact (hf x.1).le x.2
    | _ => exact .inr rfl⟩

theorem loop {σ α : Type} {b b' : σ → P (Step σ α)} (hb : ∀ x, LeP (b x) (b' x)) :
    ∀ {n n' : Nat} (_ : n ≤ n') (x : σ), LeP (loop n b x) (loop n' b' x)
  | 0, _, _, _ => ⟨fun _ => .inl rfl⟩
  | n + 1, n' + 1, h, x => by
    rw [Ratel.loop, Ratel.loop]
    refine bind (hb x) fun r => ?_
    split
    · exact loop hb (Nat.le_of_succ_le_succ h) _
    · exact refl

end LeP

/-- More fuel for all recursive procedures. -/
class Rec.Le (R R' : Rec) : Prop where
  expr : ∀ c lvl, LeP (R.expr c lvl) (R'.expr c lvl)
  stmt : LeP R.stmt R'.stmt
  patArray : LeP R.patArray R'.patArray
  property : LeP R.property R'.property

instance {R R' : Rec} [h : Rec.Le R R'] {c lvl} : LeP (R.expr c lvl) (R'.expr c lvl) := h.expr c lvl
instance {R R' : Rec} [h : Rec.Le R R'] : LeP R.stmt R'.stmt := h.stmt
instance {R R' : Rec} [h : Rec.Le R R'] : LeP R.patArray R'.patArray := h.patArray
instance {R R' : Rec} [h : Rec.Le R R'] : LeP R.property R'.property := h.property

/-- `n ≤ n'`, found by instance search. -/
class NatLe (n n' : Nat) : Prop where
  le : n ≤ n'

macro "lep_step" : tactic => `(tactic| with_reducible first
  | exact LeP.refl
  | infer_instance
  | (apply LeP.loop; rotate_left; exact NatLe.le; intro _)
  | apply LeP.bind
  | intro _
  | dsimp only
  | split
  | contradiction
  | (exfalso; rename_i h; exact h rfl))

macro "lep" : tactic => `(tactic| repeat' lep_step)

variable {n n' : Nat} {R R' : Rec} [hn : NatLe n n'] [hR : Rec.Le R R']
instance {α : Type} {item item' : P α} [LeP item item'] : LeP (rawBlock n item) (rawBlock n' item') := by unfold rawBlock; lep
instance {α : Type} {item item' : P α} [LeP item item'] : LeP (block n item) (block n' item') := by unfold block; lep
instance {α : Type} {item item' : P α} [LeP item item'] : LeP (uncheckedBlock n item) (uncheckedBlock n' item') := by unfold uncheckedBlock; lep
instance {α : Type} {item item' : P α} [LeP item item'] : LeP (arrayElements n item) (arrayElements n' item') := by unfold arrayElements; lep
instance : LeP (stmtBlock n R) (stmtBlock n' R') := by unfold stmtBlock; lep
instance : LeP (propertyList n R) (propertyList n' R') := by unfold propertyList; lep
instance {p} : LeP (patternAssign R p) (patternAssign R' p) := by unfold patternAssign; lep
instance : LeP (patternObject n R) (patternObject n' R') := by unfold patternObject; lep
instance : LeP (patternParam n R) (patternParam n' R') := by unfold patternParam; lep
instance : LeP (patternArrayElement n R) (patternArrayElement n' R') := by unfold patternArrayElement; lep
instance : LeP (patternArray n R) (patternArray n' R') := by unfold patternArray; lep
instance : LeP (patternParse n R) (patternParse n' R') := by unfold patternParse; lep
instance : LeP (params n R) (params n' R') := by unfold params; lep
instance {k} : LeP (functionParse n R k) (functionParse n' R' k) := by unfold functionParse; lep
instance : LeP (methodParse n R) (methodParse n' R') := by unfold methodParse; lep
instance {s k} : LeP (propertyValue n R s k) (propertyValue n' R' s k) := by unfold propertyValue; lep
instance : LeP (property n R) (property n' R') := by unfold property; lep
instance : LeP (callArguments n R) (callArguments n' R') := by unfold callArguments; lep
instance {s ps} : LeP (arrowFunctionExpression n R s ps) (arrowFunctionExpression n' R' s ps) := by unfold arrowFunctionExpression; lep
instance : LeP (parenExpression n R) (parenExpression n' R') := by unfold parenExpression; lep
instance : LeP (objectExpression n R) (objectExpression n' R') := by unfold objectExpression; lep
instance : LeP (arrayExpression n R) (arrayExpression n' R') := by unfold arrayExpression; lep
instance : LeP (templateLiteral n R) (templateLiteral n' R') := by unfold templateLiteral; lep
instance {a b c d} : LeP (classMemberValue n R a b c d) (classMemberValue n' R' a b c d) := by unfold classMemberValue; lep
instance : LeP (classMember n R) (classMember n' R') := by unfold classMember; lep
instance {k} : LeP (classParse n R k) (classParse n' R' k) := by unfold classParse; lep
instance {h e} : LeP (runNH n R h e) (runNH n' R' h e) := by unfold runNH; lep
instance {lvl e} : LeP (nestedExpression n R lvl e) (nestedExpression n' R' lvl e) := by unfold nestedExpression; lep
instance : LeP (variableDeclarator n R) (variableDeclarator n' R') := by unfold variableDeclarator; lep
instance : LeP (variableDeclarators n R) (variableDeclarators n' R') := by unfold variableDeclarators; lep
instance {k} : LeP (variableDeclarationStatement n R k) (variableDeclarationStatement n' R' k) := by unfold variableDeclarationStatement; lep
instance : LeP (returnStatement R) (returnStatement R') := by unfold returnStatement; lep
instance : LeP (throwStatement R) (throwStatement R') := by unfold throwStatement; lep
instance : LeP (catchClause n R) (catchClause n' R') := by unfold catchClause; lep
instance : LeP (tryStatement n R) (tryStatement n' R') := by unfold tryStatement; lep
instance : LeP (ifStatement R) (ifStatement R') := by unfold ifStatement; lep
instance : LeP (whileStatement R) (whileStatement R') := by unfold whileStatement; lep
instance : LeP (doStatement R) (doStatement R') := by unfold doStatement; lep
instance {k} : LeP (forInit n R k) (forInit n' R' k) := by unfold forInit; lep
instance {s i} : LeP (forRest R s i) (forRest R' s i) := by unfold forRest; lep
instance {s} : LeP (forEachRest R s) (forEachRest R' s) := by unfold forEachRest; lep
instance {s i} : LeP (forAfterInit R s i) (forAfterInit R' s i) := by unfold forAfterInit; lep
instance : LeP (forStatement n R) (forStatement n' R') := by unfold forStatement; lep
instance : LeP (switchCase n R) (switchCase n' R') := by unfold switchCase; lep
instance : LeP (switchStatement n R) (switchStatement n' R') := by unfold switchStatement; lep
instance : LeP (labeledOrExpressionStatement n R) (labeledOrExpressionStatement n' R') := by unfold labeledOrExpressionStatement; lep
instance {e} : LeP (expressionStatement n R e) (expressionStatement n' R' e) := by unfold expressionStatement; lep
instance {a} : LeP (importNamed n a) (importNamed n' a) := by unfold importNamed; lep
instance {a} : LeP (importSecond n a) (importSecond n' a) := by unfold importSecond; lep
instance {s a} : LeP (importFrom s a) (importFrom s a) := LeP.refl
instance {h} : LeP (runEH n R h) (runEH n' R' h) := by unfold runEH; lep
instance : LeP (importDeclaration n R) (importDeclaration n' R') := by unfold importDeclaration; lep
instance {c lvl} : LeP (expression n R c lvl) (expression n' R' c lvl) := by unfold expression; lep
instance {h} : LeP (runSH n R h) (runSH n' R' h) := by unfold runSH; lep
instance : LeP (statement n R) (statement n' R') := by unfold statement; lep
instance : LeP (program n R) (program n' R') := by unfold program; lep
instance : Rec.Le (body n R) (body n' R') := ⟨fun c lvl => inferInstanceAs (LeP (expression n R c lvl) (expression n' R' c lvl)),
  inferInstanceAs (LeP (statement n R) (statement n' R')), inferInstanceAs (LeP (patternArray n R) (patternArray n' R')),
  inferInstanceAs (LeP (property n R) (property n' R'))⟩

theorem procs_le : ∀ {n n' : Nat}, n ≤ n' → Rec.Le (procs n) (procs n')
  | 0, _, _ => ⟨fun _ _ => ⟨fun _ => .inl rfl⟩, ⟨fun _ => .inl rfl⟩, ⟨fun _ => .inl rfl⟩, ⟨fun _ => .inl rfl⟩⟩
  | n + 1, n' + 1, h =>
    have h := Nat.le_of_succ_le_succ h
    have := procs_le h
    have : NatLe n n' := ⟨h⟩
    inferInstanceAs (Rec.Le (body n (procs n)) (body n' (procs n')))

/-- More fuel does not change the outcome of `parse`. -/
theorem parse_fuel {n n' : Nat} (h : n ≤ n') (src : Bytes) (hp : parse n src ≠ .timeout) : parse n' src = parse n src := by
  unfold parse runParser at hp ⊢
  cases hl : Lex.new src with
  | ok l =>
    have := procs_le h
    have : NatLe n n' := ⟨h⟩
    have hle : LeP (program n (procs n)) (program n' (procs n')) := inferInstance
    rcases hle.le ⟨l, []⟩ with h1 | h1
    · simp [hl, Out.bind, h1] at hp
    · simp only [Out.bind]
      rw [h1]
  | _ => simp [Out.bind]

end Ratel
