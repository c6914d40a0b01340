import Verif.Lemmas.Enough
/-! The parts of the parser do not need more fuel than there are bytes. -/
namespace Ratel
open Spec

set_option linter.unusedSectionVars false
variable [Unicode]

theorem Two.patArray' {src : Bytes} {n n' : Nat} {R R' : Rec} [h : Rec.Two src n n' R R'] {l : Lex} {Q : Pattern → Lex → Prop}
    (hl : Proper src l) (ht : l.token = .BracketOpen) (hn : l.ahead + 2 ≤ n) (hn' : l.ahead + 2 ≤ n')
    (hq : ∀ a l', Proper src l' → l'.ahead ≤ l.ahead → Q a l') : Two R.patArray R'.patArray l Q :=
  (h.patArray l hl hn hn' ht).weaken fun a l' h => hq a l' h.1 h.2

theorem isWord_not_ended {l : Lex} (h : l.token.isWord = true) : ¬l.Ended :=
  Lex.not_ended rfl (by intro e; rw [e] at h; cases h) (by intro e; rw [e] at h; cases h)

/-- Closes `¬l.Ended`. -/
macro "tok_run" : tactic => `(tactic| first
  | assumption
  | exact isWord_not_ended (by assumption)
  | (refine Lex.not_ended (by assumption) ?_ ?_ <;> with_unfolding_all decide)
  | (refine Lex.not_ended (And.left (by assumption)) ?_ ?_ <;> with_unfolding_all decide))

/-- Closes goals about how much of the source is left. -/
macro "ahead" : tactic => `(tactic| first
  | omega
  | (simp_all; omega)
  | grind)

macro "moved2" : tactic => `(tactic| (
  intro l' hm
  obtain ⟨hp', hle, hlt⟩ := hm
  (try replace hlt := hlt (by tok_run))))

macro "called2" : tactic => `(tactic| (
  intro a l' hp' hm
  obtain ⟨hle, hlt⟩ := hm
  (try replace hlt := hlt rfl (by tok_run))))

set_option hygiene false in
macro "two_step" : tactic => `(tactic| with_reducible first
  | apply Two.pure
  | apply Two.panic
  | apply Two.tok
  | apply Two.asi
  | apply Two.start
  | apply Two.stop
  | apply Two.curLoc
  | apply Two.tokStr
  | apply Two.accStr
  | apply Two.quasi
  | (apply Two.startThenConsume (by assumption); moved2)
  | (apply Two.endThenConsume (by assumption); moved2)
  | (apply Two.expect (by assumption); moved2)
  | (apply Two.expect' (by assumption); moved2)
  | (apply Two.consume (by assumption); moved2)
  | (apply Two.consume' (by assumption); moved2)
  | (apply Two.error (by assumption); moved2)
  | (apply Two.error' (by assumption); moved2)
  | (refine Two.ter (src := src) (n := n) (n' := n') (by assumption) (by ahead) (by ahead) ?_; called2)
  | (refine Two.ter' (src := src) (n := n) (n' := n') (by assumption) (by ahead) (by ahead) ?_; called2)
  | (refine Two.hi (src := src) (n := n) (n' := n') (by assumption) (by tok_run) (by ahead) (by ahead) ?_; intro a l' hp' hlt)
  | (refine Two.hi' (src := src) (n := n) (n' := n') (by assumption) (by tok_run) (by ahead) (by ahead) ?_; intro a l' hp' hlt)
  | (refine Two.patArray' (src := src) (n := n) (n' := n') (by assumption) (by assumption) (by ahead) (by ahead) ?_; intro a l' hp' hle)
  | (refine Two.template' (by assumption) (by assumption) ?_; intro l' hp' hle)
  | (refine Two.loop' ?_ (by assumption) (Nat.le_refl _) (by ahead) (by ahead) ?_; rotate_left; (intro a l' hp' hle); rotate_left; intro x l' hp' hle)
  | apply Two.bind
  | (refine And.intro (by assumption) ?_; (try refine And.intro ?_ ?_) <;> first | (intro h _; exact Bool.noConfusion h) | (intros; ahead) | ahead)
  | dsimp only
  | split)

macro "two" : tactic => `(tactic| repeat' two_step)
/-- Proves `Two.Ter`. -/
macro "ter2" : tactic => `(tactic| (refine ⟨fun l hl hn hn' => ?_⟩; two))
/-- Proves `Two.Hi`. -/
macro "hi2" : tactic => `(tactic| (refine ⟨fun l hl ht hn hn' => ?_⟩; two))

section
variable {src : Bytes} {n n' : Nat}


instance two_p1 {k} : Two.Ter src n n' (parseName k) (parseName k) 0 false := by unfold parseName; ter2
instance two_p2 : Two.Ter src n n' identifier identifier 0 true := by unfold identifier; ter2
instance two_p3 : Two.Ter src n n' expectSemicolon expectSemicolon 0 false := by unfold expectSemicolon; ter2

variable {α : Type} {item item' : P α} {R R' : Rec}

theorem error_fixed {s : PState} (h : s.lex.Fixed) : ∃ t, error s = .ok ((), t) ∧ t.lex.Fixed := by
  unfold error Lex.invalidToken
  rw [if_neg (by rw [h.1]; decide), h.2]
  exact ⟨_, rfl, h.again⟩

theorem items_stall [hi : Stall item] {x : List α} {s : PState} (h : s.lex.Fixed) :
    (do
      let t ← tok
      if t ≠ .BraceClose ∧ t ≠ .EndOfProgram then
        let y ← item
        pure (.again (x ++ [y]))
      else pure (.done x) : P (Step (List α) (List α))) s = .timeout ∨
    ∃ y t, (do
      let t ← tok
      if t ≠ .BraceClose ∧ t ≠ .EndOfProgram then
        let y ← item
        pure (.again (x ++ [y]))
      else pure (.done x) : P (Step (List α) (List α))) s = .ok (.again y, t) ∧ t.lex.Fixed := by
  have ht : tok s = .ok (.UnexpectedToken, s) := by rw [← h.1]; rfl
  rw [P.bind_eq ht, if_pos (by decide), P.bind_run]
  rcases hi.is s h with e | ⟨a, t, e, ht⟩
  · rw [e]; exact .inl rfl
  · rw [e]; exact .inr ⟨_, _, rfl, ht⟩

instance two_p4 [Stall item] [Stall item'] [Two.Ter src n n' item item' 2 true] : Two.Ter src n n' (rawBlock n item) (rawBlock n' item') 2 false := by
  unfold rawBlock
  refine ⟨fun l hl hn hn' => .tok ?_⟩
  split
  · two
  · refine .ter (src := src) (n := n) (n' := n') hl hn hn' fun a l' hp' hm => ?_
    refine .loopAt (m := l'.ahead) (I := fun s => s.lex.Fixed) (fun _ _ h => items_stall h) (fun _ _ h => items_stall h) ?_ hp' (Nat.le_refl _)
      (by have := hm.1; omega) (by have := hm.1; omega) fun a l'' h1 h2 => ⟨h1, by have := hm.1; omega, nofun⟩
    intro x l2 h2 hle
    by_cases hF : l2.Fixed
    · exact .inl fun _ => hF
    · right
      refine .tok ?_
      split
      · rename_i hg
        have hE : ¬l2.Ended := fun h => h.elim hg.2 hF
        have := hm.1
        two
      · two
instance two_p5 [Stall item] [Stall item'] [Two.Ter src n n' item item' 2 true] : Two.Ter src n n' (block n item) (block n' item') 2 false := by unfold block; ter2
instance two_p6 [Stall item] [Stall item'] [Two.Ter src n n' item item' 2 true] : Two.Hi src n n' (uncheckedBlock n item) (uncheckedBlock n' item') := by unfold uncheckedBlock; hi2
instance two_p7 [Two.Ter src n n' item item' 2 false] : Two.Ter src n n' (arrayElements n item) (arrayElements n' item') 2 false := by unfold arrayElements; ter2

variable [hR : Rec.Two src n n' R R']
instance two_p8 {c lvl} : Two.Ter src n n' (R.expr c lvl) (R'.expr c lvl) 2 false := hR.expr c lvl
instance two_p9 : Two.Ter src n n' R.stmt R'.stmt 2 true := hR.stmt
instance two_p10 : Two.Ter src n n' R.property R'.property 2 false := hR.property
variable [Stall R.stmt] [Stall R'.stmt]
instance two_p11 : Two.Ter src n n' (stmtBlock n R) (stmtBlock n' R') 2 false := by unfold stmtBlock; ter2
instance two_p12 : Two.Ter src n n' (propertyList n R) (propertyList n' R') 2 false := by unfold propertyList; ter2
instance two_p13 : Two.Hi src n n' patternIdentifier patternIdentifier := by unfold patternIdentifier; hi2
instance two_p14 {p} : Two.Ter src n n' (patternAssign R p) (patternAssign R' p) 2 false := by unfold patternAssign; ter2
instance two_p15 : Two.Hi src n n' (patternObject n R) (patternObject n' R') := by unfold patternObject; hi2
instance two_p16 : Two.Ter src n n' (patternParam n R) (patternParam n' R') 2 false := by unfold patternParam; ter2
instance two_p17 : Two.Ter src n n' (patternArrayElement n R) (patternArrayElement n' R') 2 false := by unfold patternArrayElement; ter2
instance two_p18 : Two.Hi src n n' (patternArray n R) (patternArray n' R') := by unfold patternArray; hi2
instance two_p19 : Two.Ter src n n' (patternParse n R) (patternParse n' R') 2 false := by unfold patternParse; ter2
instance two_p20 : Two.Ter src n n' restElement restElement 2 false := by unfold restElement; ter2
instance two_p21 : Two.Ter src n n' (params n R) (params n' R') 2 false := by unfold params; ter2
instance two_p22 {k} : Two.Ter src n n' (functionParse n R k) (functionParse n' R' k) 2 false := by unfold functionParse; ter2
instance two_p23 : Two.Ter src n n' (methodParse n R) (methodParse n' R') 2 false := by unfold methodParse; ter2
instance two_p24 {s k} : Two.Ter src n n' (propertyValue n R s k) (propertyValue n' R' s k) 2 false := by unfold propertyValue; ter2
instance two_p25 : Two.Ter src n n' (property n R) (property n' R') 1 false := by unfold property; ter2
instance two_p26 : Two.Ter src n n' (callArguments n R) (callArguments n' R') 2 false := by unfold callArguments; ter2
instance two_p27 {e} : Two.Ter src n n' (patternFromExpression e) (patternFromExpression e) 0 false := ⟨by
  fun_induction patternFromExpression e with
  | case1 loc left right ih =>
    intro l hl hn hn'
    exact .bind ((ih l hl hn hn').weaken fun a l' h => .pure h)
  | case2 => intro l hl hn hn'; two
  | case3 => intro l hl hn hn'; two⟩
instance two_p28 {es} : Two.Ter src n n' (paramsFromExpressions es) (paramsFromExpressions es) 0 false := by
  induction es with
  | nil => unfold paramsFromExpressions; ter2
  | cons e es ih => unfold paramsFromExpressions; ter2
instance two_p29 {s ps} : Two.Ter src n n' (arrowFunctionExpression n R s ps) (arrowFunctionExpression n' R' s ps) 2 false := by unfold arrowFunctionExpression; ter2
instance two_p30 : Two.Hi src n n' (parenExpression n R) (parenExpression n' R') := by unfold parenExpression; hi2
instance two_p31 : Two.Hi src n n' (objectExpression n R) (objectExpression n' R') := by unfold objectExpression; hi2
instance two_p32 : Two.Hi src n n' (arrayExpression n R) (arrayExpression n' R') := by unfold arrayExpression; hi2
instance two_p33 : Two.Hi src n n' templateString templateString := by unfold templateString; hi2
instance two_p34 : Two.Hi src n n' (templateLiteral n R) (templateLiteral n' R') := by unfold templateLiteral; hi2
instance two_p35 {a b c d} : Two.Ter src n n' (classMemberValue n R a b c d) (classMemberValue n' R' a b c d) 2 false := by unfold classMemberValue; ter2
instance two_p36 : Two.Ter src n n' (classMember n R) (classMember n' R') 2 true := by unfold classMember; ter2
omit hR in
instance two_p37 : Stall (classMember n R) := by
  refine ⟨fun s h => .inr ?_⟩
  obtain ⟨t, ht, hf⟩ := error_fixed h
  refine ⟨.error noLoc, t, ?_, hf⟩
  have hk : tok s = .ok (.UnexpectedToken, s) := by rw [← h.1]; rfl
  unfold classMember
  rw [P.bind_eq (show start s = .ok (s.lex.tokenStart, s) from rfl)]
  rw [P.bind_eq (a := false) (t := s) (by rw [P.bind_eq hk]; rfl)]
  rw [P.bind_eq (show start s = .ok (s.lex.tokenStart, s) from rfl), P.bind_eq hk, if_neg (by decide)]
  exact P.bind_eq ht
instance two_p38 {k} : Two.Ter src n n' (classParse n R k) (classParse n' R' k) 2 false := by unfold classParse; ter2
instance two_p39 {k} : Two.Hi src n n' (literalExpr k) (literalExpr k) := by unfold literalExpr; hi2

end
end Ratel
