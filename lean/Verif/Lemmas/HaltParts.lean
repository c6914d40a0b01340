import Verif.Lemmas.Halt
namespace Ratel
open Spec

set_option linter.unusedSectionVars false
variable [Unicode]

theorem Fin.patArray' {src : Bytes} {n : Nat} {R : Rec} [h : Rec.Ter src n R] {l : Lex} {Q : Pattern → Lex → Prop}
    (hl : Reach src l) (ht : l.token = .BracketOpen) (hn : l.left + 2 ≤ n)
    (hq : ∀ a l', Reach src l' → l'.left ≤ l.left → Q a l') : Fin R.patArray l Q :=
  (h.patArray l hl hn ht).weaken fun a l' h => hq a l' h.1 h.2

theorem ne_eof {l : Lex} {t : Token} (h : l.token = t) (ht : t ≠ .EndOfProgram) : l.token ≠ .EndOfProgram := h ▸ ht
theorem isWord_ne {t : Token} (h : t.isWord = true) : t ≠ .EndOfProgram := by rintro rfl; cases h

/-- Closes `l.token ≠ .EndOfProgram`. -/
macro "tok_ne" : tactic => `(tactic| first
  | assumption
  | exact And.right (by assumption)
  | exact isWord_ne (by assumption)
  | (refine ne_eof (by assumption) ?_; with_unfolding_all decide)
  | (refine ne_eof (And.left (by assumption)) ?_; with_unfolding_all decide))

/-- Closes goals about how much of the source is left. -/
macro "left" : tactic => `(tactic| first
  | omega
  | (simp_all; omega)
  | grind)

macro "moved" : tactic => `(tactic| (
  intro l' hm
  obtain ⟨hp', hle, hlt⟩ := hm
  (try replace hlt := hlt (by tok_ne))))

macro "called" : tactic => `(tactic| (
  intro a l' hp' hm
  obtain ⟨hle, hlt⟩ := hm
  (try replace hlt := hlt rfl (by tok_ne))))

set_option hygiene false in
macro "fin_step" : tactic => `(tactic| with_reducible first
  | apply Fin.pure
  | apply Fin.panic
  | apply Fin.tok
  | apply Fin.asi
  | apply Fin.start
  | apply Fin.stop
  | apply Fin.curLoc
  | apply Fin.tokStr
  | apply Fin.accStr
  | apply Fin.quasi
  | (apply Fin.startThenConsume (by assumption); moved)
  | (apply Fin.endThenConsume (by assumption); moved)
  | (apply Fin.expect (by assumption); moved)
  | (apply Fin.expect' (by assumption); moved)
  | (apply Fin.consume (by assumption); moved)
  | (apply Fin.consume' (by assumption); moved)
  | (apply Fin.error (by assumption); moved)
  | (apply Fin.error' (by assumption); moved)
  | (refine Fin.ter (src := src) (n := n) (by assumption) (by left) ?_; called)
  | (refine Fin.ter' (src := src) (n := n) (by assumption) (by left) ?_; called)
  | (refine Fin.hi (src := src) (n := n) (by assumption) (by tok_ne) (by left) ?_; intro a l' hp' hlt)
  | (refine Fin.hi' (src := src) (n := n) (by assumption) (by tok_ne) (by left) ?_; intro a l' hp' hlt)
  | (refine Fin.patArray' (src := src) (n := n) (by assumption) (by assumption) (by left) ?_; intro a l' hp' hle)
  | (refine Fin.template' (by assumption) (by assumption) (by assumption) ?_; intro l' hp' hle)
  | (refine Fin.loop' ?_ (by assumption) (Nat.le_refl _) (by left) ?_; rotate_left; (intro a l' hp' hle); rotate_left; intro x l' hp' hle)
  | apply Fin.bind
  | (refine And.intro (by assumption) ?_; (try refine And.intro ?_ ?_) <;> first | (intro h _; exact Bool.noConfusion h) | (intros; left) | left)
  | dsimp only
  | split)

macro "fin" : tactic => `(tactic| repeat' fin_step)
/-- Proves `Ter`. -/
macro "ter" : tactic => `(tactic| (refine ⟨fun l hl hn => ?_⟩; fin))
/-- Proves `Hi`. -/
macro "hi" : tactic => `(tactic| (refine ⟨fun l hl ht hn => ?_⟩; fin))

section
variable {src : Bytes} [Tame src] {n : Nat}

instance {k} : Ter src n (parseName k) 0 false := by unfold parseName; ter
instance : Ter src n identifier 0 true := by unfold identifier; ter
instance : Ter src n expectSemicolon 0 false := by unfold expectSemicolon; ter

variable {α : Type} {item : P α} {R : Rec}

instance [Ter src n item 2 true] : Ter src n (rawBlock n item) 2 false := by unfold rawBlock; ter
instance [Ter src n item 2 true] : Ter src n (block n item) 2 false := by unfold block; ter
instance [Ter src n item 2 true] : Hi src n (uncheckedBlock n item) := by unfold uncheckedBlock; hi
instance [Ter src n item 2 false] : Ter src n (arrayElements n item) 2 false := by unfold arrayElements; ter

variable [hR : Rec.Ter src n R]
instance {c lvl} : Ter src n (R.expr c lvl) 2 false := hR.expr c lvl
instance : Ter src n R.stmt 2 true := hR.stmt
instance : Ter src n R.property 2 false := hR.property
instance : Ter src n (stmtBlock n R) 2 false := by unfold stmtBlock; ter
instance : Ter src n (propertyList n R) 2 false := by unfold propertyList; ter
instance : Hi src n patternIdentifier := by unfold patternIdentifier; hi
instance {p} : Ter src n (patternAssign R p) 2 false := by unfold patternAssign; ter
instance : Hi src n (patternObject n R) := by unfold patternObject; hi
instance : Ter src n (patternParam n R) 2 false := by unfold patternParam; ter
instance : Ter src n (patternArrayElement n R) 2 false := by unfold patternArrayElement; ter
instance : Hi src n (patternArray n R) := by unfold patternArray; hi
instance : Ter src n (patternParse n R) 2 false := by unfold patternParse; ter
instance : Ter src n restElement 2 false := by unfold restElement; ter
instance : Ter src n (params n R) 2 false := by unfold params; ter
instance {k} : Ter src n (functionParse n R k) 2 false := by unfold functionParse; ter
instance : Ter src n (methodParse n R) 2 false := by unfold methodParse; ter
instance {s k} : Ter src n (propertyValue n R s k) 2 false := by unfold propertyValue; ter
instance : Ter src n (property n R) 1 false := by unfold property; ter
instance : Ter src n (callArguments n R) 2 false := by unfold callArguments; ter
instance {e} : Ter src n (patternFromExpression e) 0 false := ⟨by
  fun_induction patternFromExpression e with
  | case1 loc left right ih =>
    intro l hl hn
    exact .bind ((ih l hl hn).weaken fun a l' h => .pure h)
  | case2 => intro l hl hn; fin
  | case3 => intro l hl hn; fin⟩
instance {es} : Ter src n (paramsFromExpressions es) 0 false := by
  induction es with
  | nil => unfold paramsFromExpressions; ter
  | cons e es ih => unfold paramsFromExpressions; ter
instance {s ps} : Ter src n (arrowFunctionExpression n R s ps) 2 false := by unfold arrowFunctionExpression; ter
instance : Hi src n (parenExpression n R) := by unfold parenExpression; hi
instance : Hi src n (objectExpression n R) := by unfold objectExpression; hi
instance : Hi src n (arrayExpression n R) := by unfold arrayExpression; hi
instance : Hi src n templateString := by unfold templateString; hi
theorem templateLiteral_fin {l : Lex} (hl : Reach src l) (ht : l.token = .TemplateOpen) (hn : l.left + 1 ≤ n) :
    Fin (templateLiteral n R) l fun _ l' => Reach src l' ∧ l'.left < l.left := by
  have hb := hl.tick ht
  unfold templateLiteral
  fin
instance {a b c d} : Ter src n (classMemberValue n R a b c d) 2 false := by unfold classMemberValue; ter
instance : Ter src n (classMember n R) 2 true := by unfold classMember; ter
instance {k} : Ter src n (classParse n R k) 2 false := by unfold classParse; ter
instance {k} : Hi src n (literalExpr k) := by unfold literalExpr; hi

end
end Ratel
