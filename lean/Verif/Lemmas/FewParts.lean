import Verif.Lemmas.Few
/-! How many errors the parts of the parser report. -/
namespace Ratel
open Spec

set_option linter.unusedSectionVars false
variable [Unicode]

section
variable {src : Bytes} {n : Nat} {α : Type} {item : P α} {R : Rec}

instance few_p4 [Stall item] [Few.Ter src item 1 true] : Few.Ter src (rawBlock n item) 1 false := by
  unfold rawBlock
  refine ⟨fun l k hl => .tok ?_⟩
  split
  · few
  · refine .ter (src := src) hl fun a l' k' hp' hm => ?_
    refine .loopAt (fun _ => 0) (fun _ => 0) 0 (m := l'.ahead) (I := fun s => s.lex.Fixed) (fun _ _ h => items_stall h) ?_ hp' (Nat.le_refl _)
      fun a l'' k'' h1 h2 h3 => ⟨h1, by have := hm.1; omega, by have := hm.2.1; omega, nofun⟩
    intro x l2 k2 h2 hle
    by_cases hF : l2.Fixed
    · exact .inl fun _ => hF
    · right
      refine .tok ?_
      split
      · rename_i hg
        have hE : ¬l2.Ended := fun h => h.elim hg.2 hF
        few
      · few
instance few_p5 [Stall item] [Few.Ter src item 1 true] : Few.Ter src (block n item) 2 false := by unfold block; ter3
instance few_p6 [Stall item] [Few.Ter src item 1 true] : Few.Hi src (uncheckedBlock n item) := by unfold uncheckedBlock; hi3
instance few_p7 [Few.Ter src item 1 false] : Few.Ter src (arrayElements n item) 2 false := by unfold arrayElements; ter3

variable [hR : Rec.Few src R]
instance few_p8 {c lvl} : Few.Val src (R.expr c lvl) 1 := hR.expr c lvl
instance few_p8' {c lvl} : Few.Ter src (R.expr c lvl) 1 false := ⟨fun l k hl => ((hR.expr c lvl).is l k hl).weaken fun a l' k' h => ⟨h.1, h.2.1, by have := h.2.2; omega, nofun⟩⟩
instance few_p9 : Few.Ter src R.stmt 1 true := hR.stmt
instance few_p10 : Few.Ter src R.property 1 false := hR.property
variable [Stall R.stmt]
instance few_p11 : Few.Ter src (stmtBlock n R) 2 false := by unfold stmtBlock; ter3
instance few_p12 : Few.Ter src (propertyList n R) 2 false := by unfold propertyList; ter3
instance few_p13 : Few.Hi src patternIdentifier := by unfold patternIdentifier; hi3
instance few_p14 {p} : Few.Ter src (patternAssign R p) 0 false := by unfold patternAssign; ter3
instance few_p15 : Few.Hi src (patternObject n R) := by unfold patternObject; hi3
instance few_p16 : Few.Ter src (patternParam n R) 1 false := by unfold patternParam; ter3
instance few_p17 : Few.Ter src (patternArrayElement n R) 1 false := by unfold patternArrayElement; ter3
instance few_p18 : Few.Hi src (patternArray n R) := by unfold patternArray; hi3
instance few_p19 : Few.Ter src (patternParse n R) 1 false := by unfold patternParse; ter3
instance few_p20 : Few.Ter src restElement 2 false := by unfold restElement; ter3
instance few_p21 : Few.Ter src (params n R) 3 false := by unfold params; ter3
instance few_p22 {k} : Few.Ter src (functionParse n R k) 6 false := by unfold functionParse; ter3
instance few_p23 : Few.Ter src (methodParse n R) 6 false := by unfold methodParse; ter3
instance few_p24 {s k} : Few.Ter src (propertyValue n R s k) 6 false := by unfold propertyValue; ter3
instance few_p25 : Few.Ter src (property n R) 1 false := by unfold property; ter3
instance few_p26 : Few.Ter src (callArguments n R) 2 false := by unfold callArguments; ter3
instance few_p27 {e} : Few.Ter src (patternFromExpression e) 1 false := ⟨by
  fun_induction patternFromExpression e with
  | case1 loc left right ih =>
    intro l k hl
    exact .bind ((ih l k hl).weaken fun a l' k' h => .pure h)
  | case2 => intro l k hl; few
  | case3 => intro l k hl; few⟩
instance few_p28 {es} : Few.Ter src (paramsFromExpressions es) es.length false := by
  induction es with
  | nil => unfold paramsFromExpressions; ter3
  | cons e es ih => unfold paramsFromExpressions; rw [List.length_cons]; ter3
instance few_p29 {s ps} : Few.Ter src (arrowFunctionExpression n R s ps) (ps.length + 1) false := by unfold arrowFunctionExpression; ter3
instance few_p31 : Few.Vi src (objectExpression n R) := by unfold objectExpression; hi3
instance few_p32 : Few.Vi src (arrayExpression n R) := by unfold arrayExpression; hi3
instance few_p33 : Few.Hi src templateString := by unfold templateString; hi3
instance few_p34 : Few.Hi src (templateLiteral n R) := by unfold templateLiteral; hi3
instance few_p35 {a b c d} : Few.Ter src (classMemberValue n R a b c d) 6 false := by unfold classMemberValue; ter3
instance few_p36 : Few.Ter src (classMember n R) 1 true := by unfold classMember; ter3
instance few_p38 {k} : Few.Ter src (classParse n R k) 3 false := by unfold classParse; ter3
instance few_p39 {k} : Few.Vi src (literalExpr k) := by unfold literalExpr; hi3

end
end Ratel
