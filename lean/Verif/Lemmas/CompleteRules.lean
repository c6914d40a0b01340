import Verif.Lemmas.CompleteExpr
/-! The parser finds every expression of the grammar: simple expressions and operators. -/
namespace Ratel
open Spec
set_option linter.unusedSectionVars false
variable [Unicode]

theorem Spec.Tk.look {t : Token} {i j : List Item} (h : Tk t i j) : look i = t := by
  obtain ⟨w, a, rfl⟩ := h; rfl
theorem Spec.Wd.look {t : Token} {w : Bytes} {i j : List Item} (h : Wd t w i j) : look i = t := by
  obtain ⟨a, rfl⟩ := h; rfl
theorem Spec.Wd.tk {t : Token} {w : Bytes} {i j : List Item} (h : Wd t w i j) : Tk t i j := by
  obtain ⟨a, rfl⟩ := h; exact ⟨w, a, rfl⟩

variable {k : Nat} {i m n o q j : List Item} {e a b c p : Expr}

theorem text_of {l : Lex} {t : Token} {w : Bytes} (ht : l.token = t) (hw : l.text = w)
    (h : t ≠ .Accessor := by decide) (h1 : t ≠ .TemplateOpen := by decide) (h2 : t ≠ .TemplateClosed := by decide) :
    l.tokenAsStr = w := by
  rw [← hw, Lex.text, ht]
  split <;> first | contradiction | rfl

theorem accText_of {l : Lex} {w : Bytes} (ht : l.token = .Accessor) (hw : l.text = w) : l.accessorAsStr = w := by
  rw [← hw, Lex.text, ht]
theorem quasi_of {l : Lex} {w : Bytes} (ht : l.token = .TemplateOpen ∨ l.token = .TemplateClosed) (hw : l.text = w) :
    l.quasi = w := by
  rcases ht with ht | ht <;> rw [← hw, Lex.text, ht]

/-- The result of a run is determined by the run. -/
theorem Found.intro {α β : Type} {m : Nat → P α} {f : α → β} {t : β} {l l' : Lex} {a : α} {j : List Item}
    (hev : Ev m l a l') (hs : Stream l' j) (hb : f a = t) : ∃ a l', f a = t ∧ Stream l' j ∧ Ev m l a l' :=
  ⟨a, l', hb, hs, hev⟩

/-- The result of one step of the loop is determined by its run. -/
theorem Step.intro {h : NH} {p : Nat} {e' e1' e1 : Expr} {l l' : Lex} {j : List Item}
    (hh : ∀ L, minPower L ≤ p → nestedHandler L l.asi l.token = some h)
    (hev : Ev (fun n => runNH n (procs n) h e') l e1' l') (hs : Stream l' j) (hb : bareExpr e1' = e1) :
    ∃ e1' l', bareExpr e1' = e1 ∧ Stream l' j ∧
      ∀ L, minPower L ≤ p → ∃ h, nestedHandler L l.asi l.token = some h ∧ Ev (fun n => runNH n (procs n) h e') l e1' l' :=
  ⟨e1', l', hb, hs, fun L hL => ⟨h, hh L hL, hev⟩⟩

namespace Complete

theorem ident {w : Bytes} (h : Wd .Identifier w i j) : Opens k i (.ident z w) j := by
  refine Opens.head (h := .IDEN) (by rw [h.look]; decide +kernel) (by decide) fun l hl => ?_
  obtain ⟨ht, hw, l1, hc, h1⟩ := hl.wd h
  have hw := text_of ht hw
  apply Found.intro
  · unfold runEH
    ev []
  · assumption
  · simp only [bareExpr, hw]

theorem this (h : Tk .This i j) : Opens k i (.this z) j := by
  refine Opens.head (h := .THIS) (by rw [h.look]; decide +kernel) (by decide) fun l hl => ?_
  obtain ⟨ht, l1, hc, h1⟩ := hl.tk h
  apply Found.intro
  · unfold runEH
    ev []
  · assumption
  · simp only [bareExpr]

theorem lit {t : Token} {w : Bytes} {v : Literal} (h : Wd t w i j) (hv : literalOf t w = some v) :
    Opens k i (.lit z v) j := by
  have key : ∀ (h' : EH) (f : Bytes → Literal), exprHandler .DEF t = h' → h' ≠ .ERR → f w = v →
      (∀ n, runEH n (procs n) h' = literalExpr f) → t ≠ .Accessor → t ≠ .TemplateOpen → t ≠ .TemplateClosed →
      Opens k i (.lit z v) j := by
    intro h' f he hne hf hr t1 t2 t3
    refine Opens.head (h := h') (by rw [h.look]; exact he) hne fun l hl => ?_
    obtain ⟨ht, hw, l1, hc, h1⟩ := hl.wd h
    have hw := text_of ht hw t1 t2 t3
    simp only [hr]
    apply Found.intro
    · unfold literalExpr
      ev []
    · assumption
    · simp only [bareExpr, hw, hf]
  unfold literalOf at hv
  split at hv <;> first
    | (cases hv; exact key .TRUE (fun _ => .True) (by decide +kernel) (by decide) rfl (fun _ => rfl) (by decide) (by decide) (by decide))
    | (cases hv; exact key .FALS (fun _ => .False) (by decide +kernel) (by decide) rfl (fun _ => rfl) (by decide) (by decide) (by decide))
    | (cases hv; exact key .NULL (fun _ => .Null) (by decide +kernel) (by decide) rfl (fun _ => rfl) (by decide) (by decide) (by decide))
    | (cases hv; exact key .UNDE (fun _ => .Undefined) (by decide +kernel) (by decide) rfl (fun _ => rfl) (by decide) (by decide) (by decide))
    | (cases hv; exact key .STR .String (by decide +kernel) (by decide) rfl (fun _ => rfl) (by decide) (by decide) (by decide))
    | (cases hv; exact key .NUM .Number (by decide +kernel) (by decide) rfl (fun _ => rfl) (by decide) (by decide) (by decide))
    | (cases hv; exact key .BIN .Binary (by decide +kernel) (by decide) rfl (fun _ => rfl) (by decide) (by decide) (by decide))
    | cases hv

theorem regex {w : Bytes} {a : Asi} : Opens k (.regex w a :: j) (.lit z (.RegEx w)) j := by
  refine Opens.head (h := .REG) (show exprHandler .DEF .OperatorDivision = _ by decide +kernel) (by decide) fun l hl => ?_
  cases hl with
  | regex ht ha hr h1 hc h =>
  apply Found.intro
  · unfold runEH
    simp only [regularExpression]
    ev []
  · assumption
  · simp only [bareExpr]

theorem newTarget (h : Tk .OperatorNew i m) (h1 : Wd .Accessor bs!"target" m j) :
    Opens k i (.metaProp z ⟨z, bs!"new"⟩ ⟨z, bs!"target"⟩) j := by
  refine Opens.head (h := .NEW) (by rw [h.look]; decide +kernel) (by decide) fun l hl => ?_
  obtain ⟨ht, l1, hc, hl1⟩ := hl.tk h
  obtain ⟨ht1, hw, l2, hc1, hl2⟩ := hl1.wd h1
  have hw := accText_of ht1 hw
  apply Found.intro
  · unfold runEH
    ev [ht1, hw]
  · assumption
  · simp only [bareExpr, bareIdent]

theorem prefixOps {t : Token} {op : Op} (h : prefixOp t = some op) : exprHandler .DEF t = .OP ∧ Op.fromToken t = some op := by
  have h1 : ∀ t ∈ Token.all, (match prefixOp t with
      | some op => decide (exprHandler .DEF t = .OP ∧ Op.fromToken t = some op)
      | none => true) = true := by decide +kernel
  have := h1 t t.mem_all
  rw [h] at this
  exact of_decide_eq_true this

theorem minPower_16 {L : Lvl} (h : minPower L = 16) : L = .B15 := by
  cases L <;> simp [minPower] at h ⊢

theorem prefixed {t : Token} {op : Op} (h : Tk t i m) (hop : prefixOp t = some op) (h1 : Finds 16 m e j) :
    Opens k i (.prefix z op e) j := by
  obtain ⟨hp, hp'⟩ := prefixOps hop
  refine Opens.head (h := .OP) (by rw [h.look]; exact hp) (by decide) fun l hl => ?_
  obtain ⟨ht, l1, hc, hl1⟩ := hl.tk h
  obtain ⟨e', l2, he, hl2, hev⟩ := h1.run (c := .DEF) (L := .B15) rfl l1 hl1
  apply Found.intro
  · unfold runEH
    ev [ht, hp']
  · assumption
  · simp only [bareExpr, he]

theorem new (h : Tk .OperatorNew i m) (hm : Spec.look m ≠ .Accessor) (h1 : Finds 16 m e j) :
    Opens k i (.prefix z .New e) j := by
  refine Opens.head (h := .NEW) (by rw [h.look]; decide +kernel) (by decide) fun l hl => ?_
  obtain ⟨ht, l1, hc, hl1⟩ := hl.tk h
  obtain ⟨e', l2, he, hl2, hev⟩ := h1.run (c := .DEF) (L := .B15) rfl l1 hl1
  have hm : l1.token ≠ .Accessor := by rw [hl1.token]; exact hm
  apply Found.intro
  · unfold runEH
    ev [hm]
  · assumption
  · simp only [bareExpr, he]

theorem paren (h : Tk .ParenOpen i m) (h1 : Finds 0 m e n) (h2 : Tk .ParenClose n j) : Opens k i e j := by
  refine Opens.head (h := .PRN) (by rw [h.look]; decide +kernel) (by decide) fun l hl => ?_
  obtain ⟨ht, l1, hc, hl1⟩ := hl.tk h
  obtain ⟨e', l2, he, hl2, hev⟩ := h1.run (c := .DEF) (L := .ANY) rfl l1 hl1
  obtain ⟨ht2, l3, hc2, hl3⟩ := hl2.tk h2
  have hm : l1.token ≠ .ParenClose := by
    intro hh
    rw [hl1.token] at hh
    apply h1.1
    rw [hh]; decide +kernel
  apply Found.intro
  · unfold runEH
    simp only [parenExpression]
    ev [hm]
  · assumption
  · assumption

theorem binary {t : Token} {op : Op} {p : Nat} (hop : binaryOp t = some (op, p)) (hk : k ≤ p) (h : Opens p i a m)
    (h1 : Tk t m n) (h2 : Finds (p + 1) n b j) : Opens k i (.binary z op a b) j := by
  refine Opens.extend h hk fun a' l ha hl => ?_
  obtain ⟨ht, l1, hc, hl1⟩ := hl.tk h1
  have hp := handler_binary (L := .ANY) (a := l.asi) hop (Nat.zero_le _)
  obtain ⟨b', l2, hb, hl2, h3⟩ := h2.run (c := .DEF) (L := lvlOf p) hp.2 l1 hl1
  apply Step.intro (h := .binary (lvlOf p) op)
  · intro L hL
    rw [ht]
    exact (handler_binary hop (by omega)).1
  · unfold runNH
    ev []
  · assumption
  · simp only [bareExpr, ha, hb]

theorem cond (hk : k ≤ 1) (h : Opens 5 i a m) (h1 : Tk .OperatorConditional m n)
      (h2 : Finds 1 n b o) (h3 : Tk .Colon o q) (h4 : Finds 1 q c j) : Opens k i (.cond z a b c) j := by
  refine Opens.extend h (by omega) fun a' l ha hl => ?_
  obtain ⟨ht, l1, hc, hl1⟩ := hl.tk h1
  obtain ⟨b', l2, hb, hl2, hev2⟩ := h2.run (c := .DEF) (L := .B1) rfl l1 hl1
  obtain ⟨ht3, l3, hc3, hl3⟩ := hl2.tk h3
  obtain ⟨c', l4, hc', hl4, hev4⟩ := h4.run (c := .DEF) (L := .B1) rfl l3 hl3
  apply Step.intro (h := .COND)
  · intro L hL
    rw [ht]
    exact handler_cond (by omega)
  · unfold runNH
    ev []
  · assumption
  · simp only [bareExpr, ha, hb, hc']

theorem lvalue {e e' : Expr} (h : bareExpr e' = e) (ht : target e = true) : e'.isLvalue = true := by
  subst h
  cases e' <;> simp [bareExpr, target, Expr.isLvalue] at ht ⊢

theorem assign {t : Token} {op : Op} (hk : k ≤ 1) (h : Opens 17 i a m) (ha : target a = true) (h1 : Tk t m n)
      (hop : assignOp t = some op) (h2 : Finds 1 n b j) : Opens k i (.binary z op a b) j := by
  refine Opens.extend h (by omega) fun a' l ha' hl => ?_
  obtain ⟨ht, l1, hc, hl1⟩ := hl.tk h1
  obtain ⟨b', l2, hb, hl2, h3⟩ := h2.run (c := .DEF) (L := .B1) rfl l1 hl1
  have hlv := lvalue ha' ha
  apply Step.intro (h := .assign op)
  · intro L hL
    rw [ht]
    exact handler_assign hop (by omega)
  · unfold runNH
    ev [hlv, Bool.true_eq_false]
  · assumption
  · simp only [bareExpr, ha', hb]

theorem postfixed {t : Token} {op : Op} {w : Bytes} {s : Asi} (hk : k ≤ 17) (h : Opens 17 i e (.tok t w s :: j))
      (he : target e = true) (hop : postfixOp t = some op) (ha : s ≠ .ImplicitSemicolon) :
      Opens k i (.postfix z op e) j := by
  refine Opens.extend h (by omega) fun a' l ha' hl => ?_
  have hasi : l.asi = s := hl.asi
  obtain ⟨ht, l1, hc, hl1⟩ := hl.tk ⟨w, s, rfl⟩
  have hlv := lvalue ha' he
  apply Step.intro (h := .postfix op)
  · intro L hL
    rw [ht, hasi]
    exact handler_postfix hop ha
  · unfold runNH
    ev [hlv, Bool.true_eq_false]
  · assumption
  · simp only [bareExpr, ha']

theorem member {w : Bytes} (hk : k ≤ 17) (h : Opens 17 i e m) (h1 : Wd .Accessor w m j) :
      Opens k i (.member z e ⟨z, w⟩) j := by
  refine Opens.extend h hk fun a' l ha' hl => ?_
  obtain ⟨ht, hw, l1, hc, hl1⟩ := hl.wd h1
  have hw := accText_of ht hw
  apply Step.intro (h := .ACCS)
  · intro L hL
    rw [ht]
    exact handler_tight rfl
  · unfold runNH
    ev []
  · assumption
  · simp only [bareExpr, bareIdent, ha', hw]

theorem index (hk : k ≤ 17) (h : Opens 17 i e m) (h1 : Tk .BracketOpen m n)
      (h2 : Finds 0 n p o) (h3 : Tk .BracketClose o j) : Opens k i (.cmember z e p) j := by
  refine Opens.extend h hk fun a' l ha' hl => ?_
  obtain ⟨ht, l1, hc, hl1⟩ := hl.tk h1
  obtain ⟨b', l2, hb, hl2, hev2⟩ := h2.run (c := .DEF) (L := .ANY) rfl l1 hl1
  obtain ⟨ht3, l3, hc3, hl3⟩ := hl2.tk h3
  apply Step.intro (h := .CMEM)
  · intro L hL
    rw [ht]
    exact handler_tight rfl
  · unfold runNH
    ev []
  · assumption
  · simp only [bareExpr, ha', hb]

end Complete
end Ratel
