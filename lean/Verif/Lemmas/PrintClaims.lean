import Verif.Lemmas.PrintBase
/-! Reading back generated code: what is claimed of each kind of node. -/
namespace Ratel
open Spec

set_option linter.unusedSectionVars false
variable [Unicode]

theorem tidyExprs_eq (l : List Expr) : tidyExprs l = l.map tidyExpr := by
  induction l <;> simp [tidyExprs, *]
theorem tidyProps_eq (l : List Property) : tidyProps l = l.map tidyProp := by
  induction l <;> simp [tidyProps, *]
theorem tidyPats_eq (l : List Pattern) : tidyPats l = l.map tidyPat := by
  induction l <;> simp [tidyPats, *]
theorem tidyMembers_eq (l : List ClassMember) : tidyMembers l = l.map tidyMember := by
  induction l <;> simp [tidyMembers, *]
theorem tidyDeclarators_eq (l : List Declarator) : tidyDeclarators l = l.map tidyDeclarator := by
  induction l <;> simp [tidyDeclarators, *]
theorem tidyCases_eq (l : List SwitchCase) : tidyCases l = l.map tidyCase := by
  induction l <;> simp [tidyCases, *]
theorem rereadExprs_eq (l : List Expr) : rereadExprs l = l.map rereadExpr := by
  induction l <;> simp [rereadExprs, *]
theorem rereadProps_eq (l : List Property) : rereadProps l = l.map rereadProp := by
  induction l <;> simp [rereadProps, *]
theorem rereadPats_eq (l : List Pattern) : rereadPats l = l.map rereadPat := by
  induction l <;> simp [rereadPats, *]
theorem rereadMembers_eq (l : List ClassMember) : rereadMembers l = l.map rereadMember := by
  induction l <;> simp [rereadMembers, *]
theorem rereadDeclarators_eq (l : List Declarator) : rereadDeclarators l = l.map rereadDeclarator := by
  induction l <;> simp [rereadDeclarators, *]
theorem rereadCases_eq (l : List SwitchCase) : rereadCases l = l.map rereadCase := by
  induction l <;> simp [rereadCases, *]

theorem Spec.Spells.cast {a b : Bytes} {i : List Item} (h : Spells a i) (e : b = a) : Spells b i := e ▸ h

/-- The tokens an expression can start with. -/
def starter (t : Token) : Bool := t ∈ [Token.This, .Identifier, .LiteralUndefined, .LiteralNull, .LiteralTrue,
  .LiteralFalse, .LiteralNumber, .LiteralBinary, .LiteralString, .OperatorDivision, .BracketOpen, .ParenOpen, .OperatorNew,
  .OperatorIncrement, .OperatorDecrement, .OperatorLogicalNot, .OperatorBitwiseNot, .OperatorTypeof, .OperatorVoid,
  .OperatorDelete, .OperatorAddition, .OperatorSubtraction, .TemplateOpen, .TemplateClosed, .BraceOpen, .Function, .Class]

/-- The text `X` after the blanks `g` starts with the token `t`. -/
structure Starts (g X : Bytes) (t : Token) (i : List Item) : Prop where
  look : look i = t
  asi : semicolon i = asiBefore t (nl g)
  lead : lead t (next X) = true
  ne : X ≠ []
  starter : starter t = true

/-- What may follow an expression. -/
structure After (e : Expr) (r : Bytes) (j : List Item) : Prop where
  word : wordByte (next r) = false
  dot : next r = #b'.' → reach e = 18 ∧ ∀ l v, e = .lit l (.Number v) → v.all isDigit = false
  ends : reach e < 18 → continues (reach e) j = false

/-- What may follow in a list. -/
structure Apart (k : Nat) (r : Bytes) (j : List Item) : Prop where
  word : wordByte (next r) = false
  dot : next r ≠ #b'.'
  ends : continues k j = false

variable (min : Bool)

def ReadsExpr (e : Expr) : Prop := ∀ ⦃X g r : Bytes⦄ ⦃j : List Item⦄, Lay min (codeExpr e) X → Blank g → Spells r j →
  After e r j → ∃ i, Spells (g ++ (X ++ r)) i ∧ G i (.expr (strength e) (rereadExpr e)) j ∧ Starts g X (firstToken e) i

def ReadsSpread (l : Loc) (e : Expr) : Prop := ∀ ⦃X g r : Bytes⦄ ⦃j : List Item⦄, Lay min (codeExpr (.spread l e)) X → Blank g →
  Spells r j → Apart 1 r j → ∃ i, Spells (g ++ (X ++ r)) i ∧ G i (.arg (rereadExpr (.spread l e))) j ∧
    G i (.elem (rereadExpr (.spread l e))) j ∧ look i = .OperatorSpread

def ReadsProp (p : Property) : Prop := ∀ ⦃X g r : Bytes⦄ ⦃j : List Item⦄, Lay min (codeProperty p) X → Blank g →
  Spells r j → wordByte (next r) = false → next r ≠ #b'.' → look j = .Comma ∨ look j = .BraceClose →
  ∃ i, Spells (g ++ (X ++ r)) i ∧ G i (.prop (rereadProp p)) j

/-- Tokens a pattern does not start with. -/
def patStart (t : Token) : Bool := t ∈ [Token.Identifier, .BracketOpen, .BraceOpen]

def ReadsPlain (p : Pattern) : Prop := ∀ ⦃X g r : Bytes⦄ ⦃j : List Item⦄, Lay min (codePattern p) X → Blank g →
  Spells r j → wordByte (next r) = false →
  ∃ i, Spells (g ++ (X ++ r)) i ∧ G i (.pat (rereadPat p)) j ∧ patStart (look i) = true

def ReadsParam (p : Pattern) : Prop := ∀ ⦃X g r : Bytes⦄ ⦃j : List Item⦄, Lay min (codePattern p) X → Blank g →
  Spells r j → Apart 1 r j →
  ∃ i, Spells (g ++ (X ++ r)) i ∧ G i (.param (rereadPat p)) j ∧ patStart (look i) = true ∧
    (arrowParam p = true → ∃ e, paramOf e = some (rereadPat p) ∧ G i (.expr 1 e) j)

/-- Functions with and without their keyword. -/
def ReadsFunc (f : Func) : Prop := ∀ ⦃X g r : Bytes⦄ ⦃j : List Item⦄, Lay min (codeFunc f) X → Blank g → Spells r j →
  ∃ i, Spells (g ++ (X ++ r)) i ∧ X ≠ [] ∧ match funcName f with
    | .empty => G i (.func .never (rereadFunc f)) j ∧ look i = .ParenOpen ∧ next X = #b'('
    | .optional _ => ∃ m, Wd .Function bs!"function" i m ∧ G m (.func .optional (rereadFunc f)) j ∧ Starts g X .Function i
    | .mandatory _ => ∃ m, Wd .Function bs!"function" i m ∧ G m (.func .always (rereadFunc f)) j ∧ Starts g X .Function i

def ReadsClass (c : Class) : Prop := ∀ ⦃X g r : Bytes⦄ ⦃j : List Item⦄, Lay min (codeClass c) X → Blank g → Spells r j →
  ∃ i, Spells (g ++ (X ++ r)) i ∧ match className c with
    | .empty => True
    | .optional _ => ∃ m, Wd .Class bs!"class" i m ∧ G m (.cls .optional (rereadClass c)) j ∧ Starts g X .Class i
    | .mandatory _ => ∃ m, Wd .Class bs!"class" i m ∧ G m (.cls .always (rereadClass c)) j ∧ Starts g X .Class i

def ReadsMember (m : ClassMember) : Prop := ∀ ⦃X g r : Bytes⦄ ⦃j : List Item⦄, Lay min (codeMember m) X → Blank g → Spells r j →
  look j ≠ .Semicolon → ∃ i, Spells (g ++ (X ++ r)) i ∧ G i (.member (rereadMember m)) j ∧ look i ≠ .Semicolon

def ReadsBlock (b : Block) : Prop := ∀ ⦃X g r : Bytes⦄ ⦃j : List Item⦄, Lay min (codeBlock b) X → Blank g → Spells r j →
  ∃ i, Spells (g ++ (X ++ r)) i ∧ G i (.block (rereadBlock b)) j ∧ look i = .BraceOpen ∧ next X = #b'{' ∧ X ≠ []

/-- Tokens a statement does not start with. -/
def stmtStart (t : Token) : Bool := t ∉ [Token.Else, .Finally, .Case, .Default, .BraceClose, .EndOfProgram]

def ReadsStmt (s : Stmt) : Prop := ∀ ⦃X g r : Bytes⦄ ⦃j : List Item⦄, Lay min (codeStmt s) X → Blank g → Spells r j →
  look j ≠ .Finally → (look j = .Else → endsInIf s = false) →
  ∃ i, Spells (g ++ (X ++ r)) i ∧ G i (.stmt (rereadStmt s)) j ∧ stmtStart (look i) = true ∧ (s.isBlock = true → next X = #b'{') ∧ X ≠ []

def ReadsDeclarator (d : Declarator) : Prop := ∀ ⦃X g r : Bytes⦄ ⦃j : List Item⦄, Lay min (codeDeclarator d) X → Blank g →
  Spells r j → wordByte (next r) = false → next r ≠ #b'.' → look j ≠ .OperatorAssign → (hasInit d = true → continues 1 j = false) →
  ∃ i, Spells (g ++ (X ++ r)) i ∧ G i (.declarator (rereadDeclarator d)) j

def ReadsForDecl (l : Loc) (k : DeclKind) (ds : List Declarator) : Prop := ∀ ⦃X g r : Bytes⦄ ⦃j : List Item⦄,
  Lay min (codeForInit (.decl l k ds)) X → Blank g →
  Spells r j → wordByte (next r) = false → next r ≠ #b'.' → look j ≠ .OperatorAssign → look j ≠ .Comma →
  (∀ d ∈ ds.getLast?, hasInit d = true → continues 1 j = false) →
  ∃ i, Spells (g ++ (X ++ r)) i ∧ G i (.forInit (rereadInit (.decl l k ds))) j ∧ ∃ n t, declKindOf t = some k ∧ Tk t i n ∧ G n (.declarators (rereadDeclarators ds)) j

/-- Tokens after a case. -/
def caseEnd (t : Token) : Bool := t ∈ [Token.Case, .Default, .BraceClose]

def ReadsCase (c : SwitchCase) : Prop := ∀ ⦃X g r : Bytes⦄ ⦃Q : List Item → Prop⦄, Lay min (codeCase c) X → Blank g →
  (∀ g, Blank g → ∃ j, Spells (g ++ r) j ∧ Q j ∧ caseEnd (look j) = true) →
  ∃ i j, Spells (g ++ (X ++ r)) i ∧ G i (.switchCase (rereadCase c)) j ∧ Q j ∧ caseEnd (look i) = true

def ReadsCatch (c : Catch) : Prop := ∀ ⦃X g r : Bytes⦄ ⦃j : List Item⦄, Lay min (codeCatch c) X → Blank g → Spells r j →
  ∃ i, Spells (g ++ (X ++ r)) i ∧ G i (.catch (rereadCatch c)) j ∧ look i = .Catch

def ReadsSwitch (cs : List SwitchCase) : Prop := ∀ ⦃X g r : Bytes⦄ ⦃j : List Item⦄, Lay min (writeBraces (codeCases cs)) X → Blank g →
  Spells r j → ∃ i m, Spells (g ++ (X ++ r)) i ∧ Tk .BraceOpen i m ∧ G m (.cases (rereadCases cs)) j

/-- What is claimed of a node. -/
def ReadsBack : Node → Prop
  | .expr (.void _) => True
  | .expr (.spread l e) => ReadsSpread min l e
  | .expr e => ReadsExpr min e
  | .key (.computed _ e) => proper e = true → ReadsExpr min e
  | .key _ => True
  | .prop p => ReadsProp min p
  | .pat p => (plain p = true → ReadsPlain min p) ∧ (isHole p = false → isRest p = false → ReadsParam min p)
  | .func f => ReadsFunc min f
  | .cls c => ReadsClass min c
  | .member m => ReadsMember min m
  | .block b => ReadsBlock min b
  | .stmt s => isEmptyStmt s = false → ReadsStmt min s
  | .declarator d => ReadsDeclarator min d
  | .forInit (.decl l k ds) => ReadsForDecl min l k ds
  | .forInit (.expr _ e) => ReadsExpr min e
  | .case c => ReadsCase min c
  | .catch c => ReadsCatch min c
  | .switchBody cs => ReadsSwitch min cs

variable {min}

theorem ReadsBack.expr {e : Expr} (h : ReadsBack min (.expr e)) (he : proper e = true) : ReadsExpr min e := by
  cases e <;> first | exact h | cases he

/-! ### Following tokens -/

theorem continues_close {k : Nat} {j : List Item} (h : look j = .ParenClose ∨ look j = .BracketClose ∨ look j = .BraceClose ∨
    look j = .Semicolon ∨ look j = .Colon ∨ look j = .Identifier ∨ look j = .BraceOpen) : continues k j = false := by
  unfold continues
  rcases h with h | h | h | h | h | h | h <;> rw [h] <;> rfl

theorem continues_comma {k : Nat} {j : List Item} (h : look j = .Comma) (hk : 1 ≤ k) : continues k j = false := by
  unfold continues
  rw [h]
  simp
  omega

theorem Apart.close {k : Nat} {r : Bytes} {j : List Item} (h1 : wordByte (next r) = false) (h2 : next r ≠ #b'.')
    (h : look j = .ParenClose ∨ look j = .BracketClose ∨ look j = .BraceClose ∨
      look j = .Semicolon ∨ look j = .Colon ∨ look j = .Identifier ∨ look j = .BraceOpen) : Apart k r j :=
  ⟨h1, h2, continues_close h⟩

theorem Apart.after {k : Nat} {e : Expr} {r : Bytes} {j : List Item} (h : Apart k r j) (hk : k ≤ reach e) : After e r j :=
  ⟨h.word, fun hd => absurd hd h.dot, fun _ => continues_mono hk h.ends⟩

theorem strength_le (e : Expr) : strength e ≤ 17 := by
  cases e <;> simp [strength]
  rename_i op _ _
  have h1 : ∀ op ∈ Op.all, (precedence op).getD 1 ≤ 17 := by decide +kernel
  exact h1 op op.mem_all

/-- An expression where one of power at least `k` is expected. -/
theorem ReadsExpr.whole {e : Expr} (ih : ReadsExpr min e) {k : Nat} (hk : fits k e = true) {X g r : Bytes} {j : List Item}
    (hX : Lay min (codeExpr e) X) (hg : Blank g) (hs : Spells r j) (ha : Apart k r j) :
    ∃ i, Spells (g ++ (X ++ r)) i ∧ G i (.whole k (rereadExpr e)) j ∧ Starts g X (firstToken e) i := by
  simp [fits] at hk
  obtain ⟨i, h1, h2, h3⟩ := ih hX hg hs (ha.after hk.2)
  exact ⟨i, h1, .whole (h2.mono hk.1) ha.ends, h3⟩

theorem ReadsExpr.any {e : Expr} (ih : ReadsExpr min e) {X g r : Bytes} {j : List Item}
    (hX : Lay min (codeExpr e) X) (hg : Blank g) (hs : Spells r j) (ha : Apart 0 r j) :
    ∃ i, Spells (g ++ (X ++ r)) i ∧ G i (.whole 0 (rereadExpr e)) j ∧ Starts g X (firstToken e) i :=
  ih.whole (by simp [fits]) hX hg hs ha

/-- An expression in parentheses. -/
theorem ReadsExpr.paren {e : Expr} (ih : ReadsExpr min e) {X g r : Bytes} {j : List Item}
    (hX : Lay min (.text bs!"(" :: codeExpr e ++ [.text bs!")"]) X) (hg : Blank g) (hs : Spells r j) :
    ∃ i, Spells (g ++ (X ++ r)) i ∧ (∀ k, k ≤ 17 → G i (.expr k (rereadExpr e)) j) ∧ Starts g X .ParenOpen i := by
  obtain ⟨Y, rfl, hX⟩ := hX
  obtain ⟨Y, Z, rfl, hY, hZ⟩ := Lay.append (a := codeExpr e) (b := [.text bs!")"]) hX
  cases hZ.one
  have s1 := emit_punct (g := []) bs!")" .ParenClose (by decide +kernel) .nil hs
  obtain ⟨i, s2, h2, h3⟩ := ih.any hY .nil s1 (.close rfl (by simp [next]) (.inl rfl))
  have s3 := emit_punct (g := g) bs!"(" .ParenOpen (by decide +kernel) hg s2
  exact ⟨_, s3.cast (by simp), fun k hk => .paren hk ⟨_, _, rfl⟩ h2 ⟨_, _, rfl⟩, rfl, rfl, rfl, by simp, rfl⟩

/-- An operand, in parentheses if it binds looser than `bp`. -/
theorem ReadsExpr.operand {e : Expr} (ih : ReadsExpr min e) {bp : Nat} {X g r : Bytes} {j : List Item}
    (hX : Lay min (writeExpression e (codeExpr e) bp) X) (hg : Blank g) (hs : Spells r j)
    (ha : ¬ e.bindingPower < bp → After e r j) :
    ∃ i, Spells (g ++ (X ++ r)) i ∧ (∀ k, k ≤ 17 → (¬ e.bindingPower < bp → k ≤ strength e) → G i (.expr k (rereadExpr e)) j) ∧
      Starts g X (if e.bindingPower < bp then .ParenOpen else firstToken e) i := by
  unfold writeExpression at hX
  split
  · rename_i hb
    rw [if_pos hb] at hX
    obtain ⟨i, h1, h2, h3⟩ := ih.paren hX hg hs
    exact ⟨i, h1, fun k hk _ => h2 k hk, h3⟩
  · rename_i hb
    rw [if_neg hb] at hX
    obtain ⟨i, h1, h2, h3⟩ := ih hX hg hs (ha hb)
    exact ⟨i, h1, fun k _ hk => h2.mono (hk hb), h3⟩

end Ratel
