import Verif.Props.Sound
import Verif.Lemmas.CodeBare
/-! The length of minified code, compared with the length of the source: by induction over the grammar, the code of a phrase is at
most twice as long as its tokens. -/
namespace Ratel
open Spec
set_option linter.unusedSimpArgs false
set_option linter.unusedTactic false
set_option linter.unusedVariables false

/-! ### The length of code -/

/-- The length of minified code. -/
def minLen : List Piece → Nat
  | [] => 0
  | .text t :: r => t.length + minLen r
  | _ :: r => minLen r

theorem minLen_append (a b : List Piece) : minLen (a ++ b) = minLen a + minLen b := by
  induction a with
  | nil => simp [minLen]
  | cons x a ih => cases x <;> simp [minLen, ih, Nat.add_assoc]

theorem runMin_length {ps : List Piece} {x : Bytes} (h : runMin ps = .ok x) : x.length = minLen ps := by
  induction ps generalizing x with
  | nil => cases h; rfl
  | cons p ps ih =>
    cases p with
    | text t =>
      obtain ⟨y, h1, h2⟩ := Out.bind_eq_ok.1 h
      cases h2
      rw [List.length_append, minLen, ih h1]
    | panic => cases h
    | _ => exact ih h

/-- The length of a list of codes, without separators. -/
def sumLen : List (List Piece) → Nat
  | [] => 0
  | x :: r => minLen x + sumLen r

/-- The length of a list of codes with commas. -/
def listLen (l : List (List Piece)) : Nat := minLen (writeList l)

theorem listLen_nil : listLen [] = 0 := rfl
theorem listLen_one (x : List Piece) : listLen [x] = minLen x := rfl
theorem listLen_cons (x : List Piece) (r : List (List Piece)) : listLen (x :: r) ≤ minLen x + 1 + listLen r := by
  cases r with
  | nil => simp [listLen, writeList, minLen]
  | cons y r => simp [listLen, writeList, minLen_append, minLen]; omega

theorem writeLines_len (l : List (List Piece)) : minLen (writeLines l) = sumLen l := by
  induction l with
  | nil => rfl
  | cons x l ih => simp [writeLines, minLen, minLen_append, sumLen, ih]
theorem writeBlock_len (l : List (List Piece)) : minLen (writeBlock l) = sumLen l := by
  cases l <;> simp [writeBlock, minLen, minLen_append, sumLen, writeLines_len]
theorem writeBraces_len (l : List (List Piece)) : minLen (writeBraces l) = sumLen l + 2 := by
  simp [writeBraces, minLen, minLen_append, writeBlock_len]; omega
theorem writeProps_len (x : List Piece) (l : List (List Piece)) : minLen x + minLen (writeProps l) = listLen (x :: l) := by
  induction l generalizing x with
  | nil => simp [writeProps, minLen, listLen_one]
  | cons y l ih =>
    have := ih y
    simp [writeProps, minLen, minLen_append, listLen, writeList] at this ⊢
    omega
theorem writeObject_len (l : List (List Piece)) : minLen (writeObject l) = listLen l + 2 := by
  cases l with
  | nil => rfl
  | cons x l =>
    have := writeProps_len x l
    simp [writeObject, minLen, minLen_append]
    omega
theorem flatten_len (l : List (List Piece)) : minLen l.flatten = sumLen l := by
  induction l <;> simp [minLen, minLen_append, sumLen, *]

/-- Parentheses cost two bytes. -/
theorem writeExpression_len (e : Expr) (ps : List Piece) (k : Nat) :
    minLen (writeExpression e ps k) = minLen ps + if e.bindingPower < k then 2 else 0 := by
  unfold writeExpression
  split <;> simp [minLen, minLen_append]
  omega

/-! ### The length of tokens -/

/-- A lower bound for the length of the text of a token. -/
def tokenBreadth : Token → Nat
  | .EndOfProgram | .UnexpectedToken | .TemplateOpen | .TemplateClosed => 0
  | t => max 1 (fixedText t).length

/-- What belongs to a token but not to its text: the dot in front of a name, the delimiters of templates. -/
def delimiters : Token → Nat
  | .Accessor => 1
  | .TemplateClosed => 2
  | .TemplateOpen => 3
  | _ => 0

/-- The length of an item. -/
def itemBreadth : Item → Nat
  | .tok t w _ => max w.length (tokenBreadth t) + delimiters t
  | .regex w _ => w.length + (if w.length = 0 then 1 else 0)
  | .resume c w => w.length + if c then 2 else 3

/-- The length of items. -/
def breadth : List Item → Nat
  | [] => 0
  | x :: i => itemBreadth x + breadth i

section
set_option linter.unusedSectionVars false
variable [Unicode]

theorem lexeme_breadth {t : Token} {p r : Bytes} (h : Lexeme t p r) : tokenBreadth t ≤ p.length := by
  have hpunct : ∀ x ∈ puncts, tokenBreadth x.2 ≤ x.1.length := by decide +kernel
  have hkey : ∀ x ∈ keywords, tokenBreadth x.2 ≤ x.1.length := by decide +kernel
  have h1 : ∀ t, fixedText t = [] → tokenBreadth t ≤ 1 := by
    intro t ht
    unfold tokenBreadth
    split <;> simp [ht]
  cases h with
  | eof => decide
  | punct h => exact hpunct _ h
  | @word c w r hc hw hr =>
    unfold wordToken
    cases hl : keywords.lookup (c :: w) with
    | none => exact Nat.le_trans (h1 .Identifier (by decide +kernel)) (by simp)
    | some t => exact hkey _ (Lex.mem_of_lookup hl)
  | number h =>
    refine Nat.le_trans (h1 _ (by decide +kernel)) (List.length_pos_iff.2 ?_)
    rintro rfl
    generalize hq : ([] : Bytes) = q at h
    cases h <;> simp at hq
    exact absurd hq.1 (by assumption)
  | templateClosed | templateOpen | badChar | badByte | badDots | badDot => simp [tokenBreadth]
  | _ => exact Nat.le_trans (h1 _ (by decide +kernel)) (by simp)

theorem spells_breadth {src : Bytes} {i : List Item} (h : Spells src i) : breadth i ≤ src.length := by
  induction h with
  | eof => simp [breadth]
  | @tok g p r b t i hg hp ht _ ih =>
    have := lexeme_breadth hp
    have hm : itemBreadth (.tok t p (asiBefore t b)) = p.length := by
      cases t <;> first | (cases ht; done) | (simp only [itemBreadth, delimiters]; omega)
    simp only [breadth, hm, List.length_append]
    omega
  | @accessor g s w r b c i _ _ _ _ _ _ ih =>
    have : tokenBreadth .Accessor = 1 := by decide +kernel
    simp [breadth, itemBreadth, delimiters, this]
    omega
  | @template g s r b closed i _ _ _ ih =>
    cases closed <;> simp [breadth, itemBreadth, delimiters, tplToken, tplEnd, tokenBreadth] <;> omega
  | @resume g s r b closed i _ _ _ ih =>
    cases closed <;> simp [breadth, itemBreadth, tplEnd] <;> omega
  | @regex g p f r b c i _ _ _ _ _ _ ih =>
    simp [breadth, itemBreadth]
    omega
end

theorem Spec.Tk.breadth {t : Token} {i j : List Item} (h : Tk t i j) : Ratel.breadth j + tokenBreadth t ≤ Ratel.breadth i := by
  obtain ⟨w, a, rfl⟩ := h
  simp only [Ratel.breadth, itemBreadth]
  omega

theorem Spec.Wd.breadth {t : Token} {w : Bytes} {i j : List Item} (h : Wd t w i j) :
    Ratel.breadth j + max w.length (tokenBreadth t) + delimiters t ≤ Ratel.breadth i := by
  obtain ⟨a, rfl⟩ := h
  simp only [Ratel.breadth, itemBreadth]
  omega

theorem Spec.Semi.breadth {i j : List Item} (h : Semi i j) : Ratel.breadth j ≤ Ratel.breadth i := by
  cases h <;> simp [Ratel.breadth]

theorem Spec.OptSemi.breadth {i j : List Item} (h : OptSemi i j) : Ratel.breadth j ≤ Ratel.breadth i := by
  cases h with
  | written h => have := h.breadth; omega
  | absent => exact Nat.le_refl _

theorem Spec.StarAt.breadth {i j : List Item} {g : Bool} (h : StarAt i g j) : Ratel.breadth j ≤ Ratel.breadth i := by
  cases h with
  | yes h => have := h.breadth; omega
  | no => exact Nat.le_refl _

theorem Spec.StaticAt.breadth {i j : List Item} {s : Bool} (h : StaticAt i s j) :
    minLen (if s then [.text bs!"static "] else []) + 2 * Ratel.breadth j ≤ 2 * Ratel.breadth i := by
  cases h with
  | yes h =>
    have := h.breadth
    have hs : tokenBreadth .Static = 6 := by decide +kernel
    simp [minLen]
    omega
  | no => simp [minLen]

/-- What the name of a function or class adds behind the keyword. -/
theorem Spec.NameAt.breadth {k : Naming} {n : Name} {i j : List Item} (h : NameAt k i n j) :
    minLen (codeName n) + 2 * Ratel.breadth j ≤ 2 * Ratel.breadth i := by
  have hs : tokenBreadth .Identifier = 1 := by decide +kernel
  cases h with
  | never => simp [codeName, minLen]
  | missing => simp [codeName, minLen]
  | given h | always h =>
    have := h.breadth
    simp only [codeName, minLen, List.length_cons, List.length_nil] at *
    omega

/-- The length of the keyword that may be in front. -/
def keywordLen (kw : Nat) : Naming → Nat
  | .never => 0
  | _ => kw

theorem Spec.NameAt.keyword {k : Naming} {n : Name} {i j : List Item} (h : NameAt k i n j) (kw : Bytes) :
    minLen (codeKeyword kw n) ≤ keywordLen kw.length k := by
  cases h <;> simp [codeKeyword, minLen, keywordLen]

/-! ### Imports -/

theorem Spec.ImportName.breadth {i j : List Item} {s : ImportSpec} (h : ImportName i s j) :
    s.isNamed = true ∧ minLen (codeImportSpec s) + 1 + 2 * Ratel.breadth j ≤ 2 * Ratel.breadth i := by
  have hs : tokenBreadth .Identifier = 1 := by decide +kernel
  cases h with
  | plain h =>
    have := h.breadth
    refine ⟨rfl, ?_⟩
    simp only [codeImportSpec, if_true, minLen] at *
    omega
  | renamed h h1 h2 =>
    have := h.breadth
    have := h1.breadth
    have := h2.breadth
    refine ⟨rfl, ?_⟩
    simp only [codeImportSpec] at *
    simp only [List.length_cons, List.length_nil] at *
    split <;> simp only [minLen, List.length_cons, List.length_nil] <;> omega

theorem Spec.ImportNames.breadth {i j : List Item} {ss : List ImportSpec} (h : ImportNames i ss j) :
    (∀ s ∈ ss, s.isNamed = true) ∧ listLen (ss.map codeImportSpec) + 1 + 2 * Ratel.breadth j ≤ 2 * Ratel.breadth i := by
  induction h with
  | last h h1 =>
    have := h.breadth
    have := h1.breadth
    refine ⟨by simp [*], ?_⟩
    simp only [List.map_cons, List.map_nil, listLen_one]
    omega
  | @more i m n j s ss h h1 _ ih =>
    have := h.breadth
    have := h1.breadth
    have hc : tokenBreadth .Comma = 1 := by decide +kernel
    refine ⟨by simp only [List.mem_cons, forall_eq_or_imp]; exact ⟨h.breadth.1, ih.1⟩, ?_⟩
    have := listLen_cons (codeImportSpec s) (ss.map codeImportSpec)
    rw [List.map_cons]
    omega

/-- The code between `import` and `from`. -/
def headLen (ss : List ImportSpec) : Nat :=
  minLen (writeList ((ss.filter fun s => !s.isNamed).map codeImportSpec) ++
    (if (ss.filter fun s => s.isNamed).isEmpty then [] else
      (if (ss.filter fun s => !s.isNamed).isEmpty then [] else [.text bs!","]) ++
      [.text bs!"{"] ++ writeList ((ss.filter fun s => s.isNamed).map codeImportSpec) ++ [.text bs!"}"]))

theorem headLen_named {ss : List ImportSpec} (h : ∀ s ∈ ss, s.isNamed = true) : headLen ss ≤ listLen (ss.map codeImportSpec) + 2 := by
  have h1 : (ss.filter fun s => !s.isNamed) = [] := by simp +contextual [List.filter_eq_nil_iff, h]
  have h2 : (ss.filter fun s => s.isNamed) = ss := List.filter_eq_self.2 h
  unfold headLen
  rw [h1, h2]
  simp only [List.map_nil, writeList, List.isEmpty_nil, if_true, List.nil_append]
  split
  · simp [minLen]
  · simp [minLen, minLen_append, listLen]; omega

theorem headLen_default (l : Loc) (n : Ident) (ss : List ImportSpec) : headLen (.default l n :: ss) ≤ n.name.length + 1 + headLen ss := by
  have h1 : ((ImportSpec.default l n :: ss).filter fun s => !s.isNamed) = .default l n :: ss.filter fun s => !s.isNamed := rfl
  have h2 : ((ImportSpec.default l n :: ss).filter fun s => s.isNamed) = ss.filter fun s => s.isNamed := rfl
  unfold headLen
  rw [h1, h2]
  generalize (ss.filter fun s => !s.isNamed) = a
  generalize (ss.filter fun s => s.isNamed) = b
  have hl : ∀ x : List (List Piece), minLen (writeList x) = listLen x := fun _ => rfl
  have h3 := listLen_cons (codeImportSpec (.default l n)) (a.map codeImportSpec)
  have h4 : minLen (codeImportSpec (.default l n)) = n.name.length := by simp [codeImportSpec, minLen]
  cases a with
  | nil =>
    simp only [List.map_cons, List.map_nil, listLen_one, listLen_nil] at h3 ⊢
    simp only [minLen_append, hl, listLen_one, h4, listLen_nil]
    split <;> simp [minLen, minLen_append] <;> omega
  | cons y a =>
    simp only [List.map_cons] at h3 ⊢
    simp only [minLen_append, hl, h4]
    split <;> simp [minLen, minLen_append] <;> omega

theorem Spec.ImportGroup.breadth {i j : List Item} {ss : List ImportSpec} (h : ImportGroup i ss j) :
    headLen ss + 1 + 2 * Ratel.breadth j ≤ 2 * Ratel.breadth i := by
  have hs : tokenBreadth .Identifier = 1 := by decide +kernel
  have hb : tokenBreadth .BraceOpen = 1 := by decide +kernel
  have hm : tokenBreadth .OperatorMultiplication = 1 := by decide +kernel
  cases h with
  | names h h1 =>
    have := h.breadth
    obtain ⟨h2, h3⟩ := h1.breadth
    have := headLen_named h2
    omega
  | @all _ _ _ w h h1 h2 =>
    have := h.breadth
    have := h1.breadth
    have := h2.breadth
    have : headLen [.namespace z ⟨z, w⟩] = 5 + w.length := by
      simp [headLen, ImportSpec.isNamed, codeImportSpec, writeList, minLen]
    simp only [List.length_cons, List.length_nil] at *
    omega

theorem Spec.ImportHead.breadth {i j : List Item} {ss : List ImportSpec} (h : ImportHead i ss j) :
    headLen ss + 1 + 2 * Ratel.breadth j ≤ 2 * Ratel.breadth i := by
  have hs : tokenBreadth .Identifier = 1 := by decide +kernel
  have hc : tokenBreadth .Comma = 1 := by decide +kernel
  cases h with
  | @one _ w h h' =>
    have := h.breadth
    have : headLen [.default z ⟨z, w⟩] = w.length := by simp [headLen, ImportSpec.isNamed, codeImportSpec, writeList, minLen]
    omega
  | @both _ _ _ w ss h h1 h2 =>
    have := h.breadth
    have := h1.breadth
    have := h2.breadth
    have := headLen_default z ⟨z, w⟩ ss
    dsimp only at *
    omega
  | group h => exact h.breadth

theorem codeImport_len (ss : List ImportSpec) (w : Bytes) : minLen (codeImport ss w) ≤ headLen ss + 15 + w.length := by
  unfold codeImport
  split
  · simp [minLen]; omega
  · simp only [headLen, minLen_append, minLen, List.length_cons, List.length_nil, List.append_assoc]
    omega

/-! ### Phrases -/

theorem breadth_Semicolon : tokenBreadth .Semicolon = 1 := by decide +kernel
theorem breadth_Colon : tokenBreadth .Colon = 1 := by decide +kernel
theorem breadth_Comma : tokenBreadth .Comma = 1 := by decide +kernel
theorem breadth_ParenOpen : tokenBreadth .ParenOpen = 1 := by decide +kernel
theorem breadth_ParenClose : tokenBreadth .ParenClose = 1 := by decide +kernel
theorem breadth_BracketOpen : tokenBreadth .BracketOpen = 1 := by decide +kernel
theorem breadth_BracketClose : tokenBreadth .BracketClose = 1 := by decide +kernel
theorem breadth_BraceOpen : tokenBreadth .BraceOpen = 1 := by decide +kernel
theorem breadth_BraceClose : tokenBreadth .BraceClose = 1 := by decide +kernel
theorem breadth_OperatorFatArrow : tokenBreadth .OperatorFatArrow = 2 := by decide +kernel
theorem breadth_OperatorConditional : tokenBreadth .OperatorConditional = 1 := by decide +kernel
theorem breadth_OperatorAssign : tokenBreadth .OperatorAssign = 1 := by decide +kernel
theorem breadth_OperatorSpread : tokenBreadth .OperatorSpread = 3 := by decide +kernel
theorem breadth_OperatorMultiplication : tokenBreadth .OperatorMultiplication = 1 := by decide +kernel
theorem breadth_OperatorIn : tokenBreadth .OperatorIn = 2 := by decide +kernel
theorem breadth_OperatorNew : tokenBreadth .OperatorNew = 3 := by decide +kernel
theorem breadth_This : tokenBreadth .This = 4 := by decide +kernel
theorem breadth_Function : tokenBreadth .Function = 8 := by decide +kernel
theorem breadth_Class : tokenBreadth .Class = 5 := by decide +kernel
theorem breadth_Extends : tokenBreadth .Extends = 7 := by decide +kernel
theorem breadth_Identifier : tokenBreadth .Identifier = 1 := by decide +kernel
theorem breadth_Accessor : tokenBreadth .Accessor = 1 := by decide +kernel
theorem breadth_LiteralString : tokenBreadth .LiteralString = 1 := by decide +kernel
theorem breadth_LiteralNumber : tokenBreadth .LiteralNumber = 1 := by decide +kernel
theorem breadth_LiteralBinary : tokenBreadth .LiteralBinary = 1 := by decide +kernel
theorem breadth_TemplateOpen : tokenBreadth .TemplateOpen = 0 := by decide +kernel
theorem breadth_TemplateClosed : tokenBreadth .TemplateClosed = 0 := by decide +kernel
theorem breadth_Static : tokenBreadth .Static = 6 := by decide +kernel
theorem breadth_Debugger : tokenBreadth .Debugger = 8 := by decide +kernel
theorem breadth_Return : tokenBreadth .Return = 6 := by decide +kernel
theorem breadth_Break : tokenBreadth .Break = 5 := by decide +kernel
theorem breadth_Continue : tokenBreadth .Continue = 8 := by decide +kernel
theorem breadth_Throw : tokenBreadth .Throw = 5 := by decide +kernel
theorem breadth_If : tokenBreadth .If = 2 := by decide +kernel
theorem breadth_Else : tokenBreadth .Else = 4 := by decide +kernel
theorem breadth_While : tokenBreadth .While = 5 := by decide +kernel
theorem breadth_Do : tokenBreadth .Do = 2 := by decide +kernel
theorem breadth_For : tokenBreadth .For = 3 := by decide +kernel
theorem breadth_Try : tokenBreadth .Try = 3 := by decide +kernel
theorem breadth_Catch : tokenBreadth .Catch = 5 := by decide +kernel
theorem breadth_Finally : tokenBreadth .Finally = 7 := by decide +kernel
theorem breadth_Switch : tokenBreadth .Switch = 6 := by decide +kernel
theorem breadth_Case : tokenBreadth .Case = 4 := by decide +kernel
theorem breadth_Default : tokenBreadth .Default = 7 := by decide +kernel
theorem breadth_Import : tokenBreadth .Import = 6 := by decide +kernel

/-- Two bytes for parentheses, if the expression needs them where an expression of power `k` is expected, or in a statement. -/
def parenLen (i : List Item) (k : Nat) (e : Expr) : Nat :=
  if e.bindingPower < min k 15 ∨ (e.isAllowedAsBareStatement = false ∧ look i ≠ .BraceOpen ∧ look i ≠ .Function ∧ look i ≠ .Class) then 2 else 0

/-- The length of the code of a phrase, with something to spare; without what stands in front of the items of the phrase. -/
def spent (i : List Item) : Phrase → Nat
  | .expr k e | .whole k e => minLen (codeExpr e) + 1 + parenLen i k e
  | .commaTail es => listLen (codeExprs es) + 1
  | .arg e => minLen (codeExpr e) + 1
  | .args es => listLen (codeExprs es)
  | .elem e => minLen (codeExpr e)
  | .elems es => listLen (codeExprs es)
  | .template es qs => minLen (writeTemplate qs (codeExprs es)) + 3
  | .templateTail es qs => match qs with
    | q :: qs => q.name.length + minLen (writeTemplateRest qs (codeExprs es)) + 2
    | [] => 0
  | .prop p => minLen (codeProperty p) + 1
  | .props ps => listLen (codeProperties ps)
  | .propValue k p => minLen (codeProperty p) - minLen (codeKey k)
  | .pat p => minLen (codePattern p) + 1
  | .param p => minLen (codePattern p) + 1
  | .params ps => listLen (codePatterns ps)
  | .patElem p => minLen (codePattern p)
  | .patElems ps => listLen (codePatterns ps)
  | .func k f => minLen (codeFunc f) - keywordLen 8 k
  | .cls k c => minLen (codeClass c) - keywordLen 5 k
  | .member m => minLen (codeMember m)
  | .memberValue s kd k m => minLen (codeMember m) - minLen (codeKey k) - minLen (codeMethodPrefix s kd)
  | .membersTail ms => sumLen (codeMembers ms)
  | .block b => minLen (codeBlock b)
  | .stmtsTail ss => sumLen (codeStmts ss)
  | .stmt s => minLen (codeStmt s)
  | .declarator d => minLen (codeDeclarator d) + 1
  | .declarators ds => listLen (codeDeclarators ds) + 1
  | .optExpr t e => (match e with | some e => minLen (codeExpr e) + 1 | none => 0) + min 1 (tokenBreadth t)
  | .forInit i => minLen (codeForInit i)
  | .switchCase c => minLen (codeCase c)
  | .cases cs => sumLen (codeCases cs)
  | .caseBody ss => sumLen (codeStmts ss)
  | .catch c => minLen (codeCatch c)
  | .program ss => sumLen (codeStmts ss)

theorem parenLen_le (i : List Item) (k : Nat) (e : Expr) : parenLen i k e ≤ 2 := by
  unfold parenLen
  split <;> omega

theorem writeExpression_le (e : Expr) (i : List Item) (k bp : Nat) (h : bp ≤ min k 15) :
    minLen (writeExpression e (codeExpr e) bp) ≤ minLen (codeExpr e) + parenLen i k e := by
  rw [writeExpression_len]
  unfold parenLen
  split
  · rw [if_pos (.inl (by omega))]
    exact Nat.le_refl _
  · omega

/-- No parentheses for an expression of high power. -/
theorem parenLen_zero {i : List Item} {k : Nat} {e : Expr} (h1 : 15 ≤ e.bindingPower) (h2 : e.isAllowedAsBareStatement = true) :
    parenLen i k e = 0 := by
  unfold parenLen
  rw [if_neg]
  rw [h2]
  rintro (h | h)
  · omega
  · exact absurd h.1 (by decide)

theorem op_len {t : Token} {op : Op} {p : Nat} (h : binaryOp t = some (op, p)) :
    op.asStr.length ≤ tokenBreadth t ∧ op.bindingPower ≤ p ∧ p ≤ 15 ∧ op.bindingPower ≤ 14 ∧
    (op.bindingPower < p → op.bindingPower + 1 = p ∧ op.asStr.length = 2 ∧ op.category = .Safe) ∧
    (op.category = .Word → 2 ≤ op.asStr.length) ∧ 1 ≤ op.asStr.length := by
  revert h
  revert op p
  have : ∀ t : Token, (match binaryOp t with
    | none => true
    | some (op, p) => decide (op.asStr.length ≤ tokenBreadth t ∧ op.bindingPower ≤ p ∧ p ≤ 15 ∧ op.bindingPower ≤ 14 ∧
      (op.bindingPower < p → op.bindingPower + 1 = p ∧ op.asStr.length = 2 ∧ op.category = .Safe) ∧
      (op.category = .Word → 2 ≤ op.asStr.length) ∧ 1 ≤ op.asStr.length)) = true := forall_token (by decide +kernel)
  intro op p h
  have := this t
  rw [h] at this
  exact of_decide_eq_true this

theorem assign_len {t : Token} {op : Op} (h : assignOp t = some op) :
    op.asStr.length ≤ tokenBreadth t ∧ op.bindingPower = 3 ∧ op.category = .Safe ∧ 1 ≤ op.asStr.length := by
  revert h
  revert op
  have : ∀ t : Token, (match assignOp t with
    | none => true
    | some op => decide (op.asStr.length ≤ tokenBreadth t ∧ op.bindingPower = 3 ∧ op.category = .Safe ∧ 1 ≤ op.asStr.length)) = true :=
    forall_token (by decide +kernel)
  intro op h
  have := this t
  rw [h] at this
  exact of_decide_eq_true this

theorem prefix_len {t : Token} {op : Op} (h : prefixOp t = some op) :
    op.asStr.length ≤ tokenBreadth t ∧ 1 ≤ op.asStr.length := by
  revert h
  revert op
  have : ∀ t : Token, (match prefixOp t with
    | none => true
    | some op => decide (op.asStr.length ≤ tokenBreadth t ∧ 1 ≤ op.asStr.length)) = true := forall_token (by decide +kernel)
  intro op h
  have := this t
  rw [h] at this
  exact of_decide_eq_true this

theorem postfix_len {t : Token} {op : Op} (h : postfixOp t = some op) :
    op.asStr.length ≤ tokenBreadth t ∧ op.bindingPower = 16 := by
  revert h
  revert op
  have : ∀ t : Token, (match postfixOp t with
    | none => true
    | some op => decide (op.asStr.length ≤ tokenBreadth t ∧ op.bindingPower = 16)) = true := forall_token (by decide +kernel)
  intro op h
  have := this t
  rw [h] at this
  exact of_decide_eq_true this

theorem kind_len {t : Token} {k : DeclKind} (h : declKindOf t = some k) : minLen (codeKind k) ≤ tokenBreadth t + 1 := by
  revert h
  revert k
  have : ∀ t : Token, (match declKindOf t with
    | none => true
    | some k => decide (minLen (codeKind k) ≤ tokenBreadth t + 1)) = true := forall_token (by decide +kernel)
  intro op h
  have := this t
  rw [h] at this
  exact of_decide_eq_true this

theorem kind_breadth {t : Token} {k : DeclKind} (h : declKindOf t = some k) : 3 ≤ tokenBreadth t := by
  revert h
  revert k
  have : ∀ t : Token, (match declKindOf t with
    | none => true
    | some _ => decide (3 ≤ tokenBreadth t)) = true := forall_token (by decide +kernel)
  intro op h
  have := this t
  rw [h] at this
  exact of_decide_eq_true this

theorem word_breadth {t : Token} (h : t.isWord = true) : 1 ≤ tokenBreadth t := by
  revert h
  have : ∀ t : Token, (!t.isWord || decide (1 ≤ tokenBreadth t)) = true := forall_token (by decide +kernel)
  intro h
  have := this t
  rw [h] at this
  exact of_decide_eq_true this

theorem literal_len {t : Token} {w : Bytes} {v : Literal} (h : literalOf t w = some v) :
    minLen (codeLiteral v) ≤ max w.length (tokenBreadth t) ∧ 1 ≤ tokenBreadth t := by
  unfold literalOf at h
  split at h <;> cases h
  · exact ⟨Nat.le_trans (by decide +kernel : _ ≤ tokenBreadth .LiteralTrue) (by omega), by decide +kernel⟩
  · exact ⟨Nat.le_trans (by decide +kernel : _ ≤ tokenBreadth .LiteralFalse) (by omega), by decide +kernel⟩
  · exact ⟨Nat.le_trans (by decide +kernel : _ ≤ tokenBreadth .LiteralNull) (by omega), by decide +kernel⟩
  · exact ⟨Nat.le_trans (by decide +kernel : _ ≤ tokenBreadth .LiteralUndefined) (by omega), by decide +kernel⟩
  · exact ⟨by simp [codeLiteral, minLen]; omega, by decide +kernel⟩
  · exact ⟨by simp [codeLiteral, minLen]; omega, by decide +kernel⟩
  · exact ⟨by simp [codeLiteral, minLen]; omega, by decide +kernel⟩

/-- The blanks around an operator. -/
theorem space_len (b : Bool) (ps : List Piece) : minLen (space b :: ps) = (if b then 1 else 0) + minLen ps := by
  cases b <;> simp [space, minLen]
theorem spacing_safe {op : Op} (h : op.category = .Safe) (a b : Expr) : binarySpacing op a b = (false, false) := by
  unfold binarySpacing
  rw [h]

/-! Parameters of arrow functions are read as expressions. -/

theorem param_len : ∀ {e : Expr} {p : Pattern}, paramOf e = some p → minLen (codePattern p) ≤ minLen (codeExpr e)
  | .ident l n, p, h => by
    cases h
    simp [codePattern, codeExpr]
  | .binary l op a b, p, h => by
    by_cases ho : op = .Assign
    · subst ho
      rw [paramOf] at h
      cases ha : paramOf a with
      | none => rw [ha] at h; cases h
      | some q =>
        rw [ha] at h
        cases h
        have := param_len ha
        simp only [codePattern, codeExpr, minLen_append, writeExpression_len, minLen, space_len, List.length_cons, List.length_nil]
        have : Op.asStr .Assign = bs!"=" := rfl
        rw [this]
        simp only [List.length_cons, List.length_nil]
        omega
    · cases op <;> first | exact absurd rfl ho | (cases h; done)
  | .void .., _, h | .this .., _, h | .lit .., _, h | .seq .., _, h | .array .., _, h | .member .., _, h | .cmember .., _, h
  | .metaProp .., _, h | .call .., _, h | .prefix .., _, h | .postfix .., _, h | .cond .., _, h | .template .., _, h
  | .tagged .., _, h | .spread .., _, h | .arrowE .., _, h | .arrowB .., _, h | .object .., _, h | .function .., _, h
  | .class .., _, h => by cases h

theorem params_list {es : List Expr} : ∀ {ps : List Pattern}, es.mapM paramOf = some ps → listLen (codePatterns ps) ≤ listLen (codeExprs es) := by
  induction es with
  | nil =>
    intro ps h
    cases h
    exact Nat.le_refl _
  | cons e es ih =>
    intro ps h
    rw [List.mapM_cons] at h
    cases he : paramOf e with
    | none => rw [he] at h; cases h
    | some p =>
      cases hs : es.mapM paramOf with
      | none => rw [he, hs] at h; cases h
      | some qs =>
        rw [he, hs] at h
        cases h
        have h1 := param_len he
        have h2 := ih hs
        cases es with
        | nil =>
          cases hs
          exact h1
        | cons e' es' =>
          cases qs with
          | nil =>
            rw [List.mapM_cons] at hs
            cases he' : paramOf e' with
            | none => rw [he'] at hs; cases hs
            | some p' =>
              cases hs' : es'.mapM paramOf with
              | none => rw [he', hs'] at hs; cases hs
              | some qs' => rw [he', hs'] at hs; cases hs
          | cons q qs =>
            simp only [codePatterns, codeExprs, listLen, writeList, minLen_append, minLen, List.length_cons, List.length_nil] at h2 ⊢
            omega

/-- The code of the parameters, with parentheses if needed. -/
def arrowParams (ps : List Pattern) : List Piece :=
  match onlyIdent ps with
  | some n => [.text n]
  | none => [.text bs!"("] ++ writeList (codePatterns ps) ++ [.text bs!")"]

theorem arrowParams_len {e : Expr} {ps : List Pattern} (h : paramsOf e = some ps) (i : List Item) :
    minLen (arrowParams ps) ≤ minLen (codeExpr e) + parenLen i 17 e := by
  have hl : ∀ x : List (List Piece), minLen (writeList x) = listLen x := fun _ => rfl
  have key : ∀ m : Nat, listLen (codePatterns ps) ≤ m → (e.bindingPower < 15 ∨ onlyIdent ps ≠ none) → m = minLen (codeExpr e) →
      minLen (arrowParams ps) ≤ minLen (codeExpr e) + parenLen i 17 e := by
    intro m h1 h2 h3
    unfold arrowParams
    split
    · rename_i n hn
      have : listLen (codePatterns ps) = n.length := by
        unfold onlyIdent at hn
        split at hn
        · cases hn; simp [codePatterns, codePattern, listLen_one, minLen]
        · cases hn
      simp only [minLen]
      omega
    · rename_i hn
      rcases h2 with h2 | h2
      · have : parenLen i 17 e = 2 := by
          unfold parenLen
          rw [if_pos (.inl (by omega))]
        simp only [minLen_append, minLen, hl, List.length_cons, List.length_nil]
        omega
      · exact absurd hn h2
  have one : ∀ p, paramOf e = some p → ps = [p] → (e.bindingPower < 15 ∨ onlyIdent ps ≠ none) →
      minLen (arrowParams ps) ≤ minLen (codeExpr e) + parenLen i 17 e := by
    intro p hp hps hx
    refine key _ ?_ hx rfl
    rw [hps]
    exact param_len hp
  unfold paramsOf at h
  split at h
  · exact key _ (params_list h) (.inl (by simp [Expr.bindingPower])) rfl
  · cases hp : paramOf e with
    | none => rw [hp] at h; cases h
    | some p =>
      rw [hp] at h
      cases h
      refine one p hp rfl ?_
      cases e with
      | ident l n => cases hp; exact .inr (by simp [onlyIdent])
      | binary l op a b =>
        by_cases ho : op = .Assign
        · subst ho; exact .inl (by simp [Expr.bindingPower, Op.bindingPower])
        · cases op <;> first | exact absurd rfl ho | (cases hp; done)
      | _ => cases hp

theorem codeArrowE_len (l : Loc) (ps : List Pattern) (b : Expr) :
    minLen (codeExpr (.arrowE l ps b)) = minLen (arrowParams ps) + 2 + minLen (codeExpr b) := by
  have : codeExpr (.arrowE l ps b) = arrowParams ps ++ [pSp, .text bs!"=>", pSp] ++ codeExpr b := by
    rw [codeExpr, arrowParams]
    cases onlyIdent ps <;> rfl
  rw [this]
  simp only [minLen_append, minLen, List.length_cons, List.length_nil]
theorem codeArrowB_len (l : Loc) (ps : List Pattern) (b : Block) :
    minLen (codeExpr (.arrowB l ps b)) = minLen (arrowParams ps) + 2 + minLen (codeBlock b) := by
  have : codeExpr (.arrowB l ps b) = arrowParams ps ++ [pSp, .text bs!"=>", pSp] ++ codeBlock b := by
    rw [codeExpr, arrowParams]
    cases onlyIdent ps <;> rfl
  rw [this]
  simp only [minLen_append, minLen, List.length_cons, List.length_nil]

theorem parenLen_of {i : List Item} {k : Nat} {e : Expr} (h1 : min k 15 ≤ e.bindingPower)
    (h2 : e.isAllowedAsBareStatement = true ∨ look i = .BraceOpen ∨ look i = .Function ∨ look i = .Class) : parenLen i k e = 0 := by
  unfold parenLen
  rw [if_neg]
  rintro (h | ⟨h3, h4, h5, h6⟩)
  · omega
  · rcases h2 with h2 | h2 | h2 | h2
    · rw [h2] at h3; cases h3
    · exact h4 h2
    · exact h5 h2
    · exact h6 h2
theorem tk_look {t : Token} {i j : List Item} (h : Tk t i j) : look i = t := by
  obtain ⟨w, a, rfl⟩ := h
  rfl

/-- The code of an expression as a target needs no parentheses. -/
theorem target_power {e : Expr} (h : target e = true) : 15 ≤ e.bindingPower := by
  cases e <;> first | (cases h; done) | simp [Expr.bindingPower]

theorem writeList_len (l : List (List Piece)) : minLen (writeList l) = listLen l := rfl

theorem codeExprs_list (e : Expr) (es : List Expr) : listLen (codeExprs (e :: es)) ≤ minLen (codeExpr e) + 1 + listLen (codeExprs es) := listLen_cons _ _
theorem codePatterns_list (e : Pattern) (es : List Pattern) : listLen (codePatterns (e :: es)) ≤ minLen (codePattern e) + 1 + listLen (codePatterns es) := listLen_cons _ _
theorem codeProperties_list (e : Property) (es : List Property) : listLen (codeProperties (e :: es)) ≤ minLen (codeProperty e) + 1 + listLen (codeProperties es) := listLen_cons _ _
theorem codeDeclarators_list (e : Declarator) (es : List Declarator) : listLen (codeDeclarators (e :: es)) ≤ minLen (codeDeclarator e) + 1 + listLen (codeDeclarators es) := listLen_cons _ _

theorem space_le (b : Bool) : minLen [space b] ≤ 1 := by cases b <;> simp [space, minLen]

theorem unquoted_len (w : Bytes) (h : 2 ≤ w.length) : (unquoted w).length + 2 = w.length := by
  simp [unquoted]
  omega

/-- The parts between the expressions of a template. -/
theorem template_len (q : Ident) (qs : List Ident) (es : List (List Piece)) :
    minLen (writeTemplate (q :: qs) es) = q.name.length + minLen (writeTemplateRest qs es) := by
  cases qs with
  | nil => cases es <;> simp [writeTemplate, writeTemplateRest, minLen]
  | cons q' qs => simp [writeTemplate, minLen]

theorem optional_len (x : Option Expr) : minLen (match (motive := Option Expr → List Piece) x with | some e => codeExpr e | none => []) ≤
    match x with | some e => minLen (codeExpr e) + 1 | none => 0 := by
  cases x <;> simp [minLen]

macro "spend" : tactic => `(tactic| (
  simp only [spent, codeExpr, codeExprs, codeKey, codeProperty, codeProperties, codePattern, codePatterns, codeFunc, codeClass, codeMember,
    codeMembers, codeBlock, codeStmt, codeStmts, codeDeclarator, codeDeclarators, codeForInit, codeCase, codeCases, codeCatch, codeJump,
    writeList_len, writeBraces_len, writeObject_len, writeBlock_len, minLen_append, minLen, listLen_nil, listLen_one, sumLen,
    List.length_cons, List.length_nil, List.length_append, keywordLen] at *
  try omega))

theorem spent_le {i j : List Item} {x : Phrase} (h : G i x j) : spent i x + 2 * breadth j ≤ 2 * breadth i := by
  induction h with
  | @whole i j k e h h' ih =>
    exact ih
  | @ident i j k w hk h  =>
    have th := h.breadth
    simp only [breadth_Identifier, delimiters, List.length_cons, List.length_nil] at th
    have z0 : ∀ k, parenLen i k (.ident z w) = 0 := fun k => parenLen_of (by simp only [Expr.bindingPower]; omega) (.inl rfl)
    simp only [spent, z0]
    spend
  | @«this» i j k hk h  =>
    have th := h.breadth
    simp only [breadth_This, delimiters, List.length_cons, List.length_nil] at th
    have z0 : ∀ k, parenLen i k (.this z) = 0 := fun k => parenLen_of (by simp only [Expr.bindingPower]; omega) (.inl rfl)
    simp only [spent, z0]
    spend
  | @lit i j k t w v hk h hv  =>
    have th := h.breadth
    have hl := literal_len hv
    have z0 : ∀ k, parenLen i k (.lit z v) = 0 := fun k => parenLen_of (by simp only [Expr.bindingPower]; omega) (.inl rfl)
    simp only [spent, z0]
    spend
  | @regex j k w a hk  =>
    have z0 : parenLen (.regex w a :: j) k (.lit z (.RegEx w)) = 0 := parenLen_of (by simp only [Expr.bindingPower]; omega) (.inl rfl)
    simp only [spent, z0, breadth, itemBreadth, codeExpr, codeLiteral, minLen]
    by_cases hw : w.length = 0
    · rw [if_pos hw]
      omega
    · rw [if_neg hw]
      omega
  | @array i m n j k es hk h h0 h1 h2 ih1 =>
    have th := h.breadth
    simp only [breadth_BracketOpen, delimiters, List.length_cons, List.length_nil] at th
    have th2 := h2.breadth
    simp only [breadth_BracketClose, delimiters, List.length_cons, List.length_nil] at th2
    have z0 : ∀ k, parenLen i k (.array z es) = 0 := fun k => parenLen_of (by simp only [Expr.bindingPower]; omega) (.inl rfl)
    simp only [spent, z0]
    spend
  | @emptyArray i m j k hk h h2  =>
    have th := h.breadth
    simp only [breadth_BracketOpen, delimiters, List.length_cons, List.length_nil] at th
    have th2 := h2.breadth
    simp only [breadth_BracketClose, delimiters, List.length_cons, List.length_nil] at th2
    have z0 : ∀ k, parenLen i k (.array z []) = 0 := fun k => parenLen_of (by simp only [Expr.bindingPower]; omega) (.inl rfl)
    simp only [spent, z0]
    spend
  | @object i m n j k ps hk h h1 h2 ih1 =>
    have th := h.breadth
    simp only [breadth_BraceOpen, delimiters, List.length_cons, List.length_nil] at th
    have th2 := h2.breadth
    simp only [breadth_BraceClose, delimiters, List.length_cons, List.length_nil] at th2
    have z0 : ∀ k, parenLen i k (.object z ps) = 0 := fun k => parenLen_of (by simp only [Expr.bindingPower]; omega) (.inr (.inl (tk_look h)))
    simp only [spent, z0]
    spend
  | @«function» i m j k f hk h h1 ih1 =>
    have th := h.breadth
    simp only [breadth_Function, delimiters, List.length_cons, List.length_nil] at th
    have z0 : ∀ k, parenLen i k (.function z f) = 0 := fun k => parenLen_of (by simp only [Expr.bindingPower]; omega) (.inr (.inr (.inl (tk_look h))))
    simp only [spent, z0]
    spend
  | @«class» i m j k c hk h h1 ih1 =>
    have th := h.breadth
    simp only [breadth_Class, delimiters, List.length_cons, List.length_nil] at th
    have z0 : ∀ k, parenLen i k (.class z c) = 0 := fun k => parenLen_of (by simp only [Expr.bindingPower]; omega) (.inr (.inr (.inr (tk_look h))))
    simp only [spent, z0]
    spend
  | @«template» i j k es qs hk h ih =>
    have z0 : ∀ k, parenLen i k (.template z es qs) = 0 := fun k => parenLen_of (by simp only [Expr.bindingPower]; omega) (.inl rfl)
    simp only [spent, z0]
    spend
  | @paren i m n j k e hk h h1 h2 ih1 =>
    have th := h.breadth
    simp only [breadth_ParenOpen, delimiters, List.length_cons, List.length_nil] at th
    have th2 := h2.breadth
    simp only [breadth_ParenClose, delimiters, List.length_cons, List.length_nil] at th2
    have := parenLen_le i k e
    simp only [spent] at *
    omega
  | @newTarget i m j k hk h h1  =>
    have th := h.breadth
    simp only [breadth_OperatorNew, delimiters, List.length_cons, List.length_nil] at th
    have th1 := h1.breadth
    simp only [breadth_Accessor, delimiters, List.length_cons, List.length_nil] at th1
    have z0 : ∀ k, parenLen i k (.metaProp z ⟨z, bs!"new"⟩ ⟨z, bs!"target"⟩) = 0 := fun k => parenLen_of (by simp only [Expr.bindingPower]; omega) (.inl rfl)
    simp only [spent, z0]
    spend
  | @member i m j k e w hk h h1 ih =>
    have th1 := h1.breadth
    simp only [breadth_Accessor, delimiters, List.length_cons, List.length_nil] at th1
    have z0 : ∀ k, parenLen i k (.member z e ⟨z, w⟩) = 0 := fun k => parenLen_of (by simp only [Expr.bindingPower]; omega) (.inl rfl)
    simp only [spent, z0]
    simp only [spent, codeExpr, minLen_append, writeExpression_len] at *
    split <;> spend
  | @index i m n o j k e p hk h h1 h2 h3 ih ih2 =>
    have th1 := h1.breadth
    simp only [breadth_BracketOpen, delimiters, List.length_cons, List.length_nil] at th1
    have th3 := h3.breadth
    simp only [breadth_BracketClose, delimiters, List.length_cons, List.length_nil] at th3
    have z0 : ∀ k, parenLen i k (.cmember z e p) = 0 := fun k => parenLen_of (by simp only [Expr.bindingPower]; omega) (.inl rfl)
    simp only [spent, z0]
    simp only [spent, codeExpr, minLen_append, writeExpression_len] at *
    split <;> spend
  | @call i m n o j k e es hk h h1 h2 h3 ih ih2 =>
    have th1 := h1.breadth
    simp only [breadth_ParenOpen, delimiters, List.length_cons, List.length_nil] at th1
    have th3 := h3.breadth
    simp only [breadth_ParenClose, delimiters, List.length_cons, List.length_nil] at th3
    have z0 : ∀ k, parenLen i k (.call z e es) = 0 := fun k => parenLen_of (by simp only [Expr.bindingPower]; omega) (.inl rfl)
    simp only [spent, z0]
    spend
  | @tagged i m j k e es qs hk h h1 ih ih1 =>
    have z0 : ∀ k, parenLen i k (.tagged z e z es qs) = 0 := fun k => parenLen_of (by simp only [Expr.bindingPower]; omega) (.inl rfl)
    simp only [spent, z0]
    spend
  | @«postfix» i j k e t w a op hk h he hop ha ih =>
    obtain ⟨o1, o2⟩ := postfix_len hop
    have z0 : parenLen i k (.postfix z op e) = 0 := parenLen_of (by simp only [Expr.bindingPower]; omega) (.inl rfl)
    simp only [spent, z0, breadth, itemBreadth] at *
    spend
  | @arrow i m n j k e ps b hk h hp h1 hb h2 ih ih2 =>
    have th1 := h1.breadth
    simp only [breadth_OperatorFatArrow, delimiters, List.length_cons, List.length_nil] at th1
    have hp' := arrowParams_len hp i
    have z0 : parenLen i k (.arrowE z ps b) = 0 := parenLen_of (by simp only [Expr.bindingPower]; omega) (.inl rfl)
    simp only [spent, z0, codeArrowE_len] at *
    omega
  | @arrowBlock i m n j k e ps b hk h hp h1 h2 ih ih2 =>
    have th1 := h1.breadth
    simp only [breadth_OperatorFatArrow, delimiters, List.length_cons, List.length_nil] at th1
    have hp' := arrowParams_len hp i
    have z0 : parenLen i k (.arrowB z ps b) = 0 := parenLen_of (by simp only [Expr.bindingPower]; omega) (.inl rfl)
    simp only [spent, z0, codeArrowB_len] at *
    omega
  | @arrow0 i m n o j k b hk h h0 h1 hb h2 ih2 =>
    have th := h.breadth
    simp only [breadth_ParenOpen, delimiters, List.length_cons, List.length_nil] at th
    have th0 := h0.breadth
    simp only [breadth_ParenClose, delimiters, List.length_cons, List.length_nil] at th0
    have th1 := h1.breadth
    simp only [breadth_OperatorFatArrow, delimiters, List.length_cons, List.length_nil] at th1
    have hp' : minLen (arrowParams []) = 2 := rfl
    have z0 : parenLen i k (.arrowE z [] b) = 0 := parenLen_of (by simp only [Expr.bindingPower]; omega) (.inl rfl)
    simp only [spent, z0, codeArrowE_len] at *
    omega
  | @arrowBlock0 i m n o j k b hk h h0 h1 h2 ih2 =>
    have th := h.breadth
    simp only [breadth_ParenOpen, delimiters, List.length_cons, List.length_nil] at th
    have th0 := h0.breadth
    simp only [breadth_ParenClose, delimiters, List.length_cons, List.length_nil] at th0
    have th1 := h1.breadth
    simp only [breadth_OperatorFatArrow, delimiters, List.length_cons, List.length_nil] at th1
    have hp' : minLen (arrowParams []) = 2 := rfl
    have z0 : parenLen i k (.arrowB z [] b) = 0 := parenLen_of (by simp only [Expr.bindingPower]; omega) (.inl rfl)
    simp only [spent, z0, codeArrowB_len] at *
    omega
  | @«prefix» i m j k t op e hk h hop h1 ih1 =>
    have th := h.breadth
    have o1 := prefix_len hop
    have z0 : parenLen i k (.prefix z op e) = 0 := parenLen_of (by simp only [Expr.bindingPower]; omega) (.inl rfl)
    simp only [spent, z0, codeExpr, minLen_append] at *
    split <;> spend
  | @«new» i m j k e hk h hm h1 ih1 =>
    have th := h.breadth
    simp only [breadth_OperatorNew, delimiters, List.length_cons, List.length_nil] at th
    have z0 : parenLen i k (.prefix z .New e) = 0 := parenLen_of (by simp only [Expr.bindingPower]; omega) (.inl rfl)
    simp only [spent, z0, codeExpr, minLen_append, show Op.asStr .New = bs!"new" from rfl, show Op.category .New = .Word from rfl, if_true] at *
    spend
  | @binary i m n j k t op p a b hop hk h h1 h2 ih ih2 =>
    have th1 := h1.breadth
    obtain ⟨o1, o2, o3, o4, o5, o6, o7⟩ := op_len hop
    have a1 := writeExpression_le a i p op.bindingPower (by omega)
    have b1 := writeExpression_le b n (p + 1) (op.bindingPower + 1) (by omega)
    have z0 : parenLen i k (.binary z op a b) = if op.bindingPower < min k 15 then 2 else 0 := by
      simp [parenLen, Expr.bindingPower, Expr.isAllowedAsBareStatement]
    simp only [spent, z0, codeExpr, minLen_append, space_len, minLen] at *
    by_cases hb : op.bindingPower < p
    · rw [spacing_safe (o5 hb).2.2]
      simp only [Bool.false_eq_true, if_false]
      have := o5 hb
      split <;> omega
    · have hk' : ¬ op.bindingPower < min k 15 := by omega
      simp only [hk', if_false]
      split <;> split <;> omega
  | @cond i m n o q j k a b c hk h h1 h2 h3 h4 ih ih2 ih4 =>
    have th1 := h1.breadth
    simp only [breadth_OperatorConditional, delimiters, List.length_cons, List.length_nil] at th1
    have th3 := h3.breadth
    simp only [breadth_Colon, delimiters, List.length_cons, List.length_nil] at th3
    have z0 : parenLen i k (.cond z a b c) = 0 := parenLen_of (by simp only [Expr.bindingPower]; omega) (.inl rfl)
    simp only [spent, z0] at *
    spend
  | @assign i m n j k t op a b hk h ha h1 hop h2 ih ih2 =>
    have th1 := h1.breadth
    obtain ⟨o1, o2, o3, o4⟩ := assign_len hop
    have a1 := writeExpression_len a (codeExpr a) op.bindingPower
    have b1 := writeExpression_len b (codeExpr b) (op.bindingPower + 1)
    have := target_power ha
    rw [if_neg (by omega)] at a1
    have z0 : parenLen i k (.binary z op a b) = 0 := parenLen_of (by simp only [Expr.bindingPower]; omega) (.inl rfl)
    simp only [spent, z0, codeExpr, minLen_append, space_len, minLen, spacing_safe o3, Bool.false_eq_true, if_false] at *
    split at b1 <;> omega
  | @comma i m n j a es h h1 h2 ih ih2 =>
    have th1 := h1.breadth
    simp only [breadth_Comma, delimiters, List.length_cons, List.length_nil] at th1
    have z0 : parenLen i 0 (.seq z (a :: es)) = 0 := parenLen_of (by simp only [Expr.bindingPower]; omega) (.inl rfl)
    have hl := codeExprs_list a es
    simp only [spent, z0, codeExpr, writeList_len] at *
    omega
  | @commaLast i j e h h' ih =>
    spend
  | @commaMore i m n j e es h h1 h2 ih ih2 =>
    have th1 := h1.breadth
    simp only [breadth_Comma, delimiters, List.length_cons, List.length_nil] at th1
    have hl := codeExprs_list e es
    simp only [spent] at *
    omega
  | @arg i j e h ih =>
    spend
  | @argSpread i m j e h h1 ih1 =>
    have th := h.breadth
    simp only [breadth_OperatorSpread, delimiters, List.length_cons, List.length_nil] at th
    spend
  | @argsNone j h  =>
    spend
  | @argsLast i j e h h' ih =>
    spend
  | @argsMore i m n j e es h h1 h2 ih ih2 =>
    have th1 := h1.breadth
    simp only [breadth_Comma, delimiters, List.length_cons, List.length_nil] at th1
    have hl := codeExprs_list e es
    simp only [spent] at *
    omega
  | @elem i j e h ih =>
    spend
  | @elemSpread i m j e h h1 ih1 =>
    have th := h.breadth
    simp only [breadth_OperatorSpread, delimiters, List.length_cons, List.length_nil] at th
    spend
  | @elemHole j h  =>
    spend
  | @elemsLast i j e h h' ih =>
    spend
  | @elemsMore i m n j e es h h1 h2 ih ih2 =>
    have th1 := h1.breadth
    simp only [breadth_Comma, delimiters, List.length_cons, List.length_nil] at th1
    have hl := codeExprs_list e es
    simp only [spent] at *
    omega
  | @templateClosed i j w h  =>
    have th := h.breadth
    simp only [breadth_TemplateClosed, delimiters, List.length_cons, List.length_nil] at th
    simp only [spent, template_len, codeExprs, writeTemplateRest, minLen]
    omega
  | @templateOpen i m n j w e es qs h h1 h2 ih1 ih2 =>
    have th := h.breadth
    simp only [breadth_TemplateOpen, delimiters, List.length_cons, List.length_nil] at th
    cases qs with
    | nil => cases h2
    | cons q qs =>
      simp only [spent, template_len, codeExprs, writeTemplateRest, minLen_append, minLen, List.length_cons, List.length_nil] at *
      omega
  | @templateEnd j w  =>
    simp only [spent, codeExprs, writeTemplateRest, minLen, breadth, itemBreadth, if_true]
    omega
  | @templateMore m n j w e es qs h1 h2 ih1 ih2 =>
    cases qs with
    | nil => cases h2
    | cons q qs =>
      simp only [spent, codeExprs, writeTemplateRest, minLen_append, minLen, List.length_cons, List.length_nil, breadth, itemBreadth, Bool.false_eq_true, if_false] at *
      omega
  | @shorthand i j t w h ht h1 h2  =>
    have th := h.breadth
    have := word_breadth ht
    spend
  | @propWord i m j t w p h ht h1 ih1 =>
    have th := h.breadth
    have := word_breadth ht
    spend
  | @propLiteral i m j t w p h ht h1 ih1 =>
    have th := h.breadth
    have : tokenBreadth t = 1 := by rcases ht with rfl | rfl <;> decide +kernel
    spend
  | @propBinary i m j w p h h1 ih1 =>
    have th := h.breadth
    simp only [breadth_LiteralBinary, delimiters, List.length_cons, List.length_nil] at th
    spend
  | @propComputed i m n o j e p h h1 h2 h3 ih1 ih3 =>
    have th := h.breadth
    simp only [breadth_BracketOpen, delimiters, List.length_cons, List.length_nil] at th
    have th2 := h2.breadth
    simp only [breadth_BracketClose, delimiters, List.length_cons, List.length_nil] at th2
    spend
  | @propSpread i m j e h h1 ih1 =>
    have th := h.breadth
    simp only [breadth_OperatorSpread, delimiters, List.length_cons, List.length_nil] at th
    spend
  | @propField i m j k e h h1 ih1 =>
    have th := h.breadth
    simp only [breadth_Colon, delimiters, List.length_cons, List.length_nil] at th
    spend
  | @propMethod i j k f h h1 ih1 =>
    spend
  | @propsNone j h  =>
    spend
  | @propsLast i j p h h' ih =>
    spend
  | @propsMore i m n j p ps h h1 h2 ih ih2 =>
    have th1 := h1.breadth
    simp only [breadth_Comma, delimiters, List.length_cons, List.length_nil] at th1
    have hl := codeProperties_list p ps
    simp only [spent] at *
    omega
  | @patIdent i j w h  =>
    have th := h.breadth
    simp only [breadth_Identifier, delimiters, List.length_cons, List.length_nil] at th
    spend
  | @patArray i m n j ps h h0 h1 h2 ih1 =>
    have th := h.breadth
    simp only [breadth_BracketOpen, delimiters, List.length_cons, List.length_nil] at th
    have th2 := h2.breadth
    simp only [breadth_BracketClose, delimiters, List.length_cons, List.length_nil] at th2
    spend
  | @patEmptyArray i m j h h2  =>
    have th := h.breadth
    simp only [breadth_BracketOpen, delimiters, List.length_cons, List.length_nil] at th
    have th2 := h2.breadth
    simp only [breadth_BracketClose, delimiters, List.length_cons, List.length_nil] at th2
    spend
  | @patObject i m n j ps h h1 h2 ih1 =>
    have th := h.breadth
    simp only [breadth_BraceOpen, delimiters, List.length_cons, List.length_nil] at th
    have th2 := h2.breadth
    simp only [breadth_BraceClose, delimiters, List.length_cons, List.length_nil] at th2
    spend
  | @param i j p h h' ih =>
    spend
  | @paramDefault i m n j p e h h1 h2 ih ih2 =>
    have th1 := h1.breadth
    simp only [breadth_OperatorAssign, delimiters, List.length_cons, List.length_nil] at th1
    spend
  | @patElem i j p h ih =>
    spend
  | @patHole j h  =>
    spend
  | @patElemsLast i j p h h' ih =>
    spend
  | @patElemsMore i m n j p ps h h1 h2 ih ih2 =>
    have th1 := h1.breadth
    simp only [breadth_Comma, delimiters, List.length_cons, List.length_nil] at th1
    have hl := codePatterns_list p ps
    simp only [spent] at *
    omega
  | @paramsNone i j h  =>
    have th := h.breadth
    simp only [breadth_ParenClose, delimiters, List.length_cons, List.length_nil] at th
    spend
  | @paramsRest i m n j w h h1 h2  =>
    have th := h.breadth
    simp only [breadth_OperatorSpread, delimiters, List.length_cons, List.length_nil] at th
    have th1 := h1.breadth
    simp only [breadth_Identifier, delimiters, List.length_cons, List.length_nil] at th1
    have th2 := h2.breadth
    simp only [breadth_ParenClose, delimiters, List.length_cons, List.length_nil] at th2
    spend
  | @paramsLast i m j p h h1 ih =>
    have th1 := h1.breadth
    simp only [breadth_ParenClose, delimiters, List.length_cons, List.length_nil] at th1
    spend
  | @paramsMore i m n j p ps h h1 h2 ih ih2 =>
    have th1 := h1.breadth
    simp only [breadth_Comma, delimiters, List.length_cons, List.length_nil] at th1
    have hl := codePatterns_list p ps
    simp only [spent] at *
    omega
  | @func i m n o q j nk g nm ps b h h1 h2 h3 h4 ih3 ih4 =>
    have th := h.breadth
    have th1 := h1.breadth
    have th2 := h2.breadth
    simp only [breadth_ParenOpen, delimiters, List.length_cons, List.length_nil] at th2
    have hkw := h1.keyword bs!"function"
    rw [show (bs!"function").length = 8 from rfl] at hkw
    simp only [spent, codeFunc, codeClass, minLen_append, minLen, writeList_len, writeBraces_len, List.length_cons, List.length_nil] at *
    omega
  | @cls i m n j nk nm ms h h1 h2 h0 ih2 =>
    have th := h.breadth
    have th1 := h1.breadth
    simp only [breadth_BraceOpen, delimiters, List.length_cons, List.length_nil] at th1
    have hkw := h.keyword bs!"class"
    rw [show (bs!"class").length = 5 from rfl] at hkw
    simp only [spent, codeFunc, codeClass, minLen_append, minLen, writeList_len, writeBraces_len, List.length_cons, List.length_nil] at *
    omega
  | @clsExtends i m n o q j nk nm e ms h h1 h2 h3 h4 h0 ih2 ih4 =>
    have th := h.breadth
    have th1 := h1.breadth
    simp only [breadth_Extends, delimiters, List.length_cons, List.length_nil] at th1
    have th3 := h3.breadth
    simp only [breadth_BraceOpen, delimiters, List.length_cons, List.length_nil] at th3
    have hkw := h.keyword bs!"class"
    rw [show (bs!"class").length = 5 from rfl] at hkw
    simp only [spent, codeFunc, codeClass, minLen_append, minLen, writeList_len, writeBraces_len, List.length_cons, List.length_nil] at *
    omega
  | @memberWord i m n j s t w x h h1 ht hn h2 ih2 =>
    have th := h.breadth
    have th1 := h1.breadth
    have hs : minLen (codeMethodPrefix s (if s = false ∧ w = bs!"constructor" then .Constructor else .Method)) = minLen (if s then [.text bs!"static "] else []) := by
      split <;> simp [codeMethodPrefix, minLen_append, minLen]
    have := word_breadth ht
    simp only [spent, codeKey, minLen_append, minLen, List.length_cons, List.length_nil] at *
    omega
  | @memberGet i m n o j s t t' w x h h1 ht h2 ht' h3 ih3 =>
    have th := h.breadth
    have th1 := h1.breadth
    have th2 := h2.breadth
    have hs : minLen (codeMethodPrefix s .Get) = minLen (if s then [.text bs!"static "] else []) + 4 := by
      simp [codeMethodPrefix, minLen_append, minLen]
    have := word_breadth ht'
    simp only [spent, codeKey, minLen_append, minLen, List.length_cons, List.length_nil] at *
    omega
  | @memberSet i m n o j s t t' w x h h1 ht h2 ht' h3 ih3 =>
    have th := h.breadth
    have th1 := h1.breadth
    have th2 := h2.breadth
    have hs : minLen (codeMethodPrefix s .Set) = minLen (if s then [.text bs!"static "] else []) + 4 := by
      simp [codeMethodPrefix, minLen_append, minLen]
    have := word_breadth ht'
    simp only [spent, codeKey, minLen_append, minLen, List.length_cons, List.length_nil] at *
    omega
  | @memberNumber i m n j s w x h h1 h2 ih2 =>
    have th := h.breadth
    have th1 := h1.breadth
    simp only [breadth_LiteralNumber, delimiters, List.length_cons, List.length_nil] at th1
    have hs : minLen (codeMethodPrefix s .Method) = minLen (if s then [.text bs!"static "] else []) := by
      simp [codeMethodPrefix, minLen_append, minLen]
    simp only [spent, codeKey, minLen_append, minLen, List.length_cons, List.length_nil] at *
    omega
  | @memberBinary i m n j s w x h h1 h2 ih2 =>
    have th := h.breadth
    have th1 := h1.breadth
    simp only [breadth_LiteralBinary, delimiters, List.length_cons, List.length_nil] at th1
    have hs : minLen (codeMethodPrefix s .Method) = minLen (if s then [.text bs!"static "] else []) := by
      simp [codeMethodPrefix, minLen_append, minLen]
    simp only [spent, codeKey, minLen_append, minLen, List.length_cons, List.length_nil] at *
    omega
  | @memberComputed i m n o q j s e x h h1 h2 h3 h4 ih2 ih4 =>
    have th := h.breadth
    have th1 := h1.breadth
    simp only [breadth_BracketOpen, delimiters, List.length_cons, List.length_nil] at th1
    have th3 := h3.breadth
    simp only [breadth_BracketClose, delimiters, List.length_cons, List.length_nil] at th3
    have hs : minLen (codeMethodPrefix s .Method) = minLen (if s then [.text bs!"static "] else []) := by
      simp [codeMethodPrefix, minLen_append, minLen]
    simp only [spent, codeKey, minLen_append, minLen, List.length_cons, List.length_nil] at *
    omega
  | @memberMethod i m j s kd k f h h1 h2 ih1 =>
    have th2 := h2.breadth
    spend
  | @memberField i m n j s kd k e h h1 h2 ih1 =>
    have th := h.breadth
    simp only [breadth_OperatorAssign, delimiters, List.length_cons, List.length_nil] at th
    have th2 := h2.breadth
    have hs : minLen (if s then [.text bs!"static "] else []) ≤ minLen (codeMethodPrefix s kd) := by
      simp [codeMethodPrefix, minLen_append]
    simp only [spent, codeMember, minLen_append, minLen, List.length_cons, List.length_nil] at *
    omega
  | @membersClose i j h  =>
    have th := h.breadth
    simp only [breadth_BraceClose, delimiters, List.length_cons, List.length_nil] at th
    spend
  | @membersEnd   =>
    spend
  | @membersMore i m j x xs h h1 ih ih1 =>
    spend
  | @block i m j ss h h1 h0 ih1 =>
    have th := h.breadth
    simp only [breadth_BraceOpen, delimiters, List.length_cons, List.length_nil] at th
    spend
  | @stmtsClose i j h  =>
    have th := h.breadth
    simp only [breadth_BraceClose, delimiters, List.length_cons, List.length_nil] at th
    spend
  | @stmtsEnd   =>
    spend
  | @stmtsMore i m j s ss h h1 ih ih1 =>
    spend
  | @empty i j h  =>
    have th := h.breadth
    simp only [breadth_Semicolon, delimiters, List.length_cons, List.length_nil] at th
    spend
  | @debugger i j h  =>
    have th := h.breadth
    simp only [breadth_Debugger, delimiters, List.length_cons, List.length_nil] at th
    spend
  | @blockStmt i j ss h ih =>
    spend
  | @exprStmt i m j e h1 h2 h3 h4 h h5 ih =>
    have th5 := h5.breadth
    simp only [spent, codeStmt, minLen_append, minLen, List.length_cons, List.length_nil] at *
    by_cases hb : e.isAllowedAsBareStatement = true
    · simp only [hb, if_true]
      omega
    · have hp : parenLen i 0 e = 2 := by
        unfold parenLen
        exact if_pos (.inr ⟨by simpa using hb, h1, h2, h3⟩)
      simp only [hb, minLen_append, minLen, List.length_cons, List.length_nil, Bool.false_eq_true, if_false]
      omega
  | @importExpr w a i m j e h1 h h5 ih =>
    have th5 := h5.breadth
    have hi : tokenBreadth .Import = 6 := breadth_Import
    simp only [spent, codeStmt, minLen_append, minLen, List.length_cons, List.length_nil, breadth, itemBreadth, delimiters, hi, breadth_Identifier] at *
    by_cases hb : e.isAllowedAsBareStatement = true
    · simp only [hb, if_true]
      omega
    · have hp : parenLen (.tok .Identifier w a :: i) 0 e = 2 := by
        unfold parenLen
        exact if_pos (.inr ⟨by simpa using hb, by simp [look, Item.token], by simp [look, Item.token], by simp [look, Item.token]⟩)
      simp only [hb, minLen_append, minLen, List.length_cons, List.length_nil, Bool.false_eq_true, if_false]
      omega
  | @declStmt i m n j t k ds h hk h1 h2 ih1 =>
    have th := h.breadth
    have th2 := h2.breadth
    have k1 := kind_len hk
    have k2 := kind_breadth hk
    spend
  | @ret i m j h h1  =>
    have th := h.breadth
    simp only [breadth_Return, delimiters, List.length_cons, List.length_nil] at th
    have th1 := h1.breadth
    spend
  | @retValue i m n j e h h0 h1 h2 ih1 =>
    have th := h.breadth
    simp only [breadth_Return, delimiters, List.length_cons, List.length_nil] at th
    have th2 := h2.breadth
    spend
  | @brk i m j h h1  =>
    have th := h.breadth
    simp only [breadth_Break, delimiters, List.length_cons, List.length_nil] at th
    have th1 := h1.breadth
    spend
  | @brkLabel i m n j w h h0 h1 h2  =>
    have th := h.breadth
    simp only [breadth_Break, delimiters, List.length_cons, List.length_nil] at th
    have th1 := h1.breadth
    simp only [breadth_Identifier, delimiters, List.length_cons, List.length_nil] at th1
    have th2 := h2.breadth
    spend
  | @cont i m j h h1  =>
    have th := h.breadth
    simp only [breadth_Continue, delimiters, List.length_cons, List.length_nil] at th
    have th1 := h1.breadth
    spend
  | @contLabel i m n j w h h0 h1 h2  =>
    have th := h.breadth
    simp only [breadth_Continue, delimiters, List.length_cons, List.length_nil] at th
    have th1 := h1.breadth
    simp only [breadth_Identifier, delimiters, List.length_cons, List.length_nil] at th1
    have th2 := h2.breadth
    spend
  | @throw i m n j e h h1 h2 ih1 =>
    have th := h.breadth
    simp only [breadth_Throw, delimiters, List.length_cons, List.length_nil] at th
    have th2 := h2.breadth
    spend
  | @ifThen i m n o q j e s h h1 h2 h3 h4 h5 ih2 ih4 =>
    have th := h.breadth
    simp only [breadth_If, delimiters, List.length_cons, List.length_nil] at th
    have th1 := h1.breadth
    simp only [breadth_ParenOpen, delimiters, List.length_cons, List.length_nil] at th1
    have th3 := h3.breadth
    simp only [breadth_ParenClose, delimiters, List.length_cons, List.length_nil] at th3
    spend
  | @ifElse i m n o q r u j e s s' h h1 h2 h3 h4 h5 h6 ih2 ih4 ih6 =>
    have th := h.breadth
    simp only [breadth_If, delimiters, List.length_cons, List.length_nil] at th
    have th1 := h1.breadth
    simp only [breadth_ParenOpen, delimiters, List.length_cons, List.length_nil] at th1
    have th3 := h3.breadth
    simp only [breadth_ParenClose, delimiters, List.length_cons, List.length_nil] at th3
    have th5 := h5.breadth
    simp only [breadth_Else, delimiters, List.length_cons, List.length_nil] at th5
    have p1 : minLen [if s.isBlock then pSp else .text bs!" ", .text bs!"else", if s'.isBlock then pSp else .text bs!" "] ≤ 6 := by
      split <;> split <;> simp [minLen]
    spend
  | @whileLoop i m n o q j e s h h1 h2 h3 h4 ih2 ih4 =>
    have th := h.breadth
    simp only [breadth_While, delimiters, List.length_cons, List.length_nil] at th
    have th1 := h1.breadth
    simp only [breadth_ParenOpen, delimiters, List.length_cons, List.length_nil] at th1
    have th3 := h3.breadth
    simp only [breadth_ParenClose, delimiters, List.length_cons, List.length_nil] at th3
    spend
  | @doLoop i m n o q r j e s h h1 h2 h3 h4 h5 ih1 ih4 =>
    have th := h.breadth
    simp only [breadth_Do, delimiters, List.length_cons, List.length_nil] at th
    have th2 := h2.breadth
    simp only [breadth_While, delimiters, List.length_cons, List.length_nil] at th2
    have th3 := h3.breadth
    simp only [breadth_ParenOpen, delimiters, List.length_cons, List.length_nil] at th3
    have th5 := h5.breadth
    simp only [breadth_ParenClose, delimiters, List.length_cons, List.length_nil] at th5
    have p1 : minLen [if s.isBlock then pSp else .text bs!" "] ≤ 1 := by
      split <;> simp [minLen]
    spend
  | @forLoop i m n o q j t u s h h1 h2 h3 r h4 h5 ih3 ih4 ih5 =>
    have th := h.breadth
    simp only [breadth_For, delimiters, List.length_cons, List.length_nil] at th
    have th1 := h1.breadth
    simp only [breadth_ParenOpen, delimiters, List.length_cons, List.length_nil] at th1
    have th2 := h2.breadth
    simp only [breadth_Semicolon, delimiters, List.length_cons, List.length_nil] at th2
    simp only [spent, breadth_Semicolon, breadth_ParenClose] at *
    cases t <;> cases u <;> spend
  | @forLoopInit i m n o q r v j x t u s h h1 h2 h2' h3 h4 h5 ih2 ih3 ih4 ih5 =>
    have th := h.breadth
    simp only [breadth_For, delimiters, List.length_cons, List.length_nil] at th
    have th1 := h1.breadth
    simp only [breadth_ParenOpen, delimiters, List.length_cons, List.length_nil] at th1
    have th2' := h2'.breadth
    simp only [breadth_Semicolon, delimiters, List.length_cons, List.length_nil] at th2'
    simp only [spent, breadth_Semicolon, breadth_ParenClose] at *
    cases t <;> cases u <;> spend
  | @forInDecl i m n o q r v j k ds e s h h1 h2 h3 h4 h5 h6 ih2 ih4 ih6 =>
    have th := h.breadth
    simp only [breadth_For, delimiters, List.length_cons, List.length_nil] at th
    have th1 := h1.breadth
    simp only [breadth_ParenOpen, delimiters, List.length_cons, List.length_nil] at th1
    have th3 := h3.breadth
    simp only [breadth_OperatorIn, delimiters, List.length_cons, List.length_nil] at th3
    have th5 := h5.breadth
    simp only [breadth_ParenClose, delimiters, List.length_cons, List.length_nil] at th5
    spend
  | @forInExpr i m n o q j a b s h h1 h2 h3 h4 ih2 ih4 =>
    have th := h.breadth
    simp only [breadth_For, delimiters, List.length_cons, List.length_nil] at th
    have th1 := h1.breadth
    simp only [breadth_ParenOpen, delimiters, List.length_cons, List.length_nil] at th1
    have th3 := h3.breadth
    simp only [breadth_ParenClose, delimiters, List.length_cons, List.length_nil] at th3
    have s1 : ∀ a b, binarySpacing .In a b = (true, true) := fun _ _ => rfl
    have a1 := writeExpression_len a (codeExpr a) (Op.bindingPower .In)
    have b1 := writeExpression_len b (codeExpr b) (Op.bindingPower .In + 1)
    simp only [spent, codeExpr, minLen_append, space_len, s1, show Op.asStr .In = bs!"in" from rfl, if_true] at *
    spend
  | @forOf i m n o q r v j x e s h h1 h2 h3 h4 h5 h6 ih2 ih4 ih6 =>
    have th := h.breadth
    simp only [breadth_For, delimiters, List.length_cons, List.length_nil] at th
    have th1 := h1.breadth
    simp only [breadth_ParenOpen, delimiters, List.length_cons, List.length_nil] at th1
    have th3 := h3.breadth
    simp only [breadth_Identifier, delimiters, List.length_cons, List.length_nil] at th3
    have th5 := h5.breadth
    simp only [breadth_ParenClose, delimiters, List.length_cons, List.length_nil] at th5
    spend
  | @forInitDecl i m j t k ds h hk h1 ih1 =>
    have th := h.breadth
    have k1 := kind_len hk
    have k2 := kind_breadth hk
    spend
  | @forInitExpr i j e h h1 ih =>
    spend
  | @optExprNone i j t h  =>
    have th := h.breadth
    simp only [spent]
    omega
  | @optExprSome i m j t e h h1 ih =>
    have th1 := h1.breadth
    simp only [spent] at *
    omega
  | @tryCatch i m n j b c h h1 h2 h3 ih1 ih2 =>
    have th := h.breadth
    simp only [breadth_Try, delimiters, List.length_cons, List.length_nil] at th
    spend
  | @tryCatchFinally i m n o q j b c f h h1 h2 h3 h4 ih1 ih2 ih4 =>
    have th := h.breadth
    simp only [breadth_Try, delimiters, List.length_cons, List.length_nil] at th
    have th3 := h3.breadth
    simp only [breadth_Finally, delimiters, List.length_cons, List.length_nil] at th3
    spend
  | @tryFinally i m n o j b f h h1 h3 h4 ih1 ih4 =>
    have th := h.breadth
    simp only [breadth_Try, delimiters, List.length_cons, List.length_nil] at th
    have th3 := h3.breadth
    simp only [breadth_Finally, delimiters, List.length_cons, List.length_nil] at th3
    spend
  | @«catch» i m n o q j p b h h1 h2 h3 h4 ih2 ih4 =>
    have th := h.breadth
    simp only [breadth_Catch, delimiters, List.length_cons, List.length_nil] at th
    have th1 := h1.breadth
    simp only [breadth_ParenOpen, delimiters, List.length_cons, List.length_nil] at th1
    have th3 := h3.breadth
    simp only [breadth_ParenClose, delimiters, List.length_cons, List.length_nil] at th3
    spend
  | @«switch» i m n o q r j e cs h h1 h2 h3 h4 h5 ih2 ih5 =>
    have th := h.breadth
    simp only [breadth_Switch, delimiters, List.length_cons, List.length_nil] at th
    have th1 := h1.breadth
    simp only [breadth_ParenOpen, delimiters, List.length_cons, List.length_nil] at th1
    have th3 := h3.breadth
    simp only [breadth_ParenClose, delimiters, List.length_cons, List.length_nil] at th3
    have th4 := h4.breadth
    simp only [breadth_BraceOpen, delimiters, List.length_cons, List.length_nil] at th4
    spend
  | @casesClose i j h  =>
    have th := h.breadth
    simp only [breadth_BraceClose, delimiters, List.length_cons, List.length_nil] at th
    spend
  | @casesMore i m j c cs h h1 ih ih1 =>
    spend
  | @«case» i m n o j e ss h h1 h2 h3 ih1 ih3 =>
    have th := h.breadth
    simp only [breadth_Case, delimiters, List.length_cons, List.length_nil] at th
    have th2 := h2.breadth
    simp only [breadth_Colon, delimiters, List.length_cons, List.length_nil] at th2
    spend
  | @«default» i m n j ss h h1 h2 ih2 =>
    have th := h.breadth
    simp only [breadth_Default, delimiters, List.length_cons, List.length_nil] at th
    have th1 := h1.breadth
    simp only [breadth_Colon, delimiters, List.length_cons, List.length_nil] at th1
    spend
  | @caseBodyEnd j h  =>
    spend
  | @caseBodyMore i m j s ss h h1 ih ih1 =>
    spend
  | @labeled i m n j w s h h1 h2 ih2 =>
    have th := h.breadth
    simp only [breadth_Identifier, delimiters, List.length_cons, List.length_nil] at th
    have th1 := h1.breadth
    simp only [breadth_Colon, delimiters, List.length_cons, List.length_nil] at th1
    spend
  | @functionStmt i m j f h h1 ih1 =>
    have th := h.breadth
    simp only [breadth_Function, delimiters, List.length_cons, List.length_nil] at th
    spend
  | @classStmt i m j c h h1 ih1 =>
    have th := h.breadth
    simp only [breadth_Class, delimiters, List.length_cons, List.length_nil] at th
    spend
  | @importBare i m j w h h1 hw  =>
    have th := h.breadth
    simp only [breadth_Import, delimiters, List.length_cons, List.length_nil] at th
    have th1 := h1.breadth
    simp only [breadth_LiteralString, delimiters, List.length_cons, List.length_nil] at th1
    have := unquoted_len w hw
    simp only [spent, codeStmt, codeImport, List.isEmpty_nil, if_true]
    spend
  | @importFrom i m n o j w ss h h1 h2 h3 hw  =>
    have th := h.breadth
    simp only [breadth_Import, delimiters, List.length_cons, List.length_nil] at th
    have th1 := h1.breadth
    have th2 := h2.breadth
    simp only [breadth_Identifier, delimiters, List.length_cons, List.length_nil] at th2
    have th3 := h3.breadth
    simp only [breadth_LiteralString, delimiters, List.length_cons, List.length_nil] at th3
    have := unquoted_len w hw
    have := codeImport_len ss (unquoted w)
    simp only [spent, codeStmt]
    omega
  | @declarator i j p h h' ih =>
    spend
  | @declaratorInit i m n j p e h h1 h2 ih ih2 =>
    have th1 := h1.breadth
    simp only [breadth_OperatorAssign, delimiters, List.length_cons, List.length_nil] at th1
    spend
  | @declaratorsLast i j d h h' ih =>
    spend
  | @declaratorsMore i m n j d ds h h1 h2 ih ih2 =>
    have th1 := h1.breadth
    simp only [breadth_Comma, delimiters, List.length_cons, List.length_nil] at th1
    have hl := codeDeclarators_list d ds
    simp only [spent] at *
    omega
  | @programEnd   =>
    spend
  | @programMore i m j s ss h h1 ih ih1 =>
    spend

end Ratel
