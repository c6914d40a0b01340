import Verif.Lemmas.Census
/-! The layout of pretty printed code, compared with its text: for each node, the number of blanks, new lines and levels of
indentation. -/
namespace Ratel
open Spec
set_option linter.unusedSimpArgs false
set_option linter.unusedTactic false
set_option linter.unusedVariables false

/-- The number of optional blanks. -/
def blankCount : List Piece → Nat
  | [] => 0
  | .pretty _ :: r => blankCount r + 1
  | _ :: r => blankCount r

/-- The number of new lines. -/
def lineCount : List Piece → Nat
  | [] => 0
  | .newLine :: r => lineCount r + 1
  | _ :: r => lineCount r

/-- The number of indentations. -/
def indentCount : List Piece → Nat
  | [] => 0
  | .indent :: r => indentCount r + 1
  | _ :: r => indentCount r

theorem blankCount_append (a b : List Piece) : blankCount (a ++ b) = blankCount a + blankCount b := by
  induction a with
  | nil => simp [blankCount]
  | cons x a ih => cases x <;> simp [blankCount, ih] <;> omega
theorem lineCount_append (a b : List Piece) : lineCount (a ++ b) = lineCount a + lineCount b := by
  induction a with
  | nil => simp [lineCount]
  | cons x a ih => cases x <;> simp [lineCount, ih] <;> omega
theorem indentCount_append (a b : List Piece) : indentCount (a ++ b) = indentCount a + indentCount b := by
  induction a with
  | nil => simp [indentCount]
  | cons x a ih => cases x <;> simp [indentCount, ih] <;> omega

/-- The length of pretty printed code: the text, the blanks, and for each line the indentation. -/
theorem runPretty_length {d d' : Nat} {ps : List Piece} {x : Bytes} (h : runPretty d ps = .ok (x, d')) :
    x.length ≤ minLen ps + blankCount ps + lineCount ps * (1 + 4 * (d + indentCount ps)) := by
  induction ps generalizing d d' x with
  | nil => cases h; exact Nat.zero_le _
  | cons p ps ih =>
    cases p with
    | text t =>
      rw [runPretty] at h
      obtain ⟨⟨y, e⟩, h1, h2⟩ := Out.bind_eq_ok.1 h
      cases h2
      have := ih h1
      simp only [List.length_append, minLen, blankCount, lineCount, indentCount]
      omega
    | pretty t =>
      rw [runPretty] at h
      obtain ⟨⟨y, e⟩, h1, h2⟩ := Out.bind_eq_ok.1 h
      cases h2
      have := ih h1
      simp only [List.length_cons, minLen, blankCount, lineCount, indentCount]
      omega
    | newLine =>
      rw [runPretty] at h
      obtain ⟨⟨y, e⟩, h1, h2⟩ := Out.bind_eq_ok.1 h
      cases h2
      have := ih h1
      simp only [List.length_append, minLen, blankCount, lineCount, indentCount, newLineText, List.length_cons, List.length_replicate]
      rw [Nat.add_mul (lineCount ps) 1]
      omega
    | indent =>
      rw [runPretty] at h
      have := ih h
      simp only [minLen, blankCount, lineCount, indentCount]
      rw [show d + (indentCount ps + 1) = d + 1 + indentCount ps by omega]
      exact this
    | dedent =>
      cases d with
      | zero => cases h
      | succ d =>
        rw [runPretty] at h
        have := ih h
        simp only [minLen, blankCount, lineCount, indentCount]
        refine Nat.le_trans this (Nat.add_le_add_left (Nat.mul_le_mul_left _ ?_) _)
        omega
    | panic => cases d <;> cases h

/-- The layout of the code of a list of nodes, `k` nodes with those below them. -/
def Loose (ps : List Piece) (k : Nat) : Prop :=
  blankCount ps ≤ 2 * minLen ps ∧ lineCount ps ≤ minLen ps + k ∧ 2 * indentCount ps ≤ minLen ps

/-- The layout of the code of a node, `k` nodes with those below it. -/
def Airy (ps : List Piece) (k : Nat) : Prop :=
  blankCount ps ≤ 2 * minLen ps ∧ lineCount ps + 1 ≤ minLen ps + k ∧ 2 * indentCount ps ≤ minLen ps

theorem writeList_loose {α : Type} (f : α → List Piece) (g : α → Node) (l : List α) (h : ∀ x ∈ l, Airy (f x) (census (g x))) :
    Loose (writeList (l.map f)) (censuses (l.map g)) := by
  induction l with
  | nil => simp [Loose, writeList, blankCount, lineCount, indentCount]
  | cons x l ih =>
    have h1 := h x (by simp)
    have h2 := ih fun x hx => h x (by simp [hx])
    cases l with
    | nil =>
      simp only [Loose, Airy, List.map_cons, List.map_nil, writeList, censuses_cons, censuses_nil] at *
      omega
    | cons y l =>
      simp only [Loose, Airy, List.map_cons, writeList, censuses_cons, blankCount_append, lineCount_append, indentCount_append, minLen_append,
        blankCount, lineCount, indentCount, minLen, show (bs!",").length = 1 from rfl] at *
      omega

theorem writeLines_loose {α : Type} (f : α → List Piece) (g : α → Node) (l : List α) (h : ∀ x ∈ l, Airy (f x) (census (g x))) :
    Loose (writeLines (l.map f)) (censuses (l.map g)) := by
  induction l with
  | nil => simp [Loose, writeLines, blankCount, lineCount, indentCount]
  | cons x l ih =>
    have h1 := h x (by simp)
    have h2 := ih fun x hx => h x (by simp [hx])
    simp only [Loose, Airy, List.map_cons, writeLines, List.cons_append, censuses_cons, blankCount_append, lineCount_append, indentCount_append, minLen_append,
        blankCount, lineCount, indentCount, minLen] at *
    omega

theorem writeProps_loose {α : Type} (f : α → List Piece) (g : α → Node) (l : List α) (h : ∀ x ∈ l, Airy (f x) (census (g x))) :
    Loose (writeProps (l.map f)) (censuses (l.map g)) := by
  induction l with
  | nil => simp [Loose, writeProps, blankCount, lineCount, indentCount]
  | cons x l ih =>
    have h1 := h x (by simp)
    have h2 := ih fun x hx => h x (by simp [hx])
    simp only [Loose, Airy, List.map_cons, writeProps, List.cons_append, List.nil_append, censuses_cons, blankCount_append, lineCount_append, indentCount_append, minLen_append,
        blankCount, lineCount, indentCount, minLen, show (bs!",").length = 1 from rfl] at *
    omega

theorem writeBlock_loose {α : Type} (f : α → List Piece) (g : α → Node) (l : List α) (h : ∀ x ∈ l, Airy (f x) (census (g x))) :
    blankCount (writeBlock (l.map f)) ≤ 2 * minLen (writeBlock (l.map f)) ∧
      lineCount (writeBlock (l.map f)) ≤ minLen (writeBlock (l.map f)) + censuses (l.map g) + 1 ∧
      2 * indentCount (writeBlock (l.map f)) ≤ minLen (writeBlock (l.map f)) + 2 := by
  have h1 := writeLines_loose f g l h
  cases l with
  | nil => simp [writeBlock, blankCount, lineCount, indentCount]
  | cons x l =>
    simp only [Loose, Airy, List.map_cons, writeBlock, writeLines, List.cons_append, List.nil_append, censuses_cons, blankCount_append, lineCount_append,
      indentCount_append, minLen_append, blankCount, lineCount, indentCount, minLen] at *
    omega

theorem writeBraces_loose {α : Type} (f : α → List Piece) (g : α → Node) (l : List α) (h : ∀ x ∈ l, Airy (f x) (census (g x))) :
    Loose (writeBraces (l.map f)) (censuses (l.map g)) := by
  have := writeBlock_loose f g l h
  simp only [Loose, writeBraces, List.cons_append, List.nil_append, blankCount_append, lineCount_append, indentCount_append, minLen_append,
        blankCount, lineCount, indentCount, minLen, show (bs!"{").length = 1 from rfl, show (bs!"}").length = 1 from rfl] at *
  omega

theorem writeBraces_blank {α : Type} (f : α → List Piece) (g : α → Node) (l : List α) (h : ∀ x ∈ l, Airy (f x) (census (g x))) :
    blankCount (writeBraces (l.map f)) + 4 ≤ 2 * minLen (writeBraces (l.map f)) := by
  have := writeBlock_loose f g l h
  simp only [writeBraces, List.cons_append, List.nil_append, blankCount_append, minLen_append,
        blankCount, minLen, show (bs!"{").length = 1 from rfl, show (bs!"}").length = 1 from rfl] at *
  omega

theorem writeObject_loose {α : Type} (f : α → List Piece) (g : α → Node) (l : List α) (h : ∀ x ∈ l, Airy (f x) (census (g x))) :
    Loose (writeObject (l.map f)) (censuses (l.map g)) := by
  cases l with
  | nil => simp [Loose, writeObject, blankCount, lineCount, indentCount]
  | cons x l =>
    have h1 := h x (by simp)
    have h2 := writeProps_loose f g l fun x hx => h x (by simp [hx])
    simp only [Loose, Airy, List.map_cons, writeObject, List.cons_append, List.nil_append, censuses_cons, blankCount_append, lineCount_append, indentCount_append, minLen_append,
        blankCount, lineCount, indentCount, minLen, show (bs!"{").length = 1 from rfl, show (bs!"}").length = 1 from rfl] at *
    omega

theorem writeTemplateRest_loose {α : Type} (f : α → List Piece) (g : α → Node) (qs : List Ident) (l : List α) (h : ∀ x ∈ l, Airy (f x) (census (g x))) :
    Loose (writeTemplateRest qs (l.map f)) (censuses (l.map g)) := by
  induction l generalizing qs with
  | nil => cases qs <;> simp [Loose, writeTemplateRest, blankCount, lineCount, indentCount]
  | cons x l ih =>
    have h1 := h x (by simp)
    cases qs with
    | nil => simp [Loose, writeTemplateRest, blankCount, lineCount, indentCount]
    | cons q qs =>
      have h2 := ih qs fun x hx => h x (by simp [hx])
      simp only [Loose, Airy, List.map_cons, writeTemplateRest, List.cons_append, List.nil_append, censuses_cons, blankCount_append, lineCount_append, indentCount_append, minLen_append,
        blankCount, lineCount, indentCount, minLen, show (bs!"${").length = 2 from rfl, show (bs!"}").length = 1 from rfl] at *
      omega

theorem writeTemplate_loose {α : Type} (f : α → List Piece) (g : α → Node) (qs : List Ident) (l : List α) (h : ∀ x ∈ l, Airy (f x) (census (g x))) :
    Loose (writeTemplate qs (l.map f)) (censuses (l.map g)) := by
  match qs with
  | [] => simp [Loose, writeTemplate, blankCount, lineCount, indentCount]
  | [q] => simp [Loose, writeTemplate, blankCount, lineCount, indentCount]
  | q :: q' :: qs =>
    have := writeTemplateRest_loose f g (q' :: qs) l h
    simp only [Loose, writeTemplate, blankCount, lineCount, indentCount, minLen] at *
    omega

theorem writeExpression_airy {e : Expr} {ps : List Piece} {k c : Nat} (h : Airy ps c) : Airy (writeExpression e ps k) c := by
  unfold writeExpression
  split
  · simp only [Airy, List.cons_append, blankCount_append, lineCount_append, indentCount_append, minLen_append, blankCount, lineCount, indentCount, minLen] at *
    omega
  · exact h

/-- Fixed text without layout. -/
theorem codeLiteral_plain (v : Literal) : blankCount (codeLiteral v) = 0 ∧ lineCount (codeLiteral v) = 0 ∧ indentCount (codeLiteral v) = 0 := by
  cases v <;> exact ⟨rfl, rfl, rfl⟩
theorem codeKind_plain (v : DeclKind) : blankCount (codeKind v) = 0 ∧ lineCount (codeKind v) = 0 ∧ indentCount (codeKind v) = 0 := by
  cases v <;> exact ⟨rfl, rfl, rfl⟩
theorem codeJump_plain (kw : Bytes) (v : Option Ident) : blankCount (codeJump kw v) = 0 ∧ lineCount (codeJump kw v) = 0 ∧ indentCount (codeJump kw v) = 0 := by
  cases v <;> exact ⟨rfl, rfl, rfl⟩
theorem codeKeyword_plain (kw : Bytes) (v : Name) : blankCount (codeKeyword kw v) = 0 ∧ lineCount (codeKeyword kw v) = 0 ∧ indentCount (codeKeyword kw v) = 0 := by
  cases v <;> exact ⟨rfl, rfl, rfl⟩
theorem codeName_plain (v : Name) : blankCount (codeName v) ≤ 1 ∧ lineCount (codeName v) = 0 ∧ indentCount (codeName v) = 0 := by
  match v with
  | .empty | .mandatory _ | .optional none | .optional (some _) => simp [codeName, blankCount, lineCount, indentCount]
theorem codePrefix_plain (s : Bool) (k : MethodKind) :
    blankCount (codeMethodPrefix s k) = 0 ∧ lineCount (codeMethodPrefix s k) = 0 ∧ indentCount (codeMethodPrefix s k) = 0 := by
  cases s <;> cases k <;> exact ⟨rfl, rfl, rfl⟩
theorem space_plain (b : Bool) : blankCount [space b] ≤ 1 ∧ lineCount [space b] = 0 ∧ indentCount [space b] = 0 := by
  cases b <;> simp [space, pSp, blankCount, lineCount, indentCount]
theorem codeImportSpec_plain (s : ImportSpec) : blankCount (codeImportSpec s) = 0 ∧ lineCount (codeImportSpec s) = 0 ∧ indentCount (codeImportSpec s) = 0 := by
  cases s <;> simp only [codeImportSpec] <;> (try split) <;> exact ⟨rfl, rfl, rfl⟩
theorem asStr_pos (op : Op) : 1 ≤ op.asStr.length := by cases op <;> decide

theorem writeList_plain (l : List ImportSpec) :
    blankCount (writeList (l.map codeImportSpec)) ≤ minLen (writeList (l.map codeImportSpec)) ∧ lineCount (writeList (l.map codeImportSpec)) = 0 ∧
      indentCount (writeList (l.map codeImportSpec)) = 0 := by
  induction l with
  | nil => exact ⟨Nat.le_refl _, rfl, rfl⟩
  | cons s l ih =>
    have := codeImportSpec_plain s
    cases l with
    | nil =>
      simp only [List.map_cons, List.map_nil, writeList] at *
      omega
    | cons t l =>
      simp only [List.map_cons, writeList, blankCount_append, lineCount_append, indentCount_append, minLen_append, blankCount, lineCount, indentCount, minLen,
        show (bs!",").length = 1 from rfl] at *
      omega

theorem codeImport_loose (l : List ImportSpec) (src : Bytes) :
    blankCount (codeImport l src) ≤ 2 * minLen (codeImport l src) ∧ lineCount (codeImport l src) = 0 ∧ indentCount (codeImport l src) = 0 := by
  have h1 := writeList_plain (l.filter fun s => !s.isNamed)
  have h2 := writeList_plain (l.filter fun s => s.isNamed)
  unfold codeImport
  split
  · simp [blankCount, lineCount, indentCount]
  · simp only []
    (split <;> try split) <;>
      (simp only [blankCount_append, lineCount_append, indentCount_append, minLen_append, blankCount, lineCount, indentCount, minLen]; omega)

/-- Counts everything in code and in its nodes. -/
macro "count" : tactic => `(tactic|
  (simp only [Airy, Loose, codeOf, List.cons_append, List.nil_append, blankCount_append, lineCount_append, indentCount_append, minLen_append,
    blankCount, lineCount, indentCount, minLen, pSp, Bool.false_eq_true, if_false, if_true, reduceIte, Node.children, censuses_cons, censuses_append, censuses_nil, List.append_nil,
    Option.toList, List.map_cons, List.map_nil, List.length_append, List.length_cons, List.length_nil] at *
   omega))

theorem codeOf_airy (n : Node) : Airy (codeOf n) (census n) := by
  induction n using Node.ind with
  | h n ih =>
  rw [census_eq]
  have he : ∀ e, Node.expr e ∈ n.children → Airy (codeExpr e) (census (.expr e)) := fun e h => ih _ h
  have hs : ∀ e, Node.stmt e ∈ n.children → Airy (codeStmt e) (census (.stmt e)) := fun e h => ih _ h
  have hp : ∀ e, Node.pat e ∈ n.children → Airy (codePattern e) (census (.pat e)) := fun e h => ih _ h
  have hk : ∀ e, Node.key e ∈ n.children → Airy (codeKey e) (census (.key e)) := fun e h => ih _ h
  have hf : ∀ e, Node.func e ∈ n.children → Airy (codeFunc e) (census (.func e)) := fun e h => ih _ h
  have hc : ∀ e, Node.cls e ∈ n.children → Airy (codeClass e) (census (.cls e)) := fun e h => ih _ h
  have hb : ∀ e, Node.block e ∈ n.children → Airy (codeBlock e) (census (.block e)) := fun e h => ih _ h
  have hd : ∀ e, Node.declarator e ∈ n.children → Airy (codeDeclarator e) (census (.declarator e)) := fun e h => ih _ h
  have hi : ∀ e, Node.forInit e ∈ n.children → Airy (codeForInit e) (census (.forInit e)) := fun e h => ih _ h
  have hpr : ∀ e, Node.prop e ∈ n.children → Airy (codeProperty e) (census (.prop e)) := fun e h => ih _ h
  have hm : ∀ e, Node.member e ∈ n.children → Airy (codeMember e) (census (.member e)) := fun e h => ih _ h
  have hca : ∀ e, Node.case e ∈ n.children → Airy (codeCase e) (census (.case e)) := fun e h => ih _ h
  have hct : ∀ e, Node.catch e ∈ n.children → Airy (codeCatch e) (census (.catch e)) := fun e h => ih _ h
  have hsw : ∀ cs, Node.switchBody cs ∈ n.children → Airy (writeBraces (codeCases cs)) (census (.switchBody cs)) := fun e h => ih _ h
  have hel : ∀ xs : List Expr, (∀ x ∈ xs, Node.expr x ∈ n.children) → ∀ x ∈ xs, Airy (codeExpr x) (census (.expr x)) := fun xs h x hx => he x (h x hx)
  have hsl : ∀ xs : List Stmt, (∀ x ∈ xs, Node.stmt x ∈ n.children) → ∀ x ∈ xs, Airy (codeStmt x) (census (.stmt x)) := fun xs h x hx => hs x (h x hx)
  have hpl : ∀ xs : List Pattern, (∀ x ∈ xs, Node.pat x ∈ n.children) → ∀ x ∈ xs, Airy (codePattern x) (census (.pat x)) := fun xs h x hx => hp x (h x hx)
  have hdl : ∀ xs : List Declarator, (∀ x ∈ xs, Node.declarator x ∈ n.children) → ∀ x ∈ xs, Airy (codeDeclarator x) (census (.declarator x)) := fun xs h x hx => hd x (h x hx)
  have hprl : ∀ xs : List Property, (∀ x ∈ xs, Node.prop x ∈ n.children) → ∀ x ∈ xs, Airy (codeProperty x) (census (.prop x)) := fun xs h x hx => hpr x (h x hx)
  have hml : ∀ xs : List ClassMember, (∀ x ∈ xs, Node.member x ∈ n.children) → ∀ x ∈ xs, Airy (codeMember x) (census (.member x)) := fun xs h x hx => hm x (h x hx)
  have hcal : ∀ xs : List SwitchCase, (∀ x ∈ xs, Node.case x ∈ n.children) → ∀ x ∈ xs, Airy (codeCase x) (census (.case x)) := fun xs h x hx => hca x (h x hx)
  clear ih
  rcases n with e | k | p | p | f | c | m | b | s | d | i | c | c | cs
  · have hin := fun ps => fun h => writeList_loose codePattern .pat ps (hpl ps h)
    have hex := fun es => fun h => writeList_loose codeExpr .expr es (hel es h)
    cases e with
    | arrowB l ps b =>
      obtain ⟨l', b⟩ := b
      have h1 := hin ps (fun x hx => by simp [Node.children, hx])
      have h2 := writeBraces_loose codeStmt .stmt b (hsl b (fun x hx => by simp [Node.children, hx]))
      clear he hs hp hk hf hc hb hd hi hpr hm hca hct hsw hel hsl hpl hdl hprl hml hcal hin hex
      simp only [codeOf, codeExpr, codeBlock, codeStmts_eq, codePatterns_eq]
      cases onlyIdent ps <;> count
    | arrowE l ps b =>
      have h1 := hin ps (fun x hx => by simp [Node.children, hx])
      have h2 := he b (by simp [Node.children])
      clear he hs hp hk hf hc hb hd hi hpr hm hca hct hsw hel hsl hpl hdl hprl hml hcal hin hex
      simp only [codeOf, codeExpr, codePatterns_eq]
      cases onlyIdent ps <;> count
    | seq l es | array l es =>
      have h1 := hex es (fun x hx => by simp [Node.children, hx])
      clear he hs hp hk hf hc hb hd hi hpr hm hca hct hsw hel hsl hpl hdl hprl hml hcal hin hex
      simp only [codeOf, codeExpr, codeExprs_eq]
      count
    | template l es qs =>
      have h1 := writeTemplate_loose codeExpr .expr qs es (hel es (fun x hx => by simp [Node.children, hx]))
      clear he hs hp hk hf hc hb hd hi hpr hm hca hct hsw hel hsl hpl hdl hprl hml hcal hin hex
      simp only [codeOf, codeExpr, codeExprs_eq]
      count
    | call l c es =>
      have h1 := hex es (fun x hx => by simp [Node.children, hx])
      have h2 := he c (by simp [Node.children])
      clear he hs hp hk hf hc hb hd hi hpr hm hca hct hsw hel hsl hpl hdl hprl hml hcal hin hex
      simp only [codeOf, codeExpr, codeExprs_eq]
      count
    | tagged l c l' es qs =>
      have h1 := writeTemplate_loose codeExpr .expr qs es (hel es (fun x hx => by simp [Node.children, hx]))
      have h2 := he c (by simp [Node.children])
      clear he hs hp hk hf hc hb hd hi hpr hm hca hct hsw hel hsl hpl hdl hprl hml hcal hin hex
      simp only [codeOf, codeExpr, codeExprs_eq]
      count
    | object l ps =>
      have h1 := writeObject_loose codeProperty .prop ps (hprl ps (fun x hx => by simp [Node.children, hx]))
      clear he hs hp hk hf hc hb hd hi hpr hm hca hct hsw hel hsl hpl hdl hprl hml hcal hin hex
      simp only [codeOf, codeExpr, codeProperties_eq]
      count
    | function l f =>
      have h1 := hf f (by simp [Node.children])
      clear he hs hp hk hf hc hb hd hi hpr hm hca hct hsw hel hsl hpl hdl hprl hml hcal hin hex
      simp only [codeOf, codeExpr]
      count
    | «class» l c =>
      have h1 := hc c (by simp [Node.children])
      clear he hs hp hk hf hc hb hd hi hpr hm hca hct hsw hel hsl hpl hdl hprl hml hcal hin hex
      simp only [codeOf, codeExpr]
      count
    | member l o p =>
      have h1 := writeExpression_airy (e := o) (k := 19) (he o (by simp [Node.children]))
      clear he hs hp hk hf hc hb hd hi hpr hm hca hct hsw hel hsl hpl hdl hprl hml hcal hin hex
      simp only [codeOf, codeExpr]
      count
    | cmember l o p =>
      have h1 := writeExpression_airy (e := o) (k := 19) (he o (by simp [Node.children]))
      have h2 := he p (by simp [Node.children])
      clear he hs hp hk hf hc hb hd hi hpr hm hca hct hsw hel hsl hpl hdl hprl hml hcal hin hex
      simp only [codeOf, codeExpr]
      count
    | binary l op a b =>
      have h1 := writeExpression_airy (e := a) (k := op.bindingPower) (he a (by simp [Node.children]))
      have h2 := writeExpression_airy (e := b) (k := op.bindingPower + 1) (he b (by simp [Node.children]))
      have h3 := space_plain (binarySpacing op a b).1
      have h4 := space_plain (binarySpacing op a b).2
      have h5 := asStr_pos op
      clear he hs hp hk hf hc hb hd hi hpr hm hca hct hsw hel hsl hpl hdl hprl hml hcal hin hex
      simp only [codeOf, codeExpr]
      generalize space (binarySpacing op a b).1 = s1 at *
      generalize space (binarySpacing op a b).2 = s2 at *
      rw [← List.singleton_append (x := s1), ← List.singleton_append (x := s2)] at *
      count
    | «prefix» l op a =>
      have h1 := he a (by simp [Node.children])
      clear he hs hp hk hf hc hb hd hi hpr hm hca hct hsw hel hsl hpl hdl hprl hml hcal hin hex
      simp only [codeOf, codeExpr]
      split <;> count
    | «postfix» l op a | spread l a =>
      have h1 := he a (by simp [Node.children])
      clear he hs hp hk hf hc hb hd hi hpr hm hca hct hsw hel hsl hpl hdl hprl hml hcal hin hex
      simp only [codeOf, codeExpr]
      count
    | cond l a b c =>
      have h1 := he a (by simp [Node.children])
      have h2 := he b (by simp [Node.children])
      have h3 := he c (by simp [Node.children])
      clear he hs hp hk hf hc hb hd hi hpr hm hca hct hsw hel hsl hpl hdl hprl hml hcal hin hex
      simp only [codeOf, codeExpr]
      count
    | lit l v =>
      have h1 := codeLiteral_plain v
      clear he hs hp hk hf hc hb hd hi hpr hm hca hct hsw hel hsl hpl hdl hprl hml hcal hin hex
      simp only [codeOf, codeExpr]
      count
    | _ =>
      clear he hs hp hk hf hc hb hd hi hpr hm hca hct hsw hel hsl hpl hdl hprl hml hcal hin hex
      simp only [codeOf, codeExpr]
      count
  · cases k with
    | computed l e =>
      have h1 := he e (by simp [Node.children])
      clear he hs hp hk hf hc hb hd hi hpr hm hca hct hsw hel hsl hpl hdl hprl hml hcal
      simp only [codeOf, codeKey]
      count
    | _ =>
      clear he hs hp hk hf hc hb hd hi hpr hm hca hct hsw hel hsl hpl hdl hprl hml hcal
      simp only [codeOf, codeKey]
      count
  · cases p with
    | literal l k v =>
      have h1 := he v (by simp [Node.children])
      have h2 := hk k (by simp [Node.children])
      clear he hs hp hk hf hc hb hd hi hpr hm hca hct hsw hel hsl hpl hdl hprl hml hcal
      simp only [codeOf, codeProperty]
      count
    | method l k l' f =>
      have h1 := hf f (by simp [Node.children])
      have h2 := hk k (by simp [Node.children])
      clear he hs hp hk hf hc hb hd hi hpr hm hca hct hsw hel hsl hpl hdl hprl hml hcal
      simp only [codeOf, codeProperty]
      count
    | spread l e =>
      have h1 := he e (by simp [Node.children])
      clear he hs hp hk hf hc hb hd hi hpr hm hca hct hsw hel hsl hpl hdl hprl hml hcal
      simp only [codeOf, codeProperty]
      count
    | shorthand =>
      clear he hs hp hk hf hc hb hd hi hpr hm hca hct hsw hel hsl hpl hdl hprl hml hcal
      simp only [codeOf, codeProperty]
      count
  · cases p with
    | object l ps =>
      have h1 := writeList_loose codeProperty .prop ps (hprl ps (fun x hx => by simp [Node.children, hx]))
      clear he hs hp hk hf hc hb hd hi hpr hm hca hct hsw hel hsl hpl hdl hprl hml hcal
      simp only [codeOf, codePattern, codeProperties_eq]
      count
    | array l ps =>
      have h1 := writeList_loose codePattern .pat ps (hpl ps (fun x hx => by simp [Node.children, hx]))
      clear he hs hp hk hf hc hb hd hi hpr hm hca hct hsw hel hsl hpl hdl hprl hml hcal
      simp only [codeOf, codePattern, codePatterns_eq]
      count
    | assign l p e =>
      have h1 := he e (by simp [Node.children])
      have h2 := hp p (by simp [Node.children])
      clear he hs hp hk hf hc hb hd hi hpr hm hca hct hsw hel hsl hpl hdl hprl hml hcal
      simp only [codeOf, codePattern]
      count
    | _ =>
      clear he hs hp hk hf hc hb hd hi hpr hm hca hct hsw hel hsl hpl hdl hprl hml hcal
      simp only [codeOf, codePattern]
      count
  · obtain ⟨n, g, ps, ⟨l, b⟩⟩ := f
    have h1 := writeList_loose codePattern .pat ps (hpl ps (fun x hx => by simp [Node.children, hx]))
    have h2 := writeBraces_loose codeStmt .stmt b (hsl b (fun x hx => by simp [Node.children, hx]))
    have h3 := codeKeyword_plain bs!"function" n
    have h4 := codeName_plain n
    clear he hs hp hk hf hc hb hd hi hpr hm hca hct hsw hel hsl hpl hdl hprl hml hcal
    simp only [codeOf, codeFunc, codeBlock, codeStmts_eq, codePatterns_eq]
    count
  · obtain ⟨n, s, l, ms⟩ := c
    have h0 := writeBraces_blank codeMember .member ms (hml ms (fun x hx => by simp [Node.children, hx]))
    have h1 := writeBraces_loose codeMember .member ms (hml ms (fun x hx => by simp [Node.children, hx]))
    have h2 := codeKeyword_plain bs!"class" n
    have h3 := codeName_plain n
    cases s with
    | none =>
      clear he hs hp hk hf hc hb hd hi hpr hm hca hct hsw hel hsl hpl hdl hprl hml hcal
      simp only [codeOf, codeClass, codeMembers_eq]
      count
    | some e =>
      have h4 := he e (by simp [Node.children])
      clear he hs hp hk hf hc hb hd hi hpr hm hca hct hsw hel hsl hpl hdl hprl hml hcal
      simp only [codeOf, codeClass, codeMembers_eq]
      count
  · cases m with
    | error => simp [Airy, minLen, Node.children, censuses_nil, codeOf, codeMember, blankCount, lineCount, indentCount]
    | literal l s k v =>
      have h1 := he v (by simp [Node.children])
      have h2 := hk k (by simp [Node.children])
      clear he hs hp hk hf hc hb hd hi hpr hm hca hct hsw hel hsl hpl hdl hprl hml hcal
      simp only [codeOf, codeMember]
      cases s <;> count
    | method l s k kd l' f =>
      have h1 := hf f (by simp [Node.children])
      have h2 := hk k (by simp [Node.children])
      have h3 := codePrefix_plain s kd
      clear he hs hp hk hf hc hb hd hi hpr hm hca hct hsw hel hsl hpl hdl hprl hml hcal
      simp only [codeOf, codeMember]
      count
  · obtain ⟨l, b⟩ := b
    have h1 := writeBraces_loose codeStmt .stmt b (hsl b (fun x hx => by simp [Node.children, hx]))
    clear he hs hp hk hf hc hb hd hi hpr hm hca hct hsw hel hsl hpl hdl hprl hml hcal
    simp only [codeOf, codeBlock, codeStmts_eq]
    count
  · cases s with
    | empty =>
      clear he hs hp hk hf hc hb hd hi hpr hm hca hct hsw hel hsl hpl hdl hprl hml hcal
      simp only [codeOf, codeStmt]
      count
    | debugger =>
      clear he hs hp hk hf hc hb hd hi hpr hm hca hct hsw hel hsl hpl hdl hprl hml hcal
      simp only [codeOf, codeStmt]
      count
    | expr l e =>
      have h1 := he e (by simp [Node.children])
      clear he hs hp hk hf hc hb hd hi hpr hm hca hct hsw hel hsl hpl hdl hprl hml hcal
      simp only [codeOf, codeStmt]
      split <;> count
    | decl l k ds =>
      have h1 := writeList_loose codeDeclarator .declarator ds (hdl ds (fun x hx => by simp [Node.children, hx]))
      have h2 := codeKind_plain k
      clear he hs hp hk hf hc hb hd hi hpr hm hca hct hsw hel hsl hpl hdl hprl hml hcal
      simp only [codeOf, codeStmt, codeDeclarators_eq]
      count
    | ret l v => cases v with
      | none =>
        clear he hs hp hk hf hc hb hd hi hpr hm hca hct hsw hel hsl hpl hdl hprl hml hcal
        simp only [codeOf, codeStmt]
        count
      | some e =>
        have h1 := he e (by simp [Node.children])
        clear he hs hp hk hf hc hb hd hi hpr hm hca hct hsw hel hsl hpl hdl hprl hml hcal
        simp only [codeOf, codeStmt]
        count
    | brk l v =>
      have h1 := codeJump_plain bs!"break" v
      clear he hs hp hk hf hc hb hd hi hpr hm hca hct hsw hel hsl hpl hdl hprl hml hcal
      simp only [codeOf, codeStmt]
      count
    | cont l v =>
      have h1 := codeJump_plain bs!"continue" v
      clear he hs hp hk hf hc hb hd hi hpr hm hca hct hsw hel hsl hpl hdl hprl hml hcal
      simp only [codeOf, codeStmt]
      count
    | throw l e =>
      have h1 := he e (by simp [Node.children])
      clear he hs hp hk hf hc hb hd hi hpr hm hca hct hsw hel hsl hpl hdl hprl hml hcal
      simp only [codeOf, codeStmt]
      count
    | ifS l t c a => cases a with
      | none =>
        have h1 := he t (by simp [Node.children])
        have h2 := hs c (by simp [Node.children])
        clear he hs hp hk hf hc hb hd hi hpr hm hca hct hsw hel hsl hpl hdl hprl hml hcal
        simp only [codeOf, codeStmt]
        count
      | some a =>
        have h1 := he t (by simp [Node.children])
        have h2 := hs c (by simp [Node.children])
        have h3 := hs a (by simp [Node.children])
        clear he hs hp hk hf hc hb hd hi hpr hm hca hct hsw hel hsl hpl hdl hprl hml hcal
        simp only [codeOf, codeStmt]
        cases c.isBlock <;> cases a.isBlock <;> count
    | whileS l t b =>
      have h1 := he t (by simp [Node.children])
      have h2 := hs b (by simp [Node.children])
      clear he hs hp hk hf hc hb hd hi hpr hm hca hct hsw hel hsl hpl hdl hprl hml hcal
      simp only [codeOf, codeStmt]
      count
    | doS l b t =>
      have h1 := he t (by simp [Node.children])
      have h2 := hs b (by simp [Node.children])
      clear he hs hp hk hf hc hb hd hi hpr hm hca hct hsw hel hsl hpl hdl hprl hml hcal
      simp only [codeOf, codeStmt]
      cases b.isBlock <;> count
    | forS l i t u b =>
      have h0 := hs b (by simp [Node.children])
      cases i with
      | none => cases t with
        | none => cases u with
          | none =>
            clear he hs hp hk hf hc hb hd hi hpr hm hca hct hsw hel hsl hpl hdl hprl hml hcal
            simp only [codeOf, codeStmt]
            count
          | some u =>
            have h1 := he u (by simp [Node.children])
            clear he hs hp hk hf hc hb hd hi hpr hm hca hct hsw hel hsl hpl hdl hprl hml hcal
            simp only [codeOf, codeStmt]
            count
        | some t => cases u with
          | none =>
            have h1 := he t (by simp [Node.children])
            clear he hs hp hk hf hc hb hd hi hpr hm hca hct hsw hel hsl hpl hdl hprl hml hcal
            simp only [codeOf, codeStmt]
            count
          | some u =>
            have h1 := he t (by simp [Node.children])
            have h2 := he u (by simp [Node.children])
            clear he hs hp hk hf hc hb hd hi hpr hm hca hct hsw hel hsl hpl hdl hprl hml hcal
            simp only [codeOf, codeStmt]
            count
      | some i => cases t with
        | none => cases u with
          | none =>
            have h1 := hi i (by simp [Node.children])
            clear he hs hp hk hf hc hb hd hi hpr hm hca hct hsw hel hsl hpl hdl hprl hml hcal
            simp only [codeOf, codeStmt]
            count
          | some u =>
            have h1 := hi i (by simp [Node.children])
            have h2 := he u (by simp [Node.children])
            clear he hs hp hk hf hc hb hd hi hpr hm hca hct hsw hel hsl hpl hdl hprl hml hcal
            simp only [codeOf, codeStmt]
            count
        | some t => cases u with
          | none =>
            have h1 := hi i (by simp [Node.children])
            have h2 := he t (by simp [Node.children])
            clear he hs hp hk hf hc hb hd hi hpr hm hca hct hsw hel hsl hpl hdl hprl hml hcal
            simp only [codeOf, codeStmt]
            count
          | some u =>
            have h1 := hi i (by simp [Node.children])
            have h2 := he t (by simp [Node.children])
            have h3 := he u (by simp [Node.children])
            clear he hs hp hk hf hc hb hd hi hpr hm hca hct hsw hel hsl hpl hdl hprl hml hcal
            simp only [codeOf, codeStmt]
            count
    | forIn l i r b =>
      have h1 := hi i (by simp [Node.children])
      have h2 := he r (by simp [Node.children])
      have h3 := hs b (by simp [Node.children])
      clear he hs hp hk hf hc hb hd hi hpr hm hca hct hsw hel hsl hpl hdl hprl hml hcal
      simp only [codeOf, codeStmt]
      count
    | forOf l i r b =>
      have h1 := hi i (by simp [Node.children])
      have h2 := he r (by simp [Node.children])
      have h3 := hs b (by simp [Node.children])
      clear he hs hp hk hf hc hb hd hi hpr hm hca hct hsw hel hsl hpl hdl hprl hml hcal
      simp only [codeOf, codeStmt]
      count
    | tryS l b h f =>
      have h0 := hb b (by simp [Node.children])
      cases h with
      | none => cases f with
        | none =>
          clear he hs hp hk hf hc hb hd hi hpr hm hca hct hsw hel hsl hpl hdl hprl hml hcal
          simp only [codeOf, codeStmt]
          count
        | some f =>
          have h1 := hb f (by simp [Node.children])
          clear he hs hp hk hf hc hb hd hi hpr hm hca hct hsw hel hsl hpl hdl hprl hml hcal
          simp only [codeOf, codeStmt]
          count
      | some h => cases f with
        | none =>
          have h1 := hct h (by simp [Node.children])
          clear he hs hp hk hf hc hb hd hi hpr hm hca hct hsw hel hsl hpl hdl hprl hml hcal
          simp only [codeOf, codeStmt]
          count
        | some f =>
          have h1 := hct h (by simp [Node.children])
          have h2 := hb f (by simp [Node.children])
          clear he hs hp hk hf hc hb hd hi hpr hm hca hct hsw hel hsl hpl hdl hprl hml hcal
          simp only [codeOf, codeStmt]
          count
    | block l b =>
      have h1 := writeBraces_loose codeStmt .stmt b (hsl b (fun x hx => by simp [Node.children, hx]))
      clear he hs hp hk hf hc hb hd hi hpr hm hca hct hsw hel hsl hpl hdl hprl hml hcal
      simp only [codeOf, codeStmt, codeStmts_eq]
      count
    | labeled l n b =>
      have h1 := hs b (by simp [Node.children])
      clear he hs hp hk hf hc hb hd hi hpr hm hca hct hsw hel hsl hpl hdl hprl hml hcal
      simp only [codeOf, codeStmt]
      count
    | function l f =>
      have h1 := hf f (by simp [Node.children])
      clear he hs hp hk hf hc hb hd hi hpr hm hca hct hsw hel hsl hpl hdl hprl hml hcal
      simp only [codeOf, codeStmt]
      count
    | «class» l c =>
      have h1 := hc c (by simp [Node.children])
      clear he hs hp hk hf hc hb hd hi hpr hm hca hct hsw hel hsl hpl hdl hprl hml hcal
      simp only [codeOf, codeStmt]
      count
    | switch l d l' cs =>
      have h1 := hsw cs (by simp [Node.children])
      have h2 := he d (by simp [Node.children])
      clear he hs hp hk hf hc hb hd hi hpr hm hca hct hsw hel hsl hpl hdl hprl hml hcal
      simp only [codeOf, codeStmt]
      count
    | «import» l ss src =>
      have h1 := codeImport_loose ss src
      clear he hs hp hk hf hc hb hd hi hpr hm hca hct hsw hel hsl hpl hdl hprl hml hcal
      simp only [codeOf, codeStmt]
      count
  · obtain ⟨l, p, i⟩ := d
    cases i with
    | none =>
      have h1 := hp p (by simp [Node.children])
      clear he hs hp hk hf hc hb hd hi hpr hm hca hct hsw hel hsl hpl hdl hprl hml hcal
      simp only [codeOf, codeDeclarator]
      count
    | some e =>
      have h1 := hp p (by simp [Node.children])
      have h2 := he e (by simp [Node.children])
      clear he hs hp hk hf hc hb hd hi hpr hm hca hct hsw hel hsl hpl hdl hprl hml hcal
      simp only [codeOf, codeDeclarator]
      count
  · cases i with
    | decl l k ds =>
      have h1 := writeList_loose codeDeclarator .declarator ds (hdl ds (fun x hx => by simp [Node.children, hx]))
      have h2 := codeKind_plain k
      clear he hs hp hk hf hc hb hd hi hpr hm hca hct hsw hel hsl hpl hdl hprl hml hcal
      simp only [codeOf, codeForInit, codeDeclarators_eq]
      count
    | expr l e =>
      have h1 := he e (by simp [Node.children])
      clear he hs hp hk hf hc hb hd hi hpr hm hca hct hsw hel hsl hpl hdl hprl hml hcal
      simp only [codeOf, codeForInit]
      count
  · obtain ⟨l, t, b⟩ := c
    cases t with
    | none =>
      have h1 := writeBlock_loose codeStmt .stmt b (hsl b (fun x hx => by simp [Node.children, hx]))
      clear he hs hp hk hf hc hb hd hi hpr hm hca hct hsw hel hsl hpl hdl hprl hml hcal
      simp only [codeOf, codeCase, codeStmts_eq]
      count
    | some e =>
      have h1 := writeBlock_loose codeStmt .stmt b (hsl b (fun x hx => by simp [Node.children, hx]))
      have h2 := he e (by simp [Node.children])
      clear he hs hp hk hf hc hb hd hi hpr hm hca hct hsw hel hsl hpl hdl hprl hml hcal
      simp only [codeOf, codeCase, codeStmts_eq]
      count
  · obtain ⟨l, p, b⟩ := c
    have h1 := hp p (by simp [Node.children])
    have h2 := hb b (by simp [Node.children])
    clear he hs hp hk hf hc hb hd hi hpr hm hca hct hsw hel hsl hpl hdl hprl hml hcal
    simp only [codeOf, codeCatch]
    count
  · have h0 := writeBraces_loose codeCase .case cs (hcal cs (fun x hx => by simp [Node.children, hx]))
    clear he hs hp hk hf hc hb hd hi hpr hm hca hct hsw hel hsl hpl hdl hprl hml hcal
    simp only [codeOf, codeCases_eq]
    count
end Ratel
