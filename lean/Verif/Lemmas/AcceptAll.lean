import Verif.Lemmas.AcceptStmt
/-! Expression statements, labels, imports; all procedures of error-free runs. -/
namespace Ratel
open Spec

set_option linter.unusedSectionVars false
variable [Unicode]

section
variable {src : Bytes} {n : Nat} {R : Rec} [Rec.Known src R] [hR : Rec.Ok src R]

/-! ### Expression statements -/

theorem At.identExpr {l l' : Lex} (hl : At src l) (ht : named l.token = true) (hn : Nxt src l l') (hl' : At src l') :
    ExprRead src l (.ident ⟨l.tokenStart, l.index⟩ l.tokenAsStr) l' := by
  obtain ⟨_, _, _, _, _, _⟩ := hl.ident ht hn
  open_all
  full
  · good <;> grind
  all_goals grind

theorem expressionStatement_rest {l0 l : Lex} {e : Expr} {s : Nat} (h : ExprRead src l0 e l) (hl0 : At src l0) (hl : At src l) (ha : Adv src l0 l)
    (hs : l0.tokenStart ≤ s ∧ ∀ e l', ExprRead src l0 e l' → s ≤ e.loc.start) :
    W (do
      let e ← nestedExpression n R .ANY e
      expectSemicolon
      pure (.expr ⟨s, e.loc.stop⟩ e)) l (StmtRead src l0 · ·) := by
  refine .call (src := src) hl (nestedExpression_ok h hl0 hl ha) (fun e l' h1 h2 h3 => ?_) (by mono)
  have hs' := hs.2 _ _ h3
  walk
  open_all
  full
  · good <;> grind
  all_goals grind

theorem expressionStatement_ok {l0 l : Lex} {e : Expr} (h : ExprRead src l0 e l) (hl0 : At src l0) (hl : At src l) (ha : Adv src l0 l) :
    W (expressionStatement n R e) l (StmtRead src l0 · ·) := by
  unfold expressionStatement
  refine .call (src := src) hl (nestedExpression_ok h hl0 hl ha) (fun e l' h1 h2 h3 => ?_) (by mono)
  walk
  open_all
  full
  · good <;> grind
  all_goals grind

theorem labeledOrExpressionStatement_ok {l : Lex} (hl : At src l) (ht : l.token = .Identifier) :
    W (labeledOrExpressionStatement n R) l (StmtRead src l) := by
  unfold labeledOrExpressionStatement
  walk
  · obtain ⟨_, _, _, _, _, _⟩ := hl.ident (by simp [ht]; rfl) (by assumption)
    have h1 := hl.text_length
    have h2 : l.index = l.tokenStart + l.tokenAsStr.length := by have := hl.start; omega
    open_all
    full
    · good <;> grind
    all_goals grind
  · exact expressionStatement_rest (hl.identExpr (by simp [ht]; rfl) (by assumption) (by assumption)) hl (by assumption)
      (by open_all; constructor <;> omega) ⟨Nat.le_refl _, fun _ _ h => h.lo⟩

/-! ### Imports -/

theorem W.stringContent {β : Type} {f : Bytes → P β} {v : Bytes} {l : Lex} {Q : β → Lex → Prop} (h : W (f ((v.drop 1).dropLast)) l Q) :
    W (Ratel.stringContent v >>= f) l Q := by
  unfold Ratel.stringContent
  split
  · intro _ _ h; cases h
  · exact .pure_bind h

/-- An import specifier that was read. -/
structure ImportRead (src : Bytes) (a : Nat) (s : ImportSpec) (m : Lex) : Prop where
  name : ∀ i ∈ importIdents s, i.name ≠ []
  text : ∀ i ∈ importIdents s, slice src i.loc.start i.loc.stop = i.name
  lo : ∀ i ∈ importIdents s, a ≤ i.loc.start
  ord : ∀ i ∈ importIdents s, i.loc.start ≤ i.loc.stop
  hi : ∀ i ∈ importIdents s, i.loc.stop ≤ m.index
  lo' : a ≤ (importLoc s).start
  ord' : (importLoc s).start ≤ (importLoc s).stop
  hi' : (importLoc s).stop ≤ m.index

theorem ImportRead.adv {a : Nat} {s : ImportSpec} {m m' : Lex} (h : ImportRead src a s m) (hm : m.index ≤ m'.index) : ImportRead src a s m' := by
  obtain ⟨h1, h2, h3, h4, h5, h6, h7, h8⟩ := h
  constructor <;> grind

theorem IdentRead.move {l l1 l2 l3 : Lex} {i : Ident} (h : IdentRead src l1 i l2) (h1 : l.tokenStart ≤ l1.tokenStart) (h2 : l.index ≤ l1.index)
    (h3 : l2.tokenStart ≤ l3.tokenStart) : IdentRead src l i l3 :=
  ⟨h.name, h.text, Nat.le_trans h1 h.lo, h.ord, Nat.le_trans h2 h.first, Nat.le_trans h.hi h3⟩

abbrev Specs (src : Bytes) (a0 : Nat) (acc r : List ImportSpec) (m : Lex) : Prop :=
  (∀ s ∈ r, ImportRead src a0 s m) ∧ ∃ t, r = acc ++ t ∧ ∀ s ∈ t, isNamed s = true

theorem importNamed_ok {a0 : Nat} {acc : List ImportSpec} {l : Lex} (hl : At src l) (ha : a0 ≤ l.tokenStart) (h : ∀ s ∈ acc, ImportRead src a0 s l) :
    W (importNamed n acc) l fun r l' => Specs src a0 acc r l' := by
  unfold importNamed
  refine W.loop (src := src) (fun acc' m => At src m ∧ Adv src l m ∧ Specs src a0 acc acc' m)
    (fun acc' m hm => ?_) (by mono) ⟨hl, ⟨Nat.le_refl _, Nat.le_refl _⟩, h, [], by simp⟩
  obtain ⟨h1, h2, h3, t, rfl, h4⟩ := hm
  have key : ∀ (x y : Ident) (m1 m2 : Lex), At src m1 → At src m2 → IdentRead src m x m1 → IdentRead src m y m1 → m1.index ≤ m2.index →
      Specs src a0 acc (acc ++ t ++ [.named ⟨m.tokenStart, m1.index⟩ x y]) m2 := by
    intro x y m1 m2 k1 k2 k3 k4 k5
    refine ⟨?_, t ++ [.named ⟨m.tokenStart, m1.index⟩ x y], by simp, ?_⟩
    · intro s hs
      rcases List.mem_append.1 hs with hs | hs
      · exact (h3 s hs).adv (by open_all; omega)
      · rw [List.mem_singleton] at hs
        subst hs
        open_all
        constructor <;> simp [importIdents, importLoc] <;> grind
    · intro s hs
      rcases List.mem_append.1 hs with hs | hs
      · exact h4 s hs
      · rw [List.mem_singleton] at hs
        subst hs
        rfl
  walk
  · rename_i x _ _ r1 _ _ _ _ _ _ _ r2 _ _ _ _
    exact ⟨by assumption, by open_all; constructor <;> omega, key _ _ _ _ (by assumption) (by assumption)
      (r1.move (Nat.le_refl _) (Nat.le_refl _) (by open_all; omega)) (r2.move (by open_all; omega) (by open_all; omega) (Nat.le_refl _)) (by open_all; omega)⟩
  · rename_i x _ _ r1 _ _ _ _ _ _ _ r2 _ _ _ _
    exact key _ _ _ _ (by assumption) (by assumption)
      (r1.move (Nat.le_refl _) (Nat.le_refl _) (by open_all; omega)) (r2.move (by open_all; omega) (by open_all; omega) (Nat.le_refl _)) (by open_all; omega)
  · exact ⟨by assumption, by open_all; constructor <;> omega, key _ _ _ _ (by assumption) (by assumption)
      (by assumption) (by assumption) (by open_all; omega)⟩
  · exact key _ _ _ _ (by assumption) (by assumption) (by assumption) (by assumption) (by open_all; omega)

/-- The import clause behind a default binding or at the start. -/
abbrev Clause (src : Bytes) (a0 : Nat) (acc r : List ImportSpec) (m : Lex) : Prop :=
  (∀ s ∈ r, ImportRead src a0 s m) ∧ ∃ t, r = acc ++ t ∧ ((∀ s ∈ t, isNamed s = true) ∨ ∃ s, t = [s] ∧ isNamespace s = true)

theorem importSecond_ok {a0 : Nat} {acc : List ImportSpec} {l : Lex} (hl : At src l) (ha : a0 ≤ l.tokenStart) (h : ∀ s ∈ acc, ImportRead src a0 s l) :
    W (importSecond n acc) l fun r l' => Clause src a0 acc r l' := by
  unfold importSecond
  walk
  · refine (importNamed_ok (src := src) (by assumption) (by open_all; omega) (fun s hs => (h s hs).adv (by open_all; omega))).weaken ?_
    rintro r m ⟨h1, t, h2, h3⟩
    exact ⟨h1, t, h2, .inl h3⟩
  · refine ⟨?_, [_], rfl, .inr ⟨_, rfl, rfl⟩⟩
    intro s hs
    rcases List.mem_append.1 hs with hs | hs
    · exact (h s hs).adv (by open_all; omega)
    · rw [List.mem_singleton] at hs
      subst hs
      open_all
      constructor <;> simp [importIdents, importLoc] <;> grind

theorem At.source {l : Lex} (hl : At src l) (ht : l.token = .LiteralString) (k : Nat) (hk : k ≤ l.tokenStart) :
    ∃ a q, k ≤ a ∧ l.index = a + (l.tokenAsStr.drop 1).dropLast.length + 2 ∧ (q = #b'"' ∨ q = #b'\'') ∧
      slice src a l.index = q :: (l.tokenAsStr.drop 1).dropLast ++ [q] := by
  obtain ⟨q, s, h1, h2⟩ := hl.string ht
  have h3 := hl.text_length
  have h4 := hl.text
  have h5 := hl.start
  have h6 : (l.tokenAsStr.drop 1).dropLast = s := by simp [h2]
  refine ⟨l.tokenStart, q, hk, ?_, h1, ?_⟩
  · rw [h6]
    rw [h2] at h3
    simp at h3
    omega
  · rw [h6, h4, h2]

theorem import_good {l0 l l' : Lex} {s : Nat} {specs : List ImportSpec} (hl0 : At src l0) (hl : At src l) (hn : Nxt src l l') (hl' : At src l')
    (ht : l.token = .LiteralString) (ha : l0.index ≤ l.tokenStart) (hs : l0.tokenStart ≤ s) (hs' : s ≤ l.tokenStart)
    (ho : specs = [] ∨ Opens src s bs!"import")
    (h : ∀ x ∈ specs, ImportRead src s x l) (hc : ImportClause specs) :
    StmtRead src l0 (.import ⟨s, l.index⟩ specs (l.tokenAsStr.drop 1).dropLast) l' := by
  have h0 := hl.source ht s hs'
  have h1 := fun x hx => (h x hx).name
  have h2 := fun x hx => (h x hx).text
  have h3 := fun x hx => (h x hx).lo
  have h4 := fun x hx => (h x hx).ord
  have h5 := fun x hx => (h x hx).hi
  have h6 := fun x hx => (h x hx).lo'
  have h7 := fun x hx => (h x hx).ord'
  have h8 := fun x hx => (h x hx).hi'
  clear h
  generalize (l.tokenAsStr.drop 1).dropLast = v at *
  open_all
  full
  · good <;> grind
  all_goals grind

theorem importFrom_ok {l0 l : Lex} {specs : List ImportSpec} (hl0 : At src l0) (hl : At src l) (ht : l0.token = .Import) (ha : l0.index ≤ l.tokenStart)
    (h : ∀ s ∈ specs, ImportRead src l0.tokenStart s l) (hc : ImportClause specs) :
    W (importFrom l0.tokenStart specs) l (StmtRead src l0 · ·) := by
  unfold importFrom
  walk
  refine .stringContent ?_
  walk
  exact import_good hl0 (by assumption) (by assumption) (by assumption) (by assumption) (by open_all; omega) (Nat.le_refl _)
    (by open_all; omega) (.inr (by have := hl0.opens; rw [ht] at this; exact fixedText_Import ▸ this))
    (fun x hx => (h x hx).adv (by open_all; omega)) hc

theorem default_read {l0 l l' : Lex} {i : Ident} (hl : At src l) (hl' : At src l') (h : IdentRead src l i l') (h0 : l0.tokenStart ≤ l.tokenStart) :
    ∀ s ∈ [ImportSpec.default ⟨l.tokenStart, l'.index⟩ i], ImportRead src l0.tokenStart s l' := by
  intro s hs
  rw [List.mem_singleton] at hs
  subst hs
  open_all
  constructor <;> simp [importIdents, importLoc] <;> grind

theorem importDeclaration_ok {l : Lex} (hl : At src l) (ht : l.token = .Import) :
    W (importDeclaration n R) l (StmtRead src l) := by
  unfold importDeclaration
  walk
  · exact expressionStatement_rest (hl.identExpr (by simp [ht]; rfl) (by assumption) (by assumption)) hl (by assumption)
      (by open_all; constructor <;> omega) ⟨Nat.le_refl _, fun _ _ h => h.lo⟩
  · exact expressionStatement_rest (hl.identExpr (by simp [ht]; rfl) (by assumption) (by assumption)) hl (by assumption)
      (by open_all; constructor <;> omega) ⟨Nat.le_refl _, fun _ _ h => h.lo⟩
  · refine .call (src := src) (by assumption) (importSecond_ok (src := src) (a0 := l.tokenStart) (by assumption) (by open_all; omega)
      (fun s hs => (default_read (l0 := l) (by assumption) (by assumption) (by assumption) (by open_all; omega) s hs).adv (by open_all; omega)))
      (fun r m h1 h2 h3 => ?_) (fun _ => .known)
    obtain ⟨h3, t, rfl, h4⟩ := h3
    exact importFrom_ok hl h1 ht (by open_all; omega) h3 ⟨[_], t, rfl, .inr ⟨_, rfl, rfl⟩, h4⟩
  · exact importFrom_ok hl (by assumption) ht (by open_all; omega)
      (fun s hs => (default_read (l0 := l) (by assumption) (by assumption) (by assumption) (by open_all; omega) s hs))
      ⟨[_], [], rfl, .inr ⟨_, rfl, rfl⟩, .inl (by simp)⟩
  · refine .stringContent ?_
    walk
    exact import_good hl (by assumption) (by assumption) (by assumption) (by assumption) (by open_all; omega) (by open_all; omega)
      (by open_all; omega) (.inl rfl) (by simp) ⟨[], [], rfl, .inl rfl, .inl (by simp)⟩
  · refine .call (src := src) (by assumption) (importSecond_ok (src := src) (a0 := l.tokenStart) (by assumption) (by open_all; omega)
      (by simp)) (fun r m h1 h2 h3 => ?_) (fun _ => .known)
    obtain ⟨h3, t, h5, h4⟩ := h3
    exact importFrom_ok hl h1 ht (by open_all; omega) h3 ⟨[], t, h5, .inl rfl, h4⟩

/-! ### Statements -/

/-- The tokens that lead to a statement handler. -/
def SHTok (h : SH) (t : Token) : Bool :=
  match h with
  | .E h => EHTok h t && (h != .VOID)
  | .LABL => t == .Identifier
  | .IMPT => t == .Import
  | .EMPT => t == .Semicolon
  | .DBGGR => t == .Debugger
  | .BLCK => t == .BraceOpen
  | .VAR => t == .DeclarationVar
  | .LET => t == .DeclarationLet
  | .CONS => t == .DeclarationConst
  | .RET => t == .Return
  | .BRK => t == .Break
  | .THRW => t == .Throw
  | .CONT => t == .Continue
  | .FUNC => t == .Function
  | .CLAS => t == .Class
  | .IF => t == .If
  | .WHL => t == .While
  | .DO => t == .Do
  | .FOR => t == .For
  | .TRY => t == .Try
  | .SWCH => t == .Switch
  | .ERR => true

theorem stmtHandler_tok (t : Token) : SHTok (stmtHandler t) t = true := by
  revert t
  exact forall_token (by decide +kernel)

theorem runSH_ok {h : SH} {l : Lex} (hl : At src l) (ht : SHTok h l.token = true) :
    W (runSH n R h) l (StmtRead src l) := by
  cases h with
  | ERR => exact .start (.error (src := src) fun _ => .pure _)
  | VAR => exact variableDeclarationStatement_ok hl (by simp [SHTok] at ht; rw [ht]; decide +kernel)
  | LET => exact variableDeclarationStatement_ok hl (by simp [SHTok] at ht; rw [ht]; decide +kernel)
  | CONS => exact variableDeclarationStatement_ok hl (by simp [SHTok] at ht; rw [ht]; decide +kernel)
  | RET => exact returnStatement_ok hl (by simpa [SHTok] using ht)
  | THRW => exact throwStatement_ok hl (by simpa [SHTok] using ht)
  | IF => exact ifStatement_ok hl (by simpa [SHTok] using ht)
  | WHL => exact whileStatement_ok hl (by simpa [SHTok] using ht)
  | DO => exact doStatement_ok hl (by simpa [SHTok] using ht)
  | FOR => exact forStatement_ok hl (by simpa [SHTok] using ht)
  | TRY => exact tryStatement_ok hl (by simpa [SHTok] using ht)
  | SWCH => exact switchStatement_ok hl (by simpa [SHTok] using ht)
  | LABL => exact labeledOrExpressionStatement_ok hl (by simpa [SHTok] using ht)
  | IMPT => exact importDeclaration_ok hl (by simpa [SHTok] using ht)
  | E h =>
    simp [SHTok] at ht
    exact runEH_call hl ht.1 ht.2 (fun e l' h1 h2 h3 => expressionStatement_ok h3 hl h1 h2) (fun _ => .known)
  | EMPT =>
    have ht : l.token = .Semicolon := by simpa [SHTok] using ht
    unfold runSH
    walk
    open_all
    full
    · good <;> grind
    all_goals grind
  | DBGGR =>
    have ht : l.token = .Debugger := by simpa [SHTok] using ht
    unfold runSH
    walk
    open_all
    full
    · good <;> grind
    all_goals grind
  | BLCK =>
    have ht : l.token = .BraceOpen := by simpa [SHTok] using ht
    unfold runSH
    walk
    rename_i h
    have h := h ht
    inst_all
    cases_type* BlockRead
    open_all
    full
    · good <;> grind
    all_goals grind
  | BRK =>
    have ht : l.token = .Break := by simpa [SHTok] using ht
    unfold runSH
    walk
    rename_i h
    obtain ⟨loc, o⟩ := a
    cases o <;> simp at h <;> (
      open_all
      full
      · good <;> grind
      all_goals grind)
  | CONT =>
    have ht : l.token = .Continue := by simpa [SHTok] using ht
    unfold runSH
    walk
    rename_i h
    obtain ⟨loc, o⟩ := a
    cases o <;> simp at h <;> (
      open_all
      full
      · good <;> grind
      all_goals grind)
  | FUNC =>
    have ht : l.token = .Function := by simpa [SHTok] using ht
    unfold runSH
    walk
    inst_all
    cases_type* FuncRead
    open_all
    full
    · good <;> grind
    all_goals grind
  | CLAS =>
    have ht : l.token = .Class := by simpa [SHTok] using ht
    unfold runSH
    walk
    inst_all
    cases_type* ClassRead
    open_all
    full
    · good <;> grind
    all_goals grind

instance : Rec.Ok src (body n R) where
  defExpr _ := ⟨fun _ hl => expression_ok (c := .DEF) hl fun h => nomatch exprHandler_void _ _ h⟩
  callExpr _ := ⟨fun _ hl => expression_ok (c := .CALL) hl fun h => nomatch exprHandler_void _ _ h⟩
  element := ⟨fun _ hl => element_ok hl⟩
  stmt := ⟨fun _ hl => .tok (runSH_ok hl (stmtHandler_tok _))⟩
  patArray := inferInstanceAs (Sp src (patternArray n R) _)
  property := inferInstanceAs (Sp src (Ratel.property n R) _)

end

theorem procs_ok {src : Bytes} : ∀ n, Rec.Ok src (procs n)
  | 0 => ⟨fun _ => ⟨fun _ _ _ _ h => by cases h⟩, fun _ => ⟨fun _ _ _ _ h => by cases h⟩, ⟨fun _ _ _ _ h => by cases h⟩,
      ⟨fun _ _ _ _ h => by cases h⟩, ⟨fun _ _ _ _ h => by cases h⟩, ⟨fun _ _ _ _ h => by cases h⟩⟩
  | n + 1 => by
    have := procs_ok (src := src) n
    exact inferInstanceAs (Rec.Ok src (body n (procs n)))

instance {src : Bytes} {n : Nat} : Rec.Ok src (procs n) := procs_ok n

instance {src : Bytes} {n : Nat} {R : Rec} [Rec.Known src R] [Rec.Ok src R] :
    Sp src (program n R) (Reads src false .stmt Stmt.loc fun _ => True) := ⟨fun l hl => by
  unfold program
  walk
  · exact .nil
  · rename_i hx
    refine W.loop (src := src) (fun acc m => At src m ∧ Adv src l m ∧ Reads src false .stmt Stmt.loc (fun _ => True) l acc m) (fun acc m hm => ?_)
      (by mono) ⟨by assumption, by assumption, .single hx.toRead trivial⟩
    obtain ⟨h1, h2, h3⟩ := hm
    walk
    · exact h3
    · rename_i h4 h5 h6
      exact ⟨h4, ⟨Nat.le_trans h2.1 h5.1, Nat.le_trans h2.2 h5.2⟩,
        h3.snoc (by simp) h6.toRead trivial h2.1 (Nat.le_refl _) h5.2 h5.1⟩⟩

/-- The nodes of an accepted module are good and in order. -/
theorem accepted_good {fuel : Nat} {src : Bytes} {m : List Stmt} (h : parse fuel src = .ok (.ok m)) :
    (∀ s ∈ m, (Node.stmt s).Forall (Good src)) ∧ m.Pairwise fun a b => a.loc.start ≤ b.loc.start := by
  unfold parse runParser at h
  cases hn : Lex.new src <;> simp only [hn, Out.bind] at h
  all_goals try cases h
  rename_i l
  cases hp : program fuel (procs fuel) ⟨l, []⟩ <;> simp only [hp] at h
  all_goals try cases h
  rename_i r
  obtain ⟨b, s, es⟩ := r
  by_cases he : es = []
  · subst he
    simp at h
    subst h
    have := Sp.is (src := src) (m := program fuel (procs fuel)) l (Proper.new hn).at b s hp
    exact ⟨this.good, this.order⟩
  · simp [he] at h

end Ratel
