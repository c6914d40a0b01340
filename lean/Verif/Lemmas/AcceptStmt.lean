import Verif.Lemmas.AcceptExpr
/-! Statements of error-free runs. -/
namespace Ratel
open Spec

set_option linter.unusedSectionVars false
variable [Unicode]

variable {src : Bytes} {n : Nat} {R : Rec} [Rec.Known src R] [hR : Rec.Ok src R]

/-! ### Declarations -/

abbrev DeclRead (src : Bytes) (l : Lex) (d : Declarator) (l' : Lex) : Prop := Full src (.declarator d) (declaratorLoc d) l l'

instance : Sp src (variableDeclarator n R) (DeclRead src) := ⟨fun l hl => by
  unfold variableDeclarator
  walk
  all_goals
    open_all
    full
    · good <;> grind
    all_goals grind⟩

abbrev DeclsRead (src : Bytes) (l : Lex) (ds : List Declarator) (l' : Lex) : Prop :=
  Reads src true .declarator declaratorLoc (fun _ => True) l ds l' ∧ ds ≠ []

instance : Sp src (variableDeclarators n R) (DeclsRead src) := ⟨fun l hl => by
  unfold variableDeclarators
  walk
  rename_i hx
  refine W.loop (src := src) (fun acc m => At src m ∧ Adv src l m ∧ DeclsRead src l acc m) (fun acc m hm => ?_)
    (by mono) ⟨by assumption, by assumption, .single hx.toRead trivial, by simp⟩
  obtain ⟨h1, h2, h3, h8⟩ := hm
  walk
  · rename_i h7 h4 h5 h6
    refine ⟨h4, ?_, h3.snoc (fun _ => ?_) h6.toRead trivial ?_ ?_ ?_ ?_, by simp⟩
    · constructor <;> (open_all; omega)
    all_goals (open_all; omega)
  · exact ⟨h3, h8⟩⟩

theorem variableDeclarationStatement_ok {k : DeclKind} {l : Lex} (hl : At src l) (ht : fixedText l.token = declWord k) :
    W (variableDeclarationStatement n R k) l (StmtRead src l) := by
  unfold variableDeclarationStatement
  walk
  dsimp only [DeclsRead] at *
  open_all
  full
  · good <;> grind
  all_goals grind

abbrev InitRead (src : Bytes) (l : Lex) (d : ForInit) (l' : Lex) : Prop := Full src (.forInit d) (forInitLoc d) l l'

instance {k} : Sp src (forInit n R k) fun l d l' => fixedText l.token = declWord k → InitRead src l d l' := ⟨fun l hl => by
  unfold forInit
  walk
  intro ht
  dsimp only [DeclsRead] at *
  open_all
  full
  · good <;> grind
  all_goals grind⟩

/-! ### Simple statements -/

theorem returnStatement_ok {l : Lex} (hl : At src l) (ht : l.token = .Return) : W (returnStatement R) l (StmtRead src l) := by
  unfold returnStatement
  walk
  all_goals
    open_all
    full
    · good <;> grind
    all_goals grind

theorem throwStatement_ok {l : Lex} (hl : At src l) (ht : l.token = .Throw) : W (throwStatement R) l (StmtRead src l) := by
  unfold throwStatement
  walk
  all_goals
    open_all
    full
    · good <;> grind
    all_goals grind

instance : Sp src jumpStatement fun l r l' => (∀ i ∈ r.2, IdentRead src l i l' ∧ r.1.stop = i.loc.stop) ∧ r.1.start = l.tokenStart ∧
    l.index ≤ r.1.stop ∧ (r.2 = none → r.1.stop = l.index) ∧ r.1.stop ≤ l'.tokenStart ∧ r.1.stop ≤ src.length := ⟨fun l hl => by
  unfold jumpStatement
  walk
  · simp
    open_all
    grind
  · simp
    open_all
    grind
  · simp
    open_all
    refine ⟨⟨?_, ?_, ?_, ?_, ?_, ?_⟩, ?_⟩ <;> grind⟩

theorem ifStatement_ok {l : Lex} (hl : At src l) (ht : l.token = .If) : W (ifStatement R) l (StmtRead src l) := by
  unfold ifStatement
  walk
  all_goals
    open_all
    full
    · good <;> grind
    all_goals grind

theorem whileStatement_ok {l : Lex} (hl : At src l) (ht : l.token = .While) : W (whileStatement R) l (StmtRead src l) := by
  unfold whileStatement
  walk
  all_goals
    open_all
    full
    · good <;> grind
    all_goals grind

theorem doStatement_ok {l : Lex} (hl : At src l) (ht : l.token = .Do) : W (doStatement R) l (StmtRead src l) := by
  unfold doStatement
  walk
  all_goals
    open_all
    full
    · good <;> grind
    all_goals grind

theorem BlockRead.node {l l' : Lex} {b : Block} (h : BlockRead src .stmt Stmt.loc (fun _ => True) l (b.loc, b.body) l') (hl : At src l)
    (hl' : At src l') : (Node.block b).Forall (Good src) := by
  obtain ⟨loc, body⟩ := b
  cases h
  open_all
  simp at *
  good <;> grind

abbrev CatchRead (src : Bytes) (l : Lex) (d : Catch) (l' : Lex) : Prop := Full src (.catch d) d.loc l l' ∧ d.loc.stop ≤ l'.tokenStart

instance : Sp src (catchClause n R) fun l d l' => l.token = .Catch → CatchRead src l d l' := ⟨fun l hl => by
  unfold catchClause
  walk
  intro ht
  rename_i hb
  have g := hb.node (by assumption) (by assumption)
  inst_all
  cases_type* BlockRead
  open_all
  refine ⟨?_, by grind⟩
  full
  · good <;> grind
  all_goals grind⟩

theorem tryStatement_ok {l : Lex} (hl : At src l) (ht : l.token = .Try) : W (tryStatement n R) l (StmtRead src l) := by
  unfold tryStatement
  walk
  · rename_i b1 _ _ _ _ _ _ c _ _ _ _ _ _ b2
    have c := c (by assumption)
    have g1 := b1.node (by assumption) (by assumption)
    have g2 := b2.node (by assumption) (by assumption)
    dsimp only [CatchRead] at *
    inst_all
    cases_type* BlockRead
    open_all
    full
    · good <;> grind
    all_goals grind
  · rename_i b1 _ _ _ _ c _
    have c := c (by assumption)
    have g1 := b1.node (by assumption) (by assumption)
    dsimp only [CatchRead] at *
    inst_all
    cases_type* BlockRead
    open_all
    full
    · good <;> grind
    all_goals grind
  · rename_i b1 _ _ _ _ _ _ _ b2
    have g1 := b1.node (by assumption) (by assumption)
    have g2 := b2.node (by assumption) (by assumption)
    inst_all
    cases_type* BlockRead
    open_all
    full
    · good <;> grind
    all_goals grind

/-! ### Loops -/

theorem forRest_ok {l0 l : Lex} {i : Option ForInit} (hl0 : At src l0) (hl : At src l) (ht : l0.token = .For) (ha : l0.index ≤ l.tokenStart)
    (hi : ∀ x ∈ i, (Node.forInit x).Forall (Good src) ∧ l0.tokenStart ≤ (forInitLoc x).start ∧ (forInitLoc x).start ≤ (forInitLoc x).stop ∧
      (forInitLoc x).start ≤ l.tokenStart ∧ (forInitLoc x).stop ≤ l.tokenStart) :
    W (forRest R l0.tokenStart i) l (StmtRead src l0 · ·) := by
  unfold forRest
  walk
  all_goals
    cases i <;> simp at hi <;> (
      open_all
      full
      · good <;> grind
      all_goals grind)

instance {s} : Sp src (forEachRest R s) fun l r l' => ExprRead src l r.2.1 l' ∧ StmtRead src l r.2.2 l' ∧ r.1.start = s ∧
    r.1.stop = r.2.2.loc.stop ∧ r.2.1.loc.stop ≤ r.1.stop ∧ r.2.1.loc.start ≤ r.2.2.loc.start ∧ r.2.1.loc.stop ≤ r.2.2.loc.start := ⟨fun l hl => by
  unfold forEachRest
  walk
  open_all
  refine ⟨?_, ?_, rfl, rfl, ?_, ?_, ?_⟩
  · full <;> grind
  · full <;> grind
  all_goals grind⟩

theorem forAfterInit_ok {l0 l : Lex} {x : ForInit} (hl0 : At src l0) (hl : At src l) (ht : l0.token = .For) (ha : l0.index ≤ l.tokenStart)
    (hi : (Node.forInit x).Forall (Good src) ∧ l0.tokenStart ≤ (forInitLoc x).start ∧ (forInitLoc x).start ≤ (forInitLoc x).stop ∧
      (forInitLoc x).start ≤ l.tokenStart ∧ (forInitLoc x).stop ≤ l.index) :
    W (forAfterInit R l0.tokenStart x) l (StmtRead src l0 · ·) := by
  unfold forAfterInit
  walk
  · obtain ⟨loc, e, b⟩ := a
    open_all
    full
    · good <;> grind
    all_goals grind
  · obtain ⟨loc, e, b⟩ := a
    open_all
    full
    · good <;> grind
    all_goals grind
  · refine forRest_ok hl0 (by assumption) ht (by open_all; omega) ?_
    simp
    open_all
    grind

theorem ExprRead.init {l0 l l' : Lex} {e : Expr} (h : ExprRead src l e l') (hl : At src l) (hl' : At src l') (h0 : l0.tokenStart ≤ l.tokenStart) :
    (Node.forInit (.expr e.loc e)).Forall (Good src) ∧ l0.tokenStart ≤ (forInitLoc (.expr e.loc e)).start ∧
      (forInitLoc (.expr e.loc e)).start ≤ (forInitLoc (.expr e.loc e)).stop ∧
      (forInitLoc (.expr e.loc e)).start ≤ l'.tokenStart ∧ (forInitLoc (.expr e.loc e)).stop ≤ l'.index := by
  open_all
  refine ⟨?_, ?_, ?_, ?_, ?_⟩
  · good <;> grind
  all_goals grind

theorem init_good {e : Expr} (h : (Node.expr e).Forall (Good src)) (h1 : (Node.expr e).isHole = false) :
    (Node.forInit (.expr e.loc e)).Forall (Good src) := by
  have sa := (Node.forall_iff.1 h).1.spans e.loc (by simp [Node.span])
  good <;> grind

theorem binary_parts {loc : Loc} {op : Op} {a b : Expr} (h : (Node.expr (.binary loc op a b)).Forall (Good src)) :
    (Node.expr a).Forall (Good src) ∧ (Node.expr b).Forall (Good src) ∧ (Node.expr a).isHole = false ∧ (Node.expr b).isHole = false ∧
      loc.start ≤ a.loc.start ∧ a.loc.start ≤ a.loc.stop ∧ a.loc.stop ≤ loc.stop ∧ loc.start ≤ b.loc.start ∧
      b.loc.start ≤ b.loc.stop ∧ b.loc.stop ≤ loc.stop ∧ a.loc.start ≤ b.loc.start ∧ a.loc.stop ≤ b.loc.start := by
  obtain ⟨hg, hc⟩ := Node.forall_iff.1 h
  have ha := hc (.expr a) (by simp [Node.children])
  have hb := hc (.expr b) (by simp [Node.children])
  have sa := (Node.forall_iff.1 ha).1.spans a.loc (by simp [Node.span])
  have sb := (Node.forall_iff.1 hb).1.spans b.loc (by simp [Node.span])
  obtain ⟨⟨-, -, g0⟩, -, -, ⟨g6, g7, g8, g9, g10, g16⟩, -, -, -, -⟩ := hg
  simp [Node.children, Node.span, Node.contained, Node.listed, Node.isArray] at *
  grind

theorem forStatement_ok {l : Lex} (hl : At src l) (ht : l.token = .For) : W (forStatement n R) l (StmtRead src l) := by
  unfold forStatement
  walk
  · exact forRest_ok hl (by assumption) ht (by open_all; omega) (by simp)
  · rename_i h
    have h := h (by simp [*]; decide +kernel)
    exact forAfterInit_ok hl (by assumption) ht (by open_all; omega) (by dsimp only [InitRead] at *; open_all; grind)
  · rename_i h
    have h := h (by simp [*]; decide +kernel)
    exact forAfterInit_ok hl (by assumption) ht (by open_all; omega) (by dsimp only [InitRead] at *; open_all; grind)
  · rename_i h
    have h := h (by simp [*]; decide +kernel)
    exact forAfterInit_ok hl (by assumption) ht (by open_all; omega) (by dsimp only [InitRead] at *; open_all; grind)
  · rename_i h _ _ _ _ _ _ _
    obtain ⟨c1, c2, c3, c4, c5, c6, c7, c8, c9, c10, c11, c12⟩ := binary_parts h.good
    have hi := init_good c1 c3
    open_all
    full
    · good <;> grind
    all_goals grind
  · exact forAfterInit_ok hl (by assumption) ht (by open_all; omega) (ExprRead.init (by assumption) (by assumption) (by assumption) (by open_all; omega))

/-! ### Switch -/

abbrev CaseRead (src : Bytes) (l : Lex) (c : SwitchCase) (l' : Lex) : Prop := Full src (.case c) (caseLoc c) l l'

theorem switchCase_body {l0 l : Lex} {test : Option Expr} (hl0 : At src l0) (hl : At src l) (ha : Adv src l0 l)
    (ho : fixedText l0.token = if test.isSome then bs!"case" else bs!"default")
    (ht : ∀ e ∈ test, (Node.expr e).Forall (Good src) ∧ (Node.expr e).isHole = false ∧ l0.tokenStart ≤ e.loc.start ∧
      e.loc.start ≤ e.loc.stop ∧ e.loc.start ≤ l.tokenStart ∧ e.loc.stop ≤ l.index) :
    W (do
      let e ← stop
      expect .Colon
      let (e, body) ← loop n (fun (e, acc) => do
        match ← tok with
        | .Case | .Default | .BraceClose => pure (.done (e, acc))
        | _ => do
          let st ← R.stmt
          pure (.again (st.loc.stop, acc ++ [st]))) (e, [])
      pure (.mk ⟨l0.tokenStart, e⟩ test body)) l (CaseRead src l0 · ·) := by
  walk
  rename_i hc l1 n1
  refine .bind (src := src) (W.loop (src := src) (fun s m => At src m ∧ Adv src l' m ∧ l.index ≤ s.1 ∧ s.1 ≤ m.index ∧ (∀ x ∈ s.2, x.loc.stop ≤ s.1) ∧
    ((s.2 = [] → s.1 = l.index) ∧ ∀ x, s.2.getLast? = some x → s.1 = x.loc.stop) ∧ Reads src false .stmt Stmt.loc (fun _ => True) l' s.2 m) (fun s m hm => ?_)
    (by mono) ⟨l1, ⟨Nat.le_refl _, Nat.le_refl _⟩, Nat.le_refl _, by open_all; omega, by simp, by simp, .nil⟩) (fun _ => by mono)
  obtain ⟨e, acc⟩ := s
  obtain ⟨h1, h2, h3, h4, h5, h7, h6⟩ := hm
  walk
  all_goals (try change W _ _ _)
  case h_4 =>
    rename_i k1 k2 k3
    have k4 := h6.snoc (by simp) k3.toRead trivial (by open_all; omega) (by open_all; omega) (by open_all; omega) (by open_all; omega)
    refine ⟨k1, by open_all; constructor <;> omega, by dsimp only; open_all; omega, k3.hi, ?_, by simp, k4⟩
    intro x hx
    rcases List.mem_append.1 hx with hx | hx
    · have := h5 x hx
      dsimp only
      open_all
      omega
    · rw [List.mem_singleton] at hx
      rw [hx]
      exact Nat.le_refl _
  all_goals
    walk
    have h8 : Closes src e bs!":" ∨ acc ≠ [] := by
      cases acc
      · have he : e = l.index := h7.1 rfl
        have := hl.closes
        simp only [hc, fixedText_Colon] at this
        exact .inl (he ▸ this)
      · exact .inr (by simp)
    have h9 := h7.2
    clear h7
    cases test <;> simp at ht h5 ho <;> (
      open_all
      full
      · good <;> grind
      all_goals grind)

instance : Sp src (switchCase n R) (CaseRead src) := ⟨fun l hl => by
  unfold switchCase
  refine .start (.assoc (.tok ?_))
  dsimp only
  split
  · refine .assoc (.consume (src := src) hl fun l1 h1 n1 => .assoc (W.sp (src := src) h1 (fun a l2 h2 a2 x => .pure_bind ?_) (by mono)))
    exact switchCase_body hl h2 (by open_all; constructor <;> omega) (by simp [*, fixedText_Case]) (by simp; open_all; grind)
  · refine .assoc (.consume (src := src) hl fun l1 h1 n1 => .pure_bind ?_)
    exact switchCase_body hl h1 (by open_all; constructor <;> omega) (by simp [*, fixedText_Default]) (by simp)
  · exact .assoc (.error (src := src) (by mono))⟩

instance : Sp src (block n (switchCase n R)) (BlockRead src .case caseLoc fun _ => True) :=
  block_ok fun l hl => (Sp.is (src := src) l hl).weaken fun _ _ h => ⟨h.toRead, trivial⟩

theorem BlockRead.cases {l l' : Lex} {r : Loc × List SwitchCase} (h : BlockRead src .case caseLoc (fun _ => True) l r l') :
    (Node.switchBody r.2).Forall (Good src) := by
  cases h
  good <;> grind

theorem switchStatement_ok {l : Lex} (hl : At src l) (ht : l.token = .Switch) : W (switchStatement n R) l (StmtRead src l) := by
  unfold switchStatement
  walk
  rename_i h
  have g := h.cases
  inst_all
  cases_type* BlockRead
  open_all
  full
  · good <;> grind
  all_goals grind

end Ratel
