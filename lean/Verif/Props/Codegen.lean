import Verif.Lemmas.Code
import Verif.Lemmas.Powers
/-! Properties of the code generator: C22, C23, C24, C25, C26. -/
namespace Ratel
open Spec

/-! ### Layout properties -/

/-- Balanced code: printed at any depth it returns to that depth. -/
def Levelled (l : List Piece) : Prop :=
  ∀ d, ∃ x, ∀ r, runPretty d (l ++ r) = (runPretty d r >>= fun y => .ok (x ++ y.1, y.2))

theorem levelled_layout : Layout Levelled fun _ => True where
  nil d := ⟨[], fun r => by rw [List.nil_append]; cases runPretty d r <;> simp⟩
  append {a b} ha hb d := by
    obtain ⟨x, hx⟩ := ha d
    obtain ⟨y, hy⟩ := hb d
    refine ⟨x ++ y, fun r => ?_⟩
    rw [List.append_assoc, hx, hy]
    cases runPretty d r <;> simp
  text {t} _ d := ⟨t, fun r => rfl⟩
  sp d := ⟨bs!" ", fun r => rfl⟩
  line d := ⟨newLineText d, fun r => rfl⟩
  nest {a} ha d := by
    obtain ⟨x, hx⟩ := ha (d + 1)
    refine ⟨x, fun r => ?_⟩
    have := hx (.dedent :: r)
    simpa [runPretty] using this
  own _ := trivial

theorem noPanic_layout : Layout (fun l => Piece.panic ∉ l) fun _ => True where
  nil := by simp
  append := by simp_all
  text := by simp
  sp := by simp
  line := by simp
  nest := by simp
  own _ := trivial

theorem texts_layout (T : Bytes → Prop) (own : ∀ {t : Bytes}, (∀ b ∈ t, b ≠ #b'\n' ∧ b < 128) → T t) :
    Layout (fun l => ∀ t ∈ written l, T t) T where
  nil := by simp [written]
  append {a b} ha hb := by
    have : ∀ a b, written (a ++ b) = written a ++ written b := by
      intro a b
      induction a with
      | nil => rfl
      | cons x a ih => cases x <;> simp [written, ih]
    intro t ht
    rw [this, List.mem_append] at ht
    exact ht.elim (ha t) (hb t)
  text h := by simpa [written] using h
  sp := by simp [written]
  line := by simp [written]
  nest {a} ha := by
    have : ∀ a, written (a ++ [.dedent]) = written a := by
      intro a
      induction a with
      | nil => rfl
      | cons x a ih => cases x <;> simp [written, ih]
    intro t ht
    simp only [List.cons_append, written, this] at ht
    exact ha t ht
  own := own

theorem codeStmt_layout {Q T} (L : Layout Q T) {m : List Stmt}
    (h : ∀ n ∈ moduleNodes m, n.isErrorMember = false) (ht : ∀ n ∈ moduleNodes m, ∀ t ∈ n.texts, T t)
    {s : Stmt} (hs : s ∈ m) : Q (codeStmt s) :=
  L.code (.stmt s) (fun k hk => h k (by simp only [moduleNodes, List.mem_flatMap]; exact ⟨s, hs, hk⟩))
    (fun k hk => ht k (by simp only [moduleNodes, List.mem_flatMap]; exact ⟨s, hs, hk⟩))

theorem codeModuleMin_layout {Q T} (L : Layout Q T) {m : List Stmt}
    (h : ∀ n ∈ moduleNodes m, n.isErrorMember = false) (ht : ∀ n ∈ moduleNodes m, ∀ t ∈ n.texts, T t) :
    Q (codeModuleMin m) := by
  unfold codeModuleMin
  rw [codeStmts_eq]
  have : ∀ l : List (List Piece), (∀ x ∈ l, Q x) → Q l.flatten := by
    intro l hl
    induction l with
    | nil => exact L.nil
    | cons x l ih => exact L.append (hl x (by simp)) (ih fun y hy => hl y (by simp [hy]))
  apply this
  simp only [List.forall_mem_map]
  exact fun s hs => codeStmt_layout L h ht hs

theorem codeModulePretty_layout {Q T} (L : Layout Q T) {m : List Stmt}
    (h : ∀ n ∈ moduleNodes m, n.isErrorMember = false) (ht : ∀ n ∈ moduleNodes m, ∀ t ∈ n.texts, T t) :
    Q (codeModulePretty m) := by
  unfold codeModulePretty
  rw [codeStmts_eq]
  have hs : ∀ x ∈ m.map codeStmt, Q x := by
    simp only [List.forall_mem_map]
    exact fun s hs => codeStmt_layout L h ht hs
  split
  · exact L.nil
  · rename_i x r heq
    rw [heq] at hs
    exact L.append (hs x (by simp)) (L.lines fun y hy => hs y (by simp [hy]))

/-- The minifying generator concatenates the texts. -/
theorem runMin_eq {l : List Piece} (h : Piece.panic ∉ l) : runMin l = .ok (written l).flatten := by
  induction l with
  | nil => rfl
  | cons x l ih =>
    simp at h
    cases x <;> simp_all [runMin, written]

/-! ### C22 -/

/-- C22: code generation of a module without error members (which no accepted module has, see C13)
finishes, minified and pretty printed. -/
theorem C22_codegen_no_panic (m : List Stmt) (h : ∀ n ∈ moduleNodes m, n.isErrorMember = false)
    (minify : Bool) : ∃ x, codegen m minify = .ok x := by
  cases minify
  · obtain ⟨x, hx⟩ := codeModulePretty_layout levelled_layout h (fun _ _ _ _ => trivial) 0
    have := hx []
    rw [List.append_nil] at this
    exact ⟨x, by simp [codegen, this, runPretty]⟩
  · exact ⟨_, runMin_eq (codeModuleMin_layout noPanic_layout h fun _ _ _ _ => trivial)⟩

/-! ### C23 -/

theorem written_append (a b : List Piece) : written (a ++ b) = written a ++ written b := by
  induction a with
  | nil => rfl
  | cons x a ih => cases x <;> simp [written, ih]

theorem written_modulePretty (m : List Stmt) :
    written (codeModulePretty m) = written (codeModuleMin m) := by
  unfold codeModulePretty codeModuleMin
  have hl : ∀ l, written (writeLines l) = written l.flatten := by
    intro l
    induction l with
    | nil => rfl
    | cons x l ih => simp [writeLines, written, written_append, ih]
  cases codeStmts m <;> simp [written_append, hl]

theorem Spread.blanks {ts : List Bytes} {y w : Bytes} (hw : ∀ b ∈ w, isBlank b = true)
    (h : Spread ts y) : Spread ts (w ++ y) := by
  induction w with
  | nil => exact h
  | cons b w ih => exact .blank (hw b (by simp)) (ih fun c hc => hw c (by simp [hc]))

theorem newLineText_blank (d : Nat) : ∀ b ∈ newLineText d, isBlank b = true := by
  intro b hb
  simp only [newLineText, List.mem_cons, List.mem_replicate] at hb
  rcases hb with rfl | ⟨_, rfl⟩ <;> decide

theorem spread_runPretty {l : List Piece} {d d' : Nat} {y : Bytes}
    (hb : ∀ b, Piece.pretty b ∈ l → isBlank b = true)
    (h : runPretty d l = .ok (y, d')) : Spread (written l) y := by
  induction l generalizing d y with
  | nil => simp [runPretty] at h; rw [h.1]; exact .nil
  | cons x l ih =>
    have ih := fun {d y} => ih (d := d) (y := y) fun b hb' => hb b (by simp [hb'])
    cases x
    case text t =>
      simp only [runPretty, Out.bind_eq_ok] at h
      obtain ⟨⟨z, e⟩, hz, h⟩ := h
      simp at h
      rw [← h.1]
      obtain ⟨rfl, rfl⟩ := h
      exact .text t (ih hz)
    case pretty b =>
      simp only [runPretty, Out.bind_eq_ok] at h
      obtain ⟨⟨z, e⟩, hz, h⟩ := h
      simp at h
      obtain ⟨rfl, rfl⟩ := h
      exact .blank (hb b (by simp)) (ih hz)
    case newLine =>
      simp only [runPretty, Out.bind_eq_ok] at h
      obtain ⟨⟨z, e⟩, hz, h⟩ := h
      simp at h
      obtain ⟨rfl, rfl⟩ := h
      exact Spread.blanks (newLineText_blank d) (ih hz)
    case indent => exact ih h
    case dedent =>
      cases d
      · simp [runPretty] at h
      · exact ih h
    case panic => cases d <;> simp [runPretty] at h

theorem blank_layout : Layout (fun l => ∀ b, Piece.pretty b ∈ l → isBlank b = true) fun _ => True where
  nil := by simp
  append {a b} ha hb c hc := by
    rw [List.mem_append] at hc
    exact hc.elim (ha c) (hb c)
  text := by simp
  sp := by simp; decide
  line := by simp
  nest {a} ha b hb := by simp at hb; exact ha b hb
  own _ := trivial

/-- C23: minified and pretty printed output of a module consist of the same texts in the same order;
the minified output has nothing else, the pretty one has blanks and line breaks between texts and
never inside one. The texts are those of the calls of `write_byte` and `write_bytes`. -/
theorem C23_pretty_adds_blanks (m : List Stmt) (h : ∀ n ∈ moduleNodes m, n.isErrorMember = false)
    {x y : Bytes} (hx : codegen m true = .ok x) (hy : codegen m false = .ok y) :
    x = (written (codeModuleMin m)).flatten ∧ Spread (written (codeModuleMin m)) y := by
  refine ⟨?_, ?_⟩
  · have := runMin_eq (codeModuleMin_layout noPanic_layout h fun _ _ _ _ => trivial)
    simp only [codegen, if_true] at hx
    rw [hx] at this
    exact Out.ok.inj this
  · rw [← written_modulePretty]
    simp only [codegen, Bool.false_eq_true, if_false, Out.bind_eq_ok] at hy
    obtain ⟨⟨z, d⟩, hz, hy⟩ := hy
    simp at hy
    subst hy
    exact spread_runPretty (codeModulePretty_layout blank_layout h fun _ _ _ _ => trivial) hz

/-! ### C24 -/

/-- C24: a statement without error members inside, printed at any depth, never dedents below that
depth and ends at that depth. -/
theorem C24_statement_balanced (s : Stmt) (h : ∀ n ∈ (Node.stmt s).all, n.isErrorMember = false)
    (d : Nat) : ∃ x, runPretty d (codeStmt s) = .ok (x, d) := by
  obtain ⟨x, hx⟩ := levelled_layout.code (.stmt s) h (fun _ _ _ _ => trivial) d
  have := hx []
  rw [List.append_nil] at this
  exact ⟨x, by simpa [runPretty, codeNode] using this⟩

/-- C24 for expressions. -/
theorem C24_expression_balanced (e : Expr) (h : ∀ n ∈ (Node.expr e).all, n.isErrorMember = false)
    (d : Nat) : ∃ x, runPretty d (codeExpr e) = .ok (x, d) := by
  obtain ⟨x, hx⟩ := levelled_layout.code (.expr e) h (fun _ _ _ _ => trivial) d
  have := hx []
  rw [List.append_nil] at this
  exact ⟨x, by simpa [runPretty, codeNode] using this⟩

/-- C24 for modules: the depth is 0 at the end. -/
theorem C24_module_balanced (m : List Stmt) (h : ∀ n ∈ moduleNodes m, n.isErrorMember = false) :
    ∃ x, runPretty 0 (codeModulePretty m) = .ok (x, 0) := by
  obtain ⟨x, hx⟩ := codeModulePretty_layout levelled_layout h (fun _ _ _ _ => trivial) 0
  have := hx []
  rw [List.append_nil] at this
  exact ⟨x, by simpa [runPretty] using this⟩

/-! ### C25 -/

/-- C25: a line break in minified output is part of a name or literal text of the module. -/
theorem C25_minified_lines (m : List Stmt) (h : ∀ n ∈ moduleNodes m, n.isErrorMember = false)
    {x : Bytes} (hx : codegen m true = .ok x) (hl : #b'\n' ∈ x) :
    ∃ n ∈ moduleNodes m, ∃ t ∈ n.texts, #b'\n' ∈ t := by
  have h1 := runMin_eq (codeModuleMin_layout noPanic_layout h fun _ _ _ _ => trivial)
  simp only [codegen, if_true] at hx
  rw [hx] at h1
  cases h1
  rw [List.mem_flatten] at hl
  obtain ⟨t, ht, hl⟩ := hl
  have := codeModuleMin_layout (texts_layout
    (fun t => #b'\n' ∈ t → ∃ n ∈ moduleNodes m, ∃ t ∈ n.texts, #b'\n' ∈ t)
    fun h h' => absurd rfl (h _ h').1) h (fun n hn t ht hl => ⟨n, hn, t, ht, hl⟩) t ht
  exact this hl

/-! ### C26 -/

theorem runMin_append {a b : List Piece} {x : Bytes} (h : runMin a = .ok x) :
    runMin (a ++ b) = (runMin b >>= fun y => .ok (x ++ y)) := by
  induction a generalizing x with
  | nil => simp [runMin] at h; subst h; rw [List.nil_append]; cases runMin b <;> simp
  | cons p a ih =>
    cases p
    case text t =>
      simp only [runMin, Out.bind_eq_ok] at h
      obtain ⟨z, hz, h⟩ := h
      simp at h; subst h
      simp only [List.cons_append, runMin, ih hz]
      cases runMin b <;> simp
    case panic => simp [runMin] at h
    all_goals simp only [List.cons_append, runMin] at *; exact ih h

/-- C26: in the minified code of `a op b` the left operand is in parentheses exactly when its
binding power is lower than that of the operator, the right operand exactly when it is not higher;
between them are the operator and at most one blank on each side. -/
theorem C26_binary_parens (l : Loc) (op : Op) (a b : Expr) {x y : Bytes}
    (hx : runMin (codeExpr a) = .ok x) (hy : runMin (codeExpr b) = .ok y) :
    ∃ s1 s2 : Bytes, (s1 = [] ∨ s1 = bs!" ") ∧ (s2 = [] ∨ s2 = bs!" ") ∧
      runMin (codeExpr (.binary l op a b)) = .ok (
        parensIf (codePower a < codeOp op) x ++ s1 ++ op.asStr ++ s2 ++
        parensIf (codePower b ≤ codeOp op) y) := by
  simp only [codePower_eq, codeOp_eq]
  have w : ∀ (e : Expr) (bp : Nat) (z : Bytes), runMin (codeExpr e) = .ok z →
      runMin (writeExpression e (codeExpr e) bp) = .ok (parensIf (e.bindingPower < bp) z) := by
    intro e bp z hz
    unfold writeExpression parensIf
    simp only [decide_eq_true_eq]
    split
    · simp only [runMin, List.cons_append, runMin_append hz]
      simp [parens]
    · exact hz
  have sp : ∀ c, ∃ s : Bytes, (s = [] ∨ s = bs!" ") ∧ ∀ r, runMin (space c :: r) =
      (runMin r >>= fun y => .ok (s ++ y)) := by
    intro c
    cases c
    · exact ⟨[], Or.inl rfl, fun r => by show runMin r = _; cases runMin r <;> simp⟩
    · exact ⟨bs!" ", Or.inr rfl, fun r => by simp [space, runMin]⟩
  obtain ⟨s1, h1, e1⟩ := sp (binarySpacing op a b).1
  obtain ⟨s2, h2, e2⟩ := sp (binarySpacing op a b).2
  refine ⟨s1, s2, h1, h2, ?_⟩
  have hb := w b (op.bindingPower + 1) y hy
  have he : (decide (b.bindingPower < op.bindingPower + 1)) = decide (b.bindingPower ≤ op.bindingPower) := by
    simp [Nat.lt_succ_iff]
  rw [he] at hb
  simp only [codeExpr, List.append_assoc]
  rw [runMin_append (w a op.bindingPower x hx)]
  simp only [List.cons_append, List.nil_append, e1, e2, runMin, hb]
  simp

/-! ### The hypotheses are met -/

/-- The module `if (a) { b = "x"; } class C { m() {} }`. -/
def exampleModule : List Stmt :=
  [.ifS ⟨0, 19⟩ (.ident ⟨4, 5⟩ bs!"a") (.block ⟨7, 19⟩ [.expr ⟨9, 16⟩ (.binary ⟨9, 16⟩ .Assign
    (.ident ⟨9, 10⟩ bs!"b") (.lit ⟨13, 16⟩ (.String bs!"\"x\"")))]) none,
   .class ⟨20, 38⟩ (.mk (.mandatory ⟨⟨26, 27⟩, bs!"C"⟩) none ⟨28, 38⟩
    [.method ⟨30, 36⟩ false (.literal ⟨30, 31⟩ bs!"m") .Method ⟨31, 36⟩ (.mk .empty false [] (.mk ⟨34, 36⟩ []))])]

example : ∀ n ∈ moduleNodes exampleModule, n.isErrorMember = false := by
  simp [exampleModule, moduleNodes, Node.all_eq, Node.children, Node.isErrorMember]

example : codegen exampleModule true = .ok bs!"if(a){b=\"x\";}class C{m(){}}" := by decide +kernel

example : codegen exampleModule false =
    .ok bs!"if (a) {\n    b = \"x\";\n}\nclass C {\n    m() {}\n}" := by decide +kernel

/-- C25 speaks about something: a template text may hold a line break. -/
example : codegen [.expr ⟨0, 3⟩ (.template ⟨0, 3⟩ [] [⟨⟨0, 3⟩, bs!"\n"⟩])] true = .ok bs!"`\n`;" := by
  decide +kernel

/-- C26: `(a + b) * (c, d)`. -/
example : runMin (codeExpr (.binary ⟨0, 0⟩ .Multiplication
    (.binary ⟨0, 0⟩ .Addition (.ident ⟨0, 0⟩ bs!"a") (.ident ⟨0, 0⟩ bs!"b"))
    (.seq ⟨0, 0⟩ [.ident ⟨0, 0⟩ bs!"c", .ident ⟨0, 0⟩ bs!"d"]))) = .ok bs!"(a+b)*(c,d)" := by
  decide +kernel

/-- Without the hypothesis C22 would be false: an error member makes the generator panic. -/
theorem C22_error_member_panics : codegen [.class ⟨0, 0⟩ (.mk (.mandatory ⟨⟨0, 0⟩, bs!"C"⟩) none ⟨0, 0⟩
    [.error ⟨0, 0⟩])] true = .panic := by decide +kernel

end Ratel
