import Verif.Lemmas.TypedJson
import Verif.Spec.Accepted
/-! The positions in documents. -/
namespace Ratel
open Spec Spec.Rfc8259

/-- What is claimed of nodes with a given type and given members at a given span. -/
abbrev Shown := String → List (String × Json) → Loc → Prop

/-- Documents in which all nodes have good positions, and are as claimed. -/
inductive Placed (L : Loc → Prop) (Q : Shown) : Json → Prop where
  | null : Placed L Q .null
  | bool (b) : Placed L Q (.bool b)
  | int (i) : Placed L Q (.int i)
  | float (v) : Placed L Q (.float v)
  | str (s) : Placed L Q (.str s)
  | sym (s) : Placed L Q (.sym s)
  | arr {xs : List Json} (h : ∀ x ∈ xs, Placed L Q x) : Placed L Q (.arr xs)
  | node (ty : String) {fs : List (String × Json)} (l : Loc) (hl : L l) (hq : Q ty fs l)
      (h : ∀ f ∈ fs, Placed L Q f.2) (h' : ∀ f ∈ fs, f.1 ≠ "start" ∧ f.1 ≠ "end") :
      Placed L Q (.obj ([("type", .sym ty)] ++ fs ++ [("start", .int l.start), ("end", .int l.stop)]))
  | aux {fs : List (String × Json)} (h : ∀ f ∈ fs, Placed L Q f.2)
      (h' : ∀ f ∈ fs, f.1 ≠ "type" ∧ f.1 ≠ "start" ∧ f.1 ≠ "end") : Placed L Q (.obj fs)

/-- Good members that are no positions. -/
def PlacedFields (L : Loc → Prop) (Q : Shown) (fs : List (String × Json)) : Prop :=
  ∀ f ∈ fs, Placed L Q f.2 ∧ f.1 ≠ "start" ∧ f.1 ≠ "end"

/-- A node that is going to have the span `l`. -/
def PlacedItem (L : Loc → Prop) (Q : Shown) (l : Loc) (i : Item) : Prop := PlacedFields L Q i.2 ∧ Q i.1 i.2 l

/-- Claims that are made only of literals and of pieces of templates. -/
def Shown.Few (Q : Shown) : Prop := ∀ ty fs l, ty ≠ "Literal" → ty ≠ "TemplateElement" → Q ty fs l

variable {L : Loc → Prop} {Q : Shown}

theorem Placing.withLoc {x : Out Item} {l : Loc} (hl : L l) (h : Yields (PlacedItem L Q l) x) : Yields (Placed L Q) (Ratel.withLoc l x) := by
  refine Yields.bind h fun a ha => ?_
  exact Yields.ok (.node _ l hl ha.2 (fun f hf => (ha.1 f hf).1) (fun f hf => (ha.1 f hf).2))

theorem Placing.fieldsNil : Yields (PlacedFields L Q) (fields []) := Yields.ok (by simp [PlacedFields])

theorem Placing.fieldsCons {k : String} {x : Out Json} {r : List (String × Out Json)} (hk : k ≠ "start" ∧ k ≠ "end")
    (h : Yields (Placed L Q) x) (h' : Yields (PlacedFields L Q) (fields r)) : Yields (PlacedFields L Q) (fields ((k, x) :: r)) := by
  refine Yields.bind h fun a ha => Yields.bind h' fun b hb => Yields.ok ?_
  intro f hf
  simp only [List.mem_cons] at hf
  rcases hf with rfl | hf
  · exact ⟨ha, hk⟩
  · exact hb f hf

theorem Placing.inLoc (hQ : Q.Few) {ty : String} {l : Loc} (h1 : ty ≠ "Literal") (h2 : ty ≠ "TemplateElement")
    {fs : List (String × Out Json)} (h : Yields (PlacedFields L Q) (fields fs)) : Yields (PlacedItem L Q l) (Ratel.inLoc ty fs) :=
  Yields.bind h fun _ ha => Yields.ok ⟨ha, hQ _ _ _ h1 h2⟩

theorem Placing.arrayOf {xs : List (Out Json)} (h : ∀ x ∈ xs, Yields (Placed L Q) x) : Yields (Placed L Q) (Ratel.array xs) := by
  refine Yields.bind (good := fun js => ∀ j ∈ js, Placed L Q j) ?_ fun _ ha => Yields.ok (.arr ha)
  induction xs with
  | nil => exact Yields.ok (by simp)
  | cons x xs ih =>
    refine Yields.bind (h x (by simp)) fun a ha => Yields.bind (ih fun y hy => h y (by simp [hy])) fun b hb => Yields.ok ?_
    intro j hj
    simp only [List.mem_cons] at hj
    rcases hj with rfl | hj
    · exact ha
    · exact hb j hj

theorem Placing.array {xs : List α} {f : α → Out Json} (h : ∀ x ∈ xs, Yields (Placed L Q) (f x)) :
    Yields (Placed L Q) (Ratel.array (xs.map f)) := Placing.arrayOf (List.forall_mem_map.2 h)

theorem Placing.item (hQ : Q.Few) {l : Loc} (n : Bytes) : Yields (PlacedItem L Q l) (.ok (Ratel.identItem n)) := by
  refine Yields.ok ⟨?_, hQ _ _ _ (by simp [Ratel.identItem]) (by simp [Ratel.identItem])⟩
  intro f hf
  simp only [Ratel.identItem, List.mem_cons, List.not_mem_nil, or_false] at hf
  subst hf
  exact ⟨.str _, by simp⟩

theorem Placing.identItem (hQ : Q.Few) {l : Loc} (hl : L l) (n : Bytes) : Yields (Placed L Q) (Ratel.withLoc l (.ok (Ratel.identItem n))) :=
  Placing.withLoc hl (Placing.item hQ n)

theorem Placing.ident (hQ : Q.Few) {i : Ident} (h : L i.loc) : Yields (Placed L Q) (genIdent i) := Placing.identItem hQ h _

/-- Members of a literal with a given text. -/
def LitFields (L : Loc → Prop) (Q : Shown) (raw : Bytes) (fs : List (String × Json)) : Prop :=
  PlacedFields L Q fs ∧ fs.lookup "raw" = some (Json.str raw)

theorem Placing.expectNumber (v : Bytes) (o : Option Nat) : Yields (LitFields L Q v) (Ratel.expectNumber v o) := by
  cases o with
  | none => exact Yields.panic
  | some n =>
    refine Yields.ok ⟨?_, rfl⟩
    simp only [PlacedFields, List.forall_mem_cons]
    exact ⟨⟨.int _, by simp⟩, ⟨.str _, by simp⟩, by simp⟩

theorem Placing.literal {l : Loc} (v : Literal) (hq : ∀ fs, fs.lookup "raw" = some (Json.str (literalText v)) → Q "Literal" fs l) :
    Yields (PlacedItem L Q l) (genLiteral v) := by
  cases v
  case Number v =>
    refine Yields.bind (good := LitFields L Q v) ?_ fun a ha => Yields.ok ⟨ha.1, hq _ ha.2⟩
    unfold genNumber
    simp only
    split
    · exact Placing.expectNumber v _
    · split
      · exact Placing.expectNumber v _
      · split
        · split
          · refine Yields.ok ⟨?_, rfl⟩
            simp only [PlacedFields, List.forall_mem_cons]
            exact ⟨⟨.float _, by simp⟩, ⟨.str _, by simp⟩, by simp⟩
          · exact Yields.panic
        · exact Placing.expectNumber v _
  case Binary v =>
    simp only [genLiteral]
    split
    · exact Yields.oob
    · exact Yields.bind (Placing.expectNumber v _) fun a ha => Yields.ok ⟨ha.1, hq _ ha.2⟩
  case String v =>
    simp only [genLiteral]
    split
    · exact Yields.oob
    · refine Yields.ok ⟨?_, hq _ rfl⟩
      simp only [PlacedFields, List.forall_mem_cons]
      exact ⟨⟨.str _, by simp⟩, ⟨.str _, by simp⟩, by simp⟩
  case RegEx v =>
    refine Yields.bind (good := fun _ => True) (fun _ _ => trivial) fun a _ => Yields.ok ⟨?_, hq _ rfl⟩
    simp only [PlacedFields, List.forall_mem_cons]
    refine ⟨⟨.aux ?_ ?_, by simp⟩, ⟨.str _, by simp⟩, by simp⟩
    · simp only [List.forall_mem_cons]
      exact ⟨.str _, .str _, by simp⟩
    · simp
  all_goals
    refine Yields.ok ⟨?_, hq _ rfl⟩
    simp only [PlacedFields, List.forall_mem_cons]
    first
      | exact ⟨⟨.str _, by simp⟩, by simp⟩
      | exact ⟨⟨.null, by simp⟩, ⟨.str _, by simp⟩, by simp⟩
      | exact ⟨⟨.bool _, by simp⟩, ⟨.str _, by simp⟩, by simp⟩

/-- The claims on a piece of a template. -/
def PiecePlaced (L : Loc → Prop) (Q : Shown) (q : Ident) : Prop :=
  q.loc.stop ≠ 0 → L ⟨q.loc.start + 1, q.loc.stop - 1⟩ ∧
    ∀ t, Q "TemplateElement" [("tail", .bool t), ("value", .obj [("raw", .str q.name), ("cooked", .str q.name)])]
      ⟨q.loc.start + 1, q.loc.stop - 1⟩

theorem Placing.quasis {qs : List Ident} (h : ∀ q ∈ qs, PiecePlaced L Q q) : Yields (Placed L Q) (Ratel.array (genQuasis qs)) := by
  apply Placing.arrayOf
  induction qs with
  | nil => simp [genQuasis]
  | cons q qs ih =>
    simp only [genQuasis, List.forall_mem_cons]
    refine ⟨?_, ih fun q hq => h q (by simp [hq])⟩
    have hq := h q (by simp)
    split
    · exact Yields.panic
    · rename_i hs
      refine Placing.withLoc (hq hs).1 (Yields.ok ⟨?_, (hq hs).2 _⟩)
      simp only [PlacedFields, List.forall_mem_cons]
      refine ⟨⟨.bool _, by simp⟩, ⟨.aux ?_ ?_, by simp⟩, by simp⟩
      · simp only [List.forall_mem_cons]
        exact ⟨.str _, .str _, by simp⟩
      · simp

theorem Placing.importSpec (hQ : Q.Few) {s : ImportSpec} (h : ∀ l ∈ importLoc s :: (importIdents s).map (·.loc), L l) :
    Yields (Placed L Q) (genImportSpec s) := by
  cases s <;> simp only [importLoc, importIdents, List.map_cons, List.map_nil, List.forall_mem_cons] at h
  · refine Placing.withLoc h.1 ?_
    refine Yields.bind (Placing.ident hQ h.2.1) fun a ha => Yields.bind (Placing.ident hQ h.2.2.1) fun b hb =>
      Yields.ok ⟨?_, hQ _ _ _ (by simp) (by simp)⟩
    simp only [PlacedFields, List.forall_mem_cons]
    exact ⟨⟨ha, by simp⟩, ⟨hb, by simp⟩, by simp⟩
  all_goals
    refine Placing.withLoc h.1 ?_
    refine Yields.bind (Placing.ident hQ h.2.1) fun a ha => Yields.ok ⟨?_, hQ _ _ _ (by simp) (by simp)⟩
    simp only [PlacedFields, List.forall_mem_cons]
    exact ⟨⟨ha, by simp⟩, by simp⟩

/-- The positions of a node are good, and the claims hold. -/
structure NodePlaced (L : Loc → Prop) (Q : Shown) (n : Node) : Prop where
  spans : ∀ l ∈ n.span.toList ++ n.innerSpans, L l
  pieces : ∀ q ∈ n.quasis, PiecePlaced L Q q
  literal : ∀ l v, n = .expr (.lit l v) → ∀ fs, fs.lookup "raw" = some (Json.str (literalText v)) → Q "Literal" fs l
  init : ∀ l e, n = .forInit (.expr l e) → l = e.loc

/-- What is computed for a node; the spans of the bodies of functions and classes are recorded around them. -/
def PlacesNode (L : Loc → Prop) (Q : Shown) : Node → Prop
  | .expr e => L e.loc ∧ Yields (PlacedItem L Q e.loc) (genExpr e)
  | .func f => L (funcBodyLoc f) → ∀ l, Yields (PlacedItem L Q l) (genFunc f)
  | .cls c => L (classBodyLoc c) → ∀ l, Yields (PlacedItem L Q l) (genClass c)
  | n => Yields (Placed L Q) (genNode n)

theorem Placing.methodKind (k : MethodKind) : Yields (Placed L Q) (.ok (genMethodKind k)) :=
  Yields.ok (by cases k <;> exact .sym _)

theorem Placing.declKind (k : DeclKind) : Yields (Placed L Q) (.ok (genDeclKind k)) :=
  Yields.ok (by cases k <;> exact .sym _)

theorem Placing.retype (hQ : Q.Few) {ty ty' : String} {l l' : Loc} (h1 : ty' ≠ "Literal") (h2 : ty' ≠ "TemplateElement")
    {fs : List (String × Out Json)} (h : Yields (PlacedItem L Q l) (Ratel.inLoc ty fs)) : Yields (PlacedItem L Q l') (Ratel.inLoc ty' fs) := by
  intro a ha
  simp only [Ratel.inLoc, Out.bind_eq_ok] at ha
  obtain ⟨js, hjs, ha⟩ := ha
  simp only [Out.ok.injEq] at ha
  subst ha
  exact ⟨(h (ty, js) (by simp only [Ratel.inLoc, Out.bind_eq_ok]; exact ⟨js, hjs, rfl⟩)).1, hQ _ _ _ h1 h2⟩

theorem expressionType_ne (op : Op) (b : Bool) : expressionType op b ≠ "Literal" ∧ expressionType op b ≠ "TemplateElement" := by
  cases op <;> cases b <;> simp [expressionType]

theorem declOrExpr_ne (n : Name) : (declOrExpr "Function" n ≠ "Literal" ∧ declOrExpr "Function" n ≠ "TemplateElement") ∧
    declOrExpr "Class" n ≠ "Literal" ∧ declOrExpr "Class" n ≠ "TemplateElement" := by
  rcases n with _ | ⟨_ | _⟩ | _ <;> simp [declOrExpr]

set_option maxHeartbeats 4000000 in
theorem Placing.node (hQ : Q.Few) (n : Node) : n.Forall (NodePlaced L Q) → PlacesNode L Q n := by
  induction n using Node.ind with
  | h n hk =>
    intro hd0
    have hd : NodePlaced L Q n := (Node.forall_iff.1 hd0).1
    replace hk : ∀ c ∈ n.children, PlacesNode L Q c := fun c hc => hk c hc ((Node.forall_iff.1 hd0).2 c hc)
    clear hd0
    rcases n with e | k | p | p | f | c' | m | b | s | d | i | c' | c' | cs
    all_goals first | cases e | cases k | cases p | cases f | cases c' | cases m | cases b | cases s | cases d | cases i | skip
    all_goals try (rename_i b; have hb : Block := b; clear hb; cases b)
    case member.error => exact Yields.panic
    case member.literal => exact Yields.panic
    case pat.void => exact Yields.panic
    case expr.void l => exact ⟨hd.1 _ (by simp [Node.span]), Yields.panic⟩
    case expr.array l body =>
      refine ⟨hd.1 _ (by simp [Node.span]), Placing.inLoc hQ (by simp) (by simp) (Placing.fieldsCons (by simp) (Placing.arrayOf ?_) Placing.fieldsNil)⟩
      intro x hx
      simp only [List.mem_map] at hx
      obtain ⟨o, ho, rfl⟩ := hx
      have := mem_dropTrailing ho
      rw [genElements_eq, List.mem_map] at this
      obtain ⟨e, he, rfl⟩ := this
      have he : L e.loc ∧ _ := hk (.expr e) (by simp [Node.children, he])
      split
      · exact Yields.ok .null
      · exact Placing.withLoc he.1 he.2
    case expr.lit l v => exact ⟨hd.1 _ (by simp [Node.span]), Placing.literal v (hd.3 l v rfl)⟩
    case expr.ident l n => exact ⟨hd.1 _ (by simp [Node.span]), Placing.item hQ n⟩
    case expr.prefix l op a =>
      refine ⟨hd.1 _ (by simp [Node.span]), ?_⟩
      have hv : L a.loc ∧ Yields (PlacedItem L Q a.loc) (genExpr a) := hk (.expr a) (by simp [Node.children])
      by_cases hn : op = .New
      · subst hn
        cases a
        case call lc c args =>
          have hv := hv.2
          simp only [genExpr, if_true] at hv ⊢
          exact Placing.retype hQ (expressionType_ne _ _).1 (expressionType_ne _ _).2 hv
        case lit ll v =>
          exact Placing.inLoc hQ (expressionType_ne _ _).1 (expressionType_ne _ _).2 (Placing.fieldsCons (by simp) (Placing.withLoc hv.1 hv.2)
            (Placing.fieldsCons (by simp) (Yields.ok (.arr (by simp))) Placing.fieldsNil))
        all_goals exact Yields.panic
      · rw [genExpr.eq_def]
        simp only [if_neg hn]
        exact Placing.inLoc hQ (expressionType_ne _ _).1 (expressionType_ne _ _).2 (Placing.fieldsCons (by simp) (Yields.ok (.str _)) (Placing.fieldsCons (by simp) (Placing.withLoc hv.1 hv.2)
          (Placing.fieldsCons (by simp) (Yields.ok (.bool _)) Placing.fieldsNil)))
    case forInit.expr l e =>
      have he : L e.loc ∧ Yields (PlacedItem L Q e.loc) (genExpr e) := hk (.expr e) (by simp [Node.children])
      have hl := hd.4 l e rfl
      subst hl
      exact Placing.withLoc he.1 he.2
    case stmt.import l specs source =>
      refine Placing.withLoc (hd.1 _ (by simp [Node.span, Stmt.loc])) (Placing.inLoc hQ (by simp) (by simp) (Placing.fieldsCons (by simp) (Placing.array fun s hs => Placing.importSpec hQ fun t ht =>
        hd.1 t ?_) (Placing.fieldsCons (by simp) (Yields.ok (.str _)) Placing.fieldsNil)))
      simp only [Node.innerSpans, List.mem_append, List.mem_flatMap]
      exact .inr ⟨s, hs, ht⟩
    case' cls.mk nm ex _ _ => rcases nm with _ | ⟨_ | _⟩ | _ <;> cases ex
    case' func.mk.mk nm _ _ _ _ => rcases nm with _ | ⟨_ | _⟩ | _
    case' stmt.brk e => cases e
    case' stmt.cont e => cases e
    case' stmt.ret e => cases e
    case' stmt.ifS e => cases e
    case' stmt.forS a b c _ => cases a <;> cases b <;> cases c
    case' stmt.tryS a b => cases a <;> cases b
    case' declarator.mk e => cases e
    case' case.mk e _ => cases e
    all_goals
      obtain ⟨ht, hq, -, -⟩ := hd
      revert hk ht hq
      simp only [Node.children, List.forall_mem_cons, List.forall_mem_append, List.forall_mem_map,
        List.not_mem_nil, false_implies, implies_true, Option.toList_some, Option.toList_none, List.map_nil,
        List.map_cons, and_imp, imp_and, forall_and, true_implies, and_true, true_and, PlacesNode,
        genNode, genExpr, genKey, genProperty, genPattern, genFunc, genClass, genMember,
        genStmt, genDeclarator, genForInit, genCase, genCatch, genExprs_eq, genProperties_eq,
        genPatterns_eq, genMembers_eq, genStmts_eq, genDeclarators_eq, genCases_eq, genBlock, Node.span, Node.innerSpans, Node.quasis, nameIdents, keyLoc,  genName, optional, Option.map_some, Option.map_none]
      intros
      repeat' (first
          | with_reducible assumption
          | with_reducible exact Placing.fieldsNil
          | (with_reducible refine ⟨?_, ?_⟩)
          | ((with_reducible refine (id : L _ → L _) ?_); assumption)
          | with_reducible exact Placing.item hQ _
          | (with_reducible intro hc)
          | (with_reducible apply Placing.ident hQ; assumption)
          | (with_reducible apply Placing.identItem hQ; assumption)
          | (with_reducible apply Placing.quasis; assumption)
          | with_reducible exact Placing.methodKind _
          | with_reducible exact Placing.declKind _
          | with_reducible exact Yields.ok (.bool _)
          | with_reducible exact Yields.ok .null
          | with_reducible exact Yields.ok (.str _)
          | with_reducible exact Yields.ok (.sym _)
          | with_reducible apply Placing.withLoc
          | (with_reducible refine Placing.inLoc hQ (expressionType_ne _ _).1 (expressionType_ne _ _).2 ?_)
          | (with_reducible refine Placing.inLoc hQ (declOrExpr_ne _).1.1 (declOrExpr_ne _).1.2 ?_)
          | (with_reducible refine Placing.inLoc hQ (declOrExpr_ne _).2.1 (declOrExpr_ne _).2.2 ?_)
          | (with_reducible refine Placing.inLoc hQ (by simp; done) (by simp; done) ?_)
          | (with_reducible refine Placing.fieldsCons ⟨by simp, by simp⟩ ?_ ?_)
          | with_reducible apply Placing.array
          | (with_reducible apply_assumption; with_reducible assumption))

end Ratel
