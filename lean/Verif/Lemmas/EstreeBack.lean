import Verif.Lemmas.ReadEstree
/-! Reading back what the serialiser wrote (C51): nodes. -/
namespace Ratel
open Spec

set_option linter.unusedSimpArgs false

theorem node0 {l : Loc} {ty : String} {j : Json} :
    withLoc l (inLoc ty []) = .ok j ↔ j = jnode ty [] l := by
  simp only [withLoc_ok, inLoc_ok, fields_cons, fields_nil]
  constructor
  · rintro ⟨_, ⟨_, rfl, rfl⟩, rfl⟩
    rfl
  · rintro rfl
    exact ⟨_, ⟨_, rfl, rfl⟩, rfl⟩

theorem node1 {l : Loc} {ty : String} {j : Json} {ka : String} {xa : Out Json} :
    withLoc l (inLoc ty [(ka, xa)]) = .ok j ↔ ∃ a : Json, xa = .ok a ∧ j = jnode ty [(ka, a)] l := by
  simp only [withLoc_ok, inLoc_ok, fields_cons, fields_nil]
  constructor
  · rintro ⟨_, ⟨_, ⟨a, ha, _, rfl, rfl⟩, rfl⟩, rfl⟩
    exact ⟨a, ha, rfl⟩
  · rintro ⟨a, ha, rfl⟩
    exact ⟨_, ⟨_, ⟨a, ha, _, rfl, rfl⟩, rfl⟩, rfl⟩

theorem node2 {l : Loc} {ty : String} {j : Json} {ka kb : String} {xa xb : Out Json} :
    withLoc l (inLoc ty [(ka, xa), (kb, xb)]) = .ok j ↔ ∃ a b : Json, xa = .ok a ∧ xb = .ok b ∧ j = jnode ty [(ka, a), (kb, b)] l := by
  simp only [withLoc_ok, inLoc_ok, fields_cons, fields_nil]
  constructor
  · rintro ⟨_, ⟨_, ⟨a, ha, _, ⟨b, hb, _, rfl, rfl⟩, rfl⟩, rfl⟩, rfl⟩
    exact ⟨a, b, ha, hb, rfl⟩
  · rintro ⟨a, b, ha, hb, rfl⟩
    exact ⟨_, ⟨_, ⟨a, ha, _, ⟨b, hb, _, rfl, rfl⟩, rfl⟩, rfl⟩, rfl⟩

theorem node3 {l : Loc} {ty : String} {j : Json} {ka kb kc : String} {xa xb xc : Out Json} :
    withLoc l (inLoc ty [(ka, xa), (kb, xb), (kc, xc)]) = .ok j ↔ ∃ a b c : Json, xa = .ok a ∧ xb = .ok b ∧ xc = .ok c ∧ j = jnode ty [(ka, a), (kb, b), (kc, c)] l := by
  simp only [withLoc_ok, inLoc_ok, fields_cons, fields_nil]
  constructor
  · rintro ⟨_, ⟨_, ⟨a, ha, _, ⟨b, hb, _, ⟨c, hc, _, rfl, rfl⟩, rfl⟩, rfl⟩, rfl⟩, rfl⟩
    exact ⟨a, b, c, ha, hb, hc, rfl⟩
  · rintro ⟨a, b, c, ha, hb, hc, rfl⟩
    exact ⟨_, ⟨_, ⟨a, ha, _, ⟨b, hb, _, ⟨c, hc, _, rfl, rfl⟩, rfl⟩, rfl⟩, rfl⟩, rfl⟩

theorem node4 {l : Loc} {ty : String} {j : Json} {ka kb kc kd : String} {xa xb xc xd : Out Json} :
    withLoc l (inLoc ty [(ka, xa), (kb, xb), (kc, xc), (kd, xd)]) = .ok j ↔ ∃ a b c d : Json, xa = .ok a ∧ xb = .ok b ∧ xc = .ok c ∧ xd = .ok d ∧ j = jnode ty [(ka, a), (kb, b), (kc, c), (kd, d)] l := by
  simp only [withLoc_ok, inLoc_ok, fields_cons, fields_nil]
  constructor
  · rintro ⟨_, ⟨_, ⟨a, ha, _, ⟨b, hb, _, ⟨c, hc, _, ⟨d, hd, _, rfl, rfl⟩, rfl⟩, rfl⟩, rfl⟩, rfl⟩, rfl⟩
    exact ⟨a, b, c, d, ha, hb, hc, hd, rfl⟩
  · rintro ⟨a, b, c, d, ha, hb, hc, hd, rfl⟩
    exact ⟨_, ⟨_, ⟨a, ha, _, ⟨b, hb, _, ⟨c, hc, _, ⟨d, hd, _, rfl, rfl⟩, rfl⟩, rfl⟩, rfl⟩, rfl⟩, rfl⟩

theorem node5 {l : Loc} {ty : String} {j : Json} {ka kb kc kd ke : String} {xa xb xc xd xe : Out Json} :
    withLoc l (inLoc ty [(ka, xa), (kb, xb), (kc, xc), (kd, xd), (ke, xe)]) = .ok j ↔ ∃ a b c d e : Json, xa = .ok a ∧ xb = .ok b ∧ xc = .ok c ∧ xd = .ok d ∧ xe = .ok e ∧ j = jnode ty [(ka, a), (kb, b), (kc, c), (kd, d), (ke, e)] l := by
  simp only [withLoc_ok, inLoc_ok, fields_cons, fields_nil]
  constructor
  · rintro ⟨_, ⟨_, ⟨a, ha, _, ⟨b, hb, _, ⟨c, hc, _, ⟨d, hd, _, ⟨e, he, _, rfl, rfl⟩, rfl⟩, rfl⟩, rfl⟩, rfl⟩, rfl⟩, rfl⟩
    exact ⟨a, b, c, d, e, ha, hb, hc, hd, he, rfl⟩
  · rintro ⟨a, b, c, d, e, ha, hb, hc, hd, he, rfl⟩
    exact ⟨_, ⟨_, ⟨a, ha, _, ⟨b, hb, _, ⟨c, hc, _, ⟨d, hd, _, ⟨e, he, _, rfl, rfl⟩, rfl⟩, rfl⟩, rfl⟩, rfl⟩, rfl⟩, rfl⟩

theorem node6 {l : Loc} {ty : String} {j : Json} {ka kb kc kd ke kf : String} {xa xb xc xd xe xf : Out Json} :
    withLoc l (inLoc ty [(ka, xa), (kb, xb), (kc, xc), (kd, xd), (ke, xe), (kf, xf)]) = .ok j ↔ ∃ a b c d e f : Json, xa = .ok a ∧ xb = .ok b ∧ xc = .ok c ∧ xd = .ok d ∧ xe = .ok e ∧ xf = .ok f ∧ j = jnode ty [(ka, a), (kb, b), (kc, c), (kd, d), (ke, e), (kf, f)] l := by
  simp only [withLoc_ok, inLoc_ok, fields_cons, fields_nil]
  constructor
  · rintro ⟨_, ⟨_, ⟨a, ha, _, ⟨b, hb, _, ⟨c, hc, _, ⟨d, hd, _, ⟨e, he, _, ⟨f, hf, _, rfl, rfl⟩, rfl⟩, rfl⟩, rfl⟩, rfl⟩, rfl⟩, rfl⟩, rfl⟩
    exact ⟨a, b, c, d, e, f, ha, hb, hc, hd, he, hf, rfl⟩
  · rintro ⟨a, b, c, d, e, f, ha, hb, hc, hd, he, hf, rfl⟩
    exact ⟨_, ⟨_, ⟨a, ha, _, ⟨b, hb, _, ⟨c, hc, _, ⟨d, hd, _, ⟨e, he, _, ⟨f, hf, _, rfl, rfl⟩, rfl⟩, rfl⟩, rfl⟩, rfl⟩, rfl⟩, rfl⟩, rfl⟩

/-! ### What is kept -/

theorem keptExprs_map (l : List Expr) : keptExprs l = l.map keptExpr := by induction l <;> simp [keptExprs, *]
theorem keptProps_map (l : List Property) : keptProps l = l.map keptProp := by induction l <;> simp [keptProps, *]
theorem keptPats_map (l : List Pattern) : keptPats l = l.map keptPat := by induction l <;> simp [keptPats, *]
theorem keptMembers_map (l : List ClassMember) : keptMembers l = l.map keptMember := by induction l <;> simp [keptMembers, *]
theorem keptStmts_map (l : List Stmt) : keptStmts l = l.map keptStmt := by induction l <;> simp [keptStmts, *]
theorem keptDeclarators_map (l : List Declarator) : keptDeclarators l = l.map keptDeclarator := by
  induction l <;> simp [keptDeclarators, *]
theorem keptCases_map (l : List SwitchCase) : keptCases l = l.map keptCase := by induction l <;> simp [keptCases, *]

theorem kept_new {l : Loc} {e : Expr} : ∃ e', keptExpr (.prefix l .New e) = .prefix l .New e' := by
  cases e <;> simp [keptExpr]

theorem kept_prefix {l : Loc} {op : Op} {e : Expr} (h : op ≠ .New) : keptExpr (.prefix l op e) = .prefix l op (keptExpr e) := by
  rw [keptExpr.eq_def]
  simp [h]

theorem kept_at {e : Expr} (h : hole e = false) : Expr.at e.loc (keptExpr e) = keptExpr e := by
  cases e
  case void => simp [hole] at h
  case «prefix» l op e =>
    by_cases ho : op = .New
    · subst ho
      obtain ⟨e', he⟩ := kept_new (l := l) (e := e)
      rw [he]
      rfl
    · rw [kept_prefix ho]
      rfl
  all_goals rfl

theorem hole_panic {e : Expr} {i : Item} (h : genExpr e = .ok i) : hole e = false := by
  cases e <;> first | rfl | simp [genExpr] at h

/-- The types of expressions. -/
theorem expr_type {e : Expr} {i : Item} (h : genExpr e = .ok i) :
    i.1 ≠ "BlockStatement" ∧ i.1 ≠ "VariableDeclaration" ∧ (i.1 = "Identifier" → ∃ l n, e = .ident l n) := by
  have key : ∀ (ty : String) (fs : List (String × Out Json)), inLoc ty fs = .ok i → i.1 = ty := by
    intro ty fs h
    obtain ⟨js, -, rfl⟩ := inLoc_ok.1 h
    rfl
  have ops : ∀ (op : Op) (b : Bool), expressionType op b ≠ "BlockStatement" ∧ expressionType op b ≠ "VariableDeclaration" ∧
      expressionType op b ≠ "Identifier" := by
    intro op b
    cases op <;> cases b <;> decide
  cases e
  case void => simp [genExpr] at h
  case ident l n =>
    simp only [genExpr, Out.ok.injEq] at h
    subst h
    exact ⟨by simp [identItem], by simp [identItem], fun _ => ⟨_, _, rfl⟩⟩
  case lit l v =>
    have : i.1 = "Literal" := by
      cases v <;> simp only [genExpr, genLiteral, Out.bind_eq_ok, Out.ok.injEq] at h
      case Number => obtain ⟨_, -, rfl⟩ := h; rfl
      case RegEx => obtain ⟨_, -, rfl⟩ := h; rfl
      case Binary =>
        split at h
        · simp at h
        · simp only [Out.bind_eq_ok, Out.ok.injEq] at h
          obtain ⟨_, -, rfl⟩ := h; rfl
      case String =>
        split at h
        · simp at h
        · simp only [Out.ok.injEq] at h
          subst h; rfl
      all_goals subst h; rfl
    rw [this]
    simp
  case «prefix» l op a =>
    have : i.1 = expressionType op true := by
      rw [genExpr.eq_def] at h
      simp only at h
      split at h
      · split at h
        · exact key _ _ h
        · exact key _ _ h
        · simp at h
      · exact key _ _ h
    rw [this]
    exact ⟨(ops op true).1, (ops op true).2.1, fun h => absurd h (ops op true).2.2⟩
  case binary l op a b =>
    rw [genExpr] at h
    rw [key _ _ h]
    exact ⟨(ops op false).1, (ops op false).2.1, fun h => absurd h (ops op false).2.2⟩
  case «postfix» l op a =>
    rw [genExpr] at h
    rw [key _ _ h]
    exact ⟨(ops op false).1, (ops op false).2.1, fun h => absurd h (ops op false).2.2⟩
  case function l f =>
    rcases f with ⟨n, g, ps, b⟩
    rw [genExpr, genFunc] at h
    rw [key _ _ h]
    cases n <;> simp [declOrExpr]
  case «class» l c =>
    rcases c with ⟨n, s, bl, ms⟩
    rw [genExpr, genClass.eq_def] at h
    rw [key _ _ h]
    cases n <;> simp [declOrExpr]
  all_goals
    rw [genExpr] at h
    rw [key _ _ h]
    simp

/-! ### Nodes -/

/-- The text of a key tells whether it is a binary number. -/
def KeyTold : PropKey → Prop
  | .computed _ _ => True
  | .literal _ v => binaryPrefix v = false
  | .binary _ v => binaryPrefix v = true

/-- Reading the document of the node with fuel `k` gives what is kept of the node. -/
def Told (k : Nat) : Node → Prop
  | .expr e => ∀ l j, withLoc l (genExpr e) = .ok j → readExpr k j = some (Expr.at l (keptExpr e))
  | .key key => KeyTold key → ∀ c j, (c = true → isComputed key = true) → genKey key = .ok j →
      readKey k c j = some (keptKey c key)
  | .prop p => ∀ j, genProperty p = .ok j → readProperty k j = some (keptProp p)
  | .pat p => ∀ j, genPattern p = .ok j → readPattern k j = some (keptPat p)
  | .func f => ∀ l j, withLoc l (genFunc f) = .ok j → readFunction k (funcName f) j = some (keptFunc f)
  | .cls c => ∀ l j, withLoc l (genClass c) = .ok j → readClass k (className c) j = some (keptClass c)
  | .member m => ∀ j, genMember m = .ok j → readMember k j = some (keptMember m)
  | .block b => ∀ j, genBlock b = .ok j → readBlock (readStmt k) j = some (keptBlock b)
  | .stmt s => ∀ j, genStmt s = .ok j → readStmt k j = some (keptStmt s)
  | .declarator d => ∀ j, genDeclarator d = .ok j → readDeclarator k j = some (keptDeclarator d)
  | .forInit i => ∀ j, genForInit i = .ok j → readForInit k j = some (keptInit i)
  | .case c => ∀ j, genCase c = .ok j → readCase k j = some (keptCase c)
  | .catch c => ∀ j, genCatch c = .ok j → readCatch k j = some (keptCatch c)
  | .switchBody cs => ∀ j, array (genCases cs) = .ok j → listOf (readCase k) j = some (keptCases cs)

variable {k : Nat}

theorem Told.here {e : Expr} {j : Json} (h : Told k (.expr e)) (hj : withLoc e.loc (genExpr e) = .ok j) :
    readExpr k j = some (keptExpr e) := by
  obtain ⟨i, hi, -⟩ := withLoc_ok.1 hj
  rw [h _ _ hj, kept_at (hole_panic hi)]

theorem Told.exprs {es : List Expr} {j : Json} (h : ∀ e ∈ es, Told k (.expr e)) (hj : array (genExprs es) = .ok j) :
    listOf (readExpr k) j = some (keptExprs es) := by
  rw [genExprs_eq] at hj
  rw [keptExprs_map]
  exact list_read (fun e he j hj => (h e he).here hj) hj

theorem Told.option {v : Option Expr} {j : Json} (h : ∀ e ∈ v, Told k (.expr e))
    (hj : (match v with | some e => withLoc e.loc (genExpr e) | none => .ok .null) = .ok j) :
    orNull (readExpr k) j = some (match v with | some e => some (keptExpr e) | none => none) := by
  cases v with
  | none => simp at hj; subst hj; rfl
  | some e => rw [orNull_obj (withLoc_obj hj), (h e rfl).here hj]; rfl

theorem Told.pats {ps : List Pattern} {j : Json} (h : ∀ p ∈ ps, Told k (.pat p)) (hj : array (genPatterns ps) = .ok j) :
    listOf (readPattern k) j = some (keptPats ps) := by
  rw [genPatterns_eq] at hj
  rw [keptPats_map]
  exact list_read h hj

theorem Told.props {ps : List Property} {j : Json} (h : ∀ p ∈ ps, Told k (.prop p)) (hj : array (genProperties ps) = .ok j) :
    listOf (readProperty k) j = some (keptProps ps) := by
  rw [genProperties_eq] at hj
  rw [keptProps_map]
  exact list_read h hj

theorem Told.members {ms : List ClassMember} {j : Json} (h : ∀ m ∈ ms, Told k (.member m)) (hj : array (genMembers ms) = .ok j) :
    listOf (readMember k) j = some (keptMembers ms) := by
  rw [genMembers_eq] at hj
  rw [keptMembers_map]
  exact list_read h hj

theorem Told.stmts {ss : List Stmt} {j : Json} (h : ∀ s ∈ ss, Told k (.stmt s)) (hj : array (genStmts ss) = .ok j) :
    listOf (readStmt k) j = some (keptStmts ss) := by
  rw [genStmts_eq] at hj
  rw [keptStmts_map]
  exact list_read h hj

theorem Told.declarators {ds : List Declarator} {j : Json} (h : ∀ d ∈ ds, Told k (.declarator d))
    (hj : array (genDeclarators ds) = .ok j) : listOf (readDeclarator k) j = some (keptDeclarators ds) := by
  rw [genDeclarators_eq] at hj
  rw [keptDeclarators_map]
  exact list_read h hj

theorem Told.inBlock {b : Block} {j : Json} (h : ∀ s ∈ b.body, Told k (.stmt s)) (hj : genBlock b = .ok j) :
    readBlock (readStmt k) j = some (keptBlock b) := by
  rcases b with ⟨l, ss⟩
  rw [keptBlock, keptStmts_map]
  exact block_read h hj

theorem block_obj {b : Block} {j : Json} (h : genBlock b = .ok j) : ∃ fs, j = .obj fs := by
  rcases b with ⟨l, ss⟩
  exact withLoc_obj h
theorem init_obj {i : ForInit} {j : Json} (h : genForInit i = .ok j) : ∃ fs, j = .obj fs := by
  cases i <;> exact withLoc_obj h
theorem catch_obj {c : Catch} {j : Json} (h : genCatch c = .ok j) : ∃ fs, j = .obj fs := by
  cases c; exact withLoc_obj h
theorem stmt_obj {s : Stmt} {j : Json} (h : genStmt s = .ok j) : ∃ fs, j = .obj fs := by
  rw [genStmt.eq_def] at h
  cases s <;> exact withLoc_obj h

theorem declKind_read (kd : DeclKind) : (look? "kind" symbol (jnode ty [("kind", genDeclKind kd), d] l)).bind readDeclKind = some kd := by
  cases kd <;> rfl

/-! ### Expressions -/

theorem trim_cons (e : Expr) (es : List Expr) : trim (e :: es) = if hole e && (trim es).isEmpty then [] else e :: trim es := by
  have h1 : ∀ (p : Expr → Bool) (l : List Expr) (x : Expr),
      (l ++ [x]).dropWhile p = if (l.dropWhile p).isEmpty then (if p x then [] else [x]) else l.dropWhile p ++ [x] := by
    intro p l x
    induction l with
    | nil => by_cases h : p x <;> simp [List.dropWhile, h]
    | cons y l ih =>
      by_cases h : p y
      · simpa [List.dropWhile, h] using ih
      · simp [List.dropWhile, h]
  unfold trim
  rw [List.reverse_cons, h1]
  by_cases h : (es.reverse.dropWhile hole).isEmpty
  · have hn : es.reverse.dropWhile hole = [] := by simpa using h
    by_cases he : hole e <;> simp [hn, he]
  · have : es.reverse.dropWhile hole ≠ [] := by simpa using h
    simp [this]

theorem dropTrailing_eq (es : List Expr) :
    dropTrailing (genElements es) = (trim es).map fun e => if hole e then none else some (withLoc e.loc (genExpr e)) := by
  have hh : ∀ e : Expr, (Node.expr e).isJsonHole = hole e := fun e => by cases e <;> rfl
  rw [genElements_eq]
  simp only [hh]
  induction es with
  | nil => rfl
  | cons e es ih =>
    rw [trim_cons, List.map_cons]
    unfold dropTrailing
    rw [ih]
    by_cases he : hole e
    · by_cases ht : (trim es).isEmpty
      · have : trim es = [] := by simpa using ht
        simp [he, this]
      · have hn : trim es ≠ [] := by simpa using ht
        obtain ⟨x, xs, hx⟩ := List.exists_cons_of_ne_nil hn
        simp [he, hx]
    · simp [he]

theorem kept_hole (e : Expr) : hole (keptExpr e) = hole e := by
  cases e
  case «prefix» l op e =>
    by_cases ho : op = .New
    · subst ho
      obtain ⟨e', he⟩ := kept_new (l := l) (e := e)
      rw [he]
      rfl
    · rw [kept_prefix ho]
      rfl
  all_goals rfl

theorem trim_kept (es : List Expr) : trim (keptExprs es) = (trim es).map keptExpr := by
  induction es with
  | nil => rfl
  | cons e es ih =>
    rw [keptExprs, trim_cons, trim_cons, kept_hole, ih]
    have : ((trim es).map keptExpr).isEmpty = (trim es).isEmpty := by simp
    rw [this]
    split <;> simp

theorem trim_mem {es : List Expr} {e : Expr} (h : e ∈ trim es) : e ∈ es := by
  unfold trim at h
  rw [List.mem_reverse] at h
  have := (List.dropWhile_sublist hole).subset h
  simpa using this

theorem Told.elements {es : List Expr} {j : Json} (h : ∀ e ∈ es, Told k (.expr e))
    (hj : array ((dropTrailing (genElements es)).map optional) = .ok j) :
    listOf (readElement (readExpr k)) j = some (trim (keptExprs es)) := by
  rw [dropTrailing_eq, List.map_map] at hj
  rw [trim_kept]
  refine list_read (fun e he j hj => ?_) hj
  simp only [Function.comp_apply] at hj
  by_cases hh : hole e
  · simp only [hh, if_true, optional, Out.ok.injEq] at hj
    subst hj
    cases e <;> first | rfl | simp [hole] at hh
  · simp only [hh, optional, Bool.false_eq_true, if_false] at hj
    show ((orNull (readExpr k) j).bind fun e => some (e.getD (Expr.void z))) = _
    rw [orNull_obj (withLoc_obj hj), (h e (trim_mem he)).here hj]
    rfl

theorem binary_read {op : Op} {ty : String} {texts : List (Bytes × Op)} {a b : Json} {l : Loc}
    (h : texts.lookup op.asStr = some op) :
    readBinary (readExpr k) texts l (jnode ty [("operator", .str op.asStr), ("left", a), ("right", b)] l) =
      (readExpr k a).bind fun a => (readExpr k b).bind fun b => some (.binary l op a b) := by
  show ((texts.lookup op.asStr).bind fun op => (readExpr k a).bind fun a => (readExpr k b).bind fun b =>
    some (Expr.binary l op a b)) = _
  rw [h]
  rfl

theorem expr_told [Unicode] {e : Expr} (hw : WellFormed (.expr e)) (hc : ∀ c ∈ (Node.expr e).children, Told k c)
    (hg : ∀ c ∈ (Node.expr e).children, ∀ d ∈ c.children, Told k d) : Told (k + 1) (.expr e) := by
  intro l j hj
  rw [readExpr]
  cases e
  case void => simp [withLoc, genExpr] at hj
  case this =>
    rw [genExpr, node0] at hj
    subst hj
    rfl
  case ident l' n =>
    simp only [genExpr, withLoc_ok, Out.ok.injEq] at hj
    obtain ⟨_, rfl, rfl⟩ := hj
    rfl
  case lit l' v =>
    simp only [genExpr, withLoc_ok] at hj
    obtain ⟨i, hi, rfl⟩ := hj
    obtain ⟨h1, h2⟩ := literal_read (l := l) hw hi
    obtain ⟨ty, fs⟩ := i
    simp only at h1
    subst h1
    have hp : place (jnode "Literal" fs l) = some l := by
      cases v <;> simp only [genLiteral, Out.bind_eq_ok, Out.ok.injEq, Prod.mk.injEq] at hi
      case Number v =>
        obtain ⟨fs', hf, -, rfl⟩ := hi
        have hn : ∀ o, expectNumber v o = .ok fs' → place (jnode "Literal" fs' l) = some l := by
          intro o ho
          cases o <;> simp only [expectNumber, reduceCtorEq, Out.ok.injEq] at ho
          subst ho; rfl
        unfold genNumber at hf
        simp only at hf
        split at hf
        · exact hn _ hf
        · split at hf
          · exact hn _ hf
          · split at hf
            · split at hf
              · simp only [Out.ok.injEq] at hf; subst hf; rfl
              · simp at hf
            · exact hn _ hf
      case Binary v =>
        split at hi
        · simp at hi
        · simp only [Out.bind_eq_ok, Out.ok.injEq, Prod.mk.injEq] at hi
          obtain ⟨fs', hf, -, rfl⟩ := hi
          unfold expectNumber at hf
          split at hf
          · simp only [Out.ok.injEq] at hf; subst hf; rfl
          · simp at hf
      case String v =>
        split at hi
        · simp at hi
        · simp only [Out.ok.injEq, Prod.mk.injEq] at hi
          obtain ⟨-, rfl⟩ := hi
          rfl
      case RegEx v => obtain ⟨_, -, -, rfl⟩ := hi; rfl
      all_goals obtain ⟨-, rfl⟩ := hi; rfl
    rw [hp]
    show (readLiteral (jnode "Literal" fs l)).map (Expr.lit l) = _
    rw [h2]
    rfl
  case seq l' es =>
    rw [genExpr, node1] at hj
    obtain ⟨a, ha, rfl⟩ := hj
    show (listOf (readExpr k) a).map (Expr.seq l) = _
    rw [Told.exprs (fun e he => hc _ (by simp [Node.children, he])) ha]
    rfl
  case array l' es =>
    rw [genExpr, node1] at hj
    obtain ⟨a, ha, rfl⟩ := hj
    show (listOf (readElement (readExpr k)) a).map (Expr.array l) = _
    rw [Told.elements (fun e he => hc _ (by simp [Node.children, he])) ha]
    rfl
  case member l' o p =>
    rw [genExpr, node3] at hj
    obtain ⟨a, b, c, ha, hb, hc', rfl⟩ := hj
    cases hc'
    show ((readExpr k a).bind fun o => (readIdent b).map (Expr.member l o)) = _
    rw [(hc (.expr o) (by simp [Node.children])).here ha, ident_read hb]
    rfl
  case cmember l' o p =>
    rw [genExpr, node3] at hj
    obtain ⟨a, b, c, ha, hb, hc', rfl⟩ := hj
    cases hc'
    show ((readExpr k a).bind fun o => (readExpr k b).map (Expr.cmember l o)) = _
    rw [(hc (.expr o) (by simp [Node.children])).here ha, (hc (.expr p) (by simp [Node.children])).here hb]
    rfl
  case metaProp l' m p =>
    rw [genExpr, node2] at hj
    obtain ⟨a, b, ha, hb, rfl⟩ := hj
    show ((readIdent a).bind fun m => (readIdent b).bind fun p => some (Expr.metaProp l m p)) = _
    rw [ident_read ha, ident_read hb]
    rfl
  case call l' c as =>
    rw [genExpr, node2] at hj
    obtain ⟨a, b, ha, hb, rfl⟩ := hj
    show ((readExpr k a).bind fun c => (listOf (readExpr k) b).bind fun as => some (Expr.call l c as)) = _
    rw [(hc (.expr c) (by simp [Node.children])).here ha, Told.exprs (fun e he => hc _ (by simp [Node.children, he])) hb]
    rfl
  case binary l' op x y =>
    rw [genExpr, node3] at hj
    obtain ⟨o, a, b, ho, ha, hb, rfl⟩ := hj
    cases ho
    have hx := (hc (.expr x) (by simp [Node.children])).here ha
    have hy := (hc (.expr y) (by simp [Node.children])).here hb
    obtain ⟨-, -, hop⟩ := hw
    have hty : (expressionType op false = "BinaryExpression" ∧ binaryTexts.lookup op.asStr = some op) ∨
        (expressionType op false = "LogicalExpression" ∧ logicalTexts.lookup op.asStr = some op) ∨
        (expressionType op false = "AssignmentExpression" ∧ assignTexts.lookup op.asStr = some op) := by
      have hop' : (precedence op).isSome = true ∨ assignOperator op = true := hop.imp id And.left
      clear hop
      revert hop'
      cases op <;> decide
    rcases hty with ⟨h1, h2⟩ | ⟨h1, h2⟩ | ⟨h1, h2⟩
    · rw [h1]
      show readBinary (readExpr k) binaryTexts l _ = _
      rw [binary_read h2, hx, hy]
      rfl
    · rw [h1]
      show readBinary (readExpr k) logicalTexts l _ = _
      rw [binary_read h2, hx, hy]
      rfl
    · rw [h1]
      show readBinary (readExpr k) assignTexts l _ = _
      rw [binary_read h2, hx, hy]
      rfl
  case «prefix» l' op x =>
    rw [genExpr.eq_def] at hj
    simp only at hj
    by_cases ho : op = .New
    · subst ho
      simp only [if_true] at hj
      have h0 := hc (.expr x) (by simp [Node.children])
      have h1 := hg (.expr x) (by simp [Node.children])
      cases x
      case call cl c as =>
        simp only at hj
        rw [node2] at hj
        obtain ⟨a, b, ha, hb, rfl⟩ := hj
        show ((readExpr k a).bind fun c => (listOf (readExpr k) b).bind fun as => some (Expr.prefix l .New (.call z c as))) = _
        rw [(h1 (.expr c) (by simp [Node.children])).here ha, Told.exprs (fun e he => h1 _ (by simp [Node.children, he])) hb]
        rfl
      case lit ll v =>
        simp only at hj
        rw [node2] at hj
        obtain ⟨a, b, ha, hb, rfl⟩ := hj
        cases hb
        show ((readExpr k a).bind fun c => some (Expr.prefix l .New (.call z c []))) = _
        rw [h0 ll a ha]
        rfl
      all_goals simp [withLoc] at hj
    · rw [if_neg ho, node3] at hj
      obtain ⟨o, a, b, ho', ha, hb, rfl⟩ := hj
      cases ho'
      cases hb
      have hx := (hc (.expr x) (by simp [Node.children])).here ha
      rw [kept_prefix ho]
      obtain ⟨-, hop⟩ := hw
      have hty : (expressionType op true = "UnaryExpression" ∧ unaryTexts.lookup op.asStr = some op) ∨
          (expressionType op true = "UpdateExpression" ∧ updateTexts.lookup op.asStr = some op) := by
        have hop' : unaryOperator op = true := hop.resolve_right ho
        clear hop ho
        revert hop'
        cases op <;> decide
      rcases hty with ⟨h1, h2⟩ | ⟨h1, h2⟩
      · rw [h1]
        show ((unaryTexts.lookup op.asStr).bind fun op => (readExpr k a).map (Expr.prefix l op)) = _
        rw [h2, hx]
        rfl
      · rw [h1]
        show ((updateTexts.lookup op.asStr).bind fun op => (readExpr k a).bind fun a => some (Expr.prefix l op a)) = _
        rw [h2, hx]
        rfl
  case «postfix» l' op x =>
    rw [genExpr, node3] at hj
    obtain ⟨o, a, b, ho, ha, hb, rfl⟩ := hj
    cases ho
    cases hb
    have hx := (hc (.expr x) (by simp [Node.children])).here ha
    obtain ⟨hop, -⟩ := hw
    have hty : expressionType op false = "UpdateExpression" ∧ updateTexts.lookup op.asStr = some op := by
      rcases hop with rfl | rfl <;> decide
    rw [hty.1]
    show ((updateTexts.lookup op.asStr).bind fun op => (readExpr k a).bind fun a => some (Expr.postfix l op a)) = _
    rw [hty.2, hx]
    rfl
  case cond l' t c a =>
    rw [genExpr, node3] at hj
    obtain ⟨x, y, z', hx, hy, hz, rfl⟩ := hj
    show ((readExpr k x).bind fun t => (readExpr k y).bind fun c => (readExpr k z').bind fun a => some (Expr.cond l t c a)) = _
    rw [(hc (.expr t) (by simp [Node.children])).here hx, (hc (.expr c) (by simp [Node.children])).here hy,
      (hc (.expr a) (by simp [Node.children])).here hz]
    rfl
  case template l' es qs =>
    rw [genExpr, node2] at hj
    obtain ⟨a, b, ha, hb, rfl⟩ := hj
    show ((readTemplate (readExpr k) (jnode "TemplateLiteral" [("quasis", a), ("expressions", b)] l)).bind fun x =>
      match x with | (es, qs) => some (Expr.template l es qs)) = _
    rw [template_read ha (Told.exprs (fun e he => hc _ (by simp [Node.children, he])) hb)]
    rfl
  case tagged l' t ql es qs =>
    rw [genExpr, node2] at hj
    obtain ⟨x, y, hx, hy, rfl⟩ := hj
    rw [node2] at hy
    obtain ⟨a, b, ha, hb, rfl⟩ := hy
    show ((readExpr k x).bind fun t => (readTemplate (readExpr k) (jnode "TemplateLiteral" [("quasis", a), ("expressions", b)] ql)).bind fun x =>
      match x with | (es, qs) => some (Expr.tagged l t ql es qs)) = _
    rw [template_read ha (Told.exprs (fun e he => hc _ (by simp [Node.children, he])) hb),
      (hc (.expr t) (by simp [Node.children])).here hx]
    rfl
  case spread l' x =>
    rw [genExpr, node1] at hj
    obtain ⟨a, ha, rfl⟩ := hj
    show (readExpr k a).map (Expr.spread l) = _
    rw [(hc (.expr x) (by simp [Node.children])).here ha]
    rfl
  case arrowE l' ps x =>
    rw [genExpr, node2] at hj
    obtain ⟨a, b, ha, hb, rfl⟩ := hj
    obtain ⟨i, hi, rfl⟩ := withLoc_ok.1 hb
    show ((listOf (readPattern k) a).bind fun ps =>
      if i.1 = "BlockStatement" then (readBlock (readStmt k) (jnode i.1 i.2 x.loc)).map (Expr.arrowB l ps)
        else (readExpr k (jnode i.1 i.2 x.loc)).map (Expr.arrowE l ps)) = _
    simp only [if_neg (expr_type hi).1]
    rw [Told.pats (fun p hp => hc _ (by simp [Node.children, hp])) ha, (hc (.expr x) (by simp [Node.children])).here hb]
    rfl
  case arrowB l' ps x =>
    rcases x with ⟨bl, ss⟩
    rw [genExpr, node2] at hj
    obtain ⟨a, b, ha, hb, rfl⟩ := hj
    have hr := Told.inBlock (b := .mk bl ss) (fun s hs => hc (.stmt s) (by
      simp only [Node.children, List.mem_append, List.mem_map]
      exact .inr ⟨s, hs, rfl⟩)) hb
    have hk : kindOf b = some "BlockStatement" := by
      rw [genBlock, node1] at hb
      obtain ⟨_, -, rfl⟩ := hb
      rfl
    show ((listOf (readPattern k) a).bind fun ps => (kindOf b).bind fun bt =>
      if bt = "BlockStatement" then (readBlock (readStmt k) b).map (Expr.arrowB l ps)
        else (readExpr k b).map (Expr.arrowE l ps)) = _
    rw [Told.pats (fun p hp => hc _ (by simp [Node.children, hp])) ha, hk, hr]
    rfl
  case object l' ps =>
    rw [genExpr, node1] at hj
    obtain ⟨a, ha, rfl⟩ := hj
    show (listOf (readProperty k) a).map (Expr.object l) = _
    rw [Told.props (fun p hp => hc _ (by simp [Node.children, hp])) ha]
    rfl
  case function l' f =>
    have hf := hc (.func f) (by simp [Node.children]) l j hj
    rcases f with ⟨n, g, ps, b⟩
    rw [genExpr, genFunc, node4] at hj
    obtain ⟨a, b, c, d, ha, hb, hc, hd, rfl⟩ := hj
    cases n with
    | empty => simp [WellFormed, funcName, Name.isOptional] at hw
    | mandatory n => simp [WellFormed, funcName, Name.isOptional] at hw
    | optional n =>
      have hn : orNull readIdent b = some n := by
        refine label_read (n := n) ?_
        rw [← hb]
        cases n <;> rfl
      show ((orNull readIdent b).bind fun n => (readFunction k (.optional n) _).map (Expr.function l)) = _
      rw [hn]
      show (readFunction k (.optional n) _).map (Expr.function l) = _
      rw [show readFunction k (.optional n) _ = _ from hf]
      rfl
  case «class» l' c =>
    have hf := hc (.cls c) (by simp [Node.children]) l j hj
    rcases c with ⟨n, s, bl, ms⟩
    rw [genExpr, genClass.eq_def, node3] at hj
    obtain ⟨b, c, d, hb, hc, hd, rfl⟩ := hj
    cases n with
    | empty => simp [WellFormed, className, Name.isOptional] at hw
    | mandatory n => simp [WellFormed, className, Name.isOptional] at hw
    | optional n =>
      have hn : orNull readIdent b = some n := by
        refine label_read (n := n) ?_
        rw [← hb]
        cases n <;> rfl
      show ((orNull readIdent b).bind fun n => (readClass k (.optional n) _).map (Expr.class l)) = _
      rw [hn]
      show (readClass k (.optional n) _).map (Expr.class l) = _
      rw [show readClass k (.optional n) _ = _ from hf]
      rfl

end Ratel
