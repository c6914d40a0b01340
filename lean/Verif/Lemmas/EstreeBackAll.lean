import Verif.Lemmas.EstreeBack
/-! Reading back what the serialiser wrote (C51): the nodes besides expressions, and all nodes. -/
namespace Ratel
open Spec

set_option linter.unusedSimpArgs false

variable {k : Nat}

/-! ### Keys -/

theorem word_noBinary [Unicode] {t : Token} {v : Bytes} (h : Word t v) : binaryPrefix v = false := by
  have key : ∀ (c : Byte) (w : Bytes), c ≠ #b'0' → binaryPrefix (c :: w) = false := by
    intro c w hc
    cases w with
    | nil => simp [binaryPrefix]
    | cons d w => simp [binaryPrefix, hc]
  rcases h with ⟨c, w, rfl, hc, -⟩ | ⟨-, c, w, rfl, hc, -⟩
  · refine key c w ?_
    rintro rfl
    revert hc
    decide
  · refine key c w ?_
    rintro rfl
    revert hc
    decide

theorem string_noBinary {v : Bytes} (h : StringText v) : binaryPrefix v = false := by
  obtain ⟨q, s, rfl, hq, -⟩ := h
  cases s <;> rcases hq with rfl | rfl <;> simp [binaryPrefix]

theorem objectKey_text [Unicode] {key : PropKey} (h : ObjectKey key) : KeyTold key := by
  cases key with
  | computed => trivial
  | literal l v =>
    rcases h with ⟨t, h, -⟩ | h | ⟨r, h⟩
    · exact word_noBinary h
    · exact string_noBinary h
    · exact number_noBinary h
  | binary l v => exact binary_prefix h

theorem memberKey_text [Unicode] {key : PropKey} (h : MemberKey key) : KeyTold key := by
  cases key with
  | computed => trivial
  | literal l v =>
    rcases h with ⟨t, h, -⟩ | ⟨r, h⟩
    · exact word_noBinary h
    · exact number_noBinary h
  | binary l v => exact binary_prefix h

theorem key_told [Unicode] {key : PropKey} (hw : ∀ c ∈ (Node.key key).children, WellFormed c)
    (hc : ∀ c ∈ (Node.key key).children, Told k c) : Told (k + 1) (.key key) := by
  intro hk c j hcomp hj
  rw [readKey]
  cases key with
  | computed l e =>
    rw [genKey] at hj
    have hr := (hc (.expr e) (by simp [Node.children])).here hj
    obtain ⟨i, hi, rfl⟩ := withLoc_ok.1 hj
    show (if c = false ∧ i.1 = "Identifier" then _ else (readExpr k (jnode i.1 i.2 e.loc)).map (PropKey.computed z)) = _
    rw [hr]
    by_cases hid : i.1 = "Identifier"
    · obtain ⟨il, n, rfl⟩ := (expr_type hi).2.2 hid
      simp only [genExpr, Out.ok.injEq] at hi
      subst hi
      cases c with
      | true => rfl
      | false =>
        have hn : binaryPrefix n = false := by
          rcases hw _ (by simp [Node.children]; rfl) with h | rfl
          · exact word_noBinary h
          · decide
        rw [if_pos ⟨rfl, rfl⟩]
        show some (if binaryPrefix n then PropKey.binary il n else .literal il n) = _
        rw [hn]
        rfl
    · rw [if_neg (fun h => hid h.2)]
      have : keptKey c (.computed l e) = .computed z (keptExpr e) := by
        cases e
        case ident =>
          simp only [genExpr, Out.ok.injEq] at hi
          subst hi
          exact absurd rfl hid
        all_goals rfl
      rw [this]
      rfl
  | literal l v =>
    have : c = false := by
      cases c
      · rfl
      · exact absurd (hcomp rfl) (by simp [isComputed])
    subst this
    simp only [genKey, withLoc_ok, Out.ok.injEq] at hj
    obtain ⟨_, rfl, rfl⟩ := hj
    show some (if binaryPrefix v then PropKey.binary l v else .literal l v) = _
    rw [show binaryPrefix v = false from hk]
    rfl
  | binary l v =>
    have : c = false := by
      cases c
      · rfl
      · exact absurd (hcomp rfl) (by simp [isComputed])
    subst this
    simp only [genKey, withLoc_ok, Out.ok.injEq] at hj
    obtain ⟨_, rfl, rfl⟩ := hj
    show some (if binaryPrefix v then PropKey.binary l v else .literal l v) = _
    rw [show binaryPrefix v = true from hk]
    rfl

/-! ### Functions and classes -/

theorem func_told {f : Func} (hc : ∀ c ∈ (Node.func f).children, Told k c) : Told (k + 1) (.func f) := by
  intro l j hj
  rw [readFunction]
  rcases f with ⟨n, g, ps, b⟩
  rcases b with ⟨bl, ss⟩
  rw [genFunc, node4] at hj
  obtain ⟨a, b, c, d, ha, hb, hc', hd, rfl⟩ := hj
  cases ha
  show ((listOf (readPattern k) c).bind fun ps => (readBlock (readStmt k) d).bind fun b => some (Func.mk n g ps b)) = _
  rw [Told.pats (fun p hp => hc _ (by simp [Node.children, hp])) hc',
    Told.inBlock (b := .mk bl ss) (fun s hs => hc (.stmt s) (by
      simp only [Node.children, List.mem_append, List.mem_map]
      exact .inr ⟨s, hs, rfl⟩)) hd]
  rfl

theorem cls_told {c : Class} (hc : ∀ d ∈ (Node.cls c).children, Told k d) : Told (k + 1) (.cls c) := by
  intro l j hj
  rw [readClass]
  rcases c with ⟨n, s, bl, ms⟩
  rw [genClass.eq_def, node3] at hj
  obtain ⟨a, b, c, ha, hb, hd, rfl⟩ := hj
  rw [node1] at hd
  obtain ⟨d, hd, rfl⟩ := hd
  show ((orNull (readExpr k) b).bind fun s => (listOf (readMember k) d).bind fun ms => some (Class.mk n s bl ms)) = _
  rw [Told.option (v := s) (fun e he => hc _ (by
      simp only [Node.children, List.mem_append, List.mem_map, Option.mem_toList]
      exact .inl ⟨e, he, rfl⟩)) hb,
    Told.members (fun m hm => hc _ (by
      simp only [Node.children, List.mem_append, List.mem_map]
      exact .inr ⟨m, hm, rfl⟩)) hd]
  cases s <;> rfl

theorem method_told {f : Func} {l : Loc} {j : Json} (hf : funcName f = .empty) (h : Told k (.func f))
    (hj : withLoc l (genFunc f) = .ok j) : place j = some l ∧ readMethod (readFunction k) j = some (keptFunc f) := by
  have hr := h l j hj
  rcases f with ⟨n, g, ps, b⟩
  simp only [funcName] at hf
  subst hf
  rw [genFunc, node4] at hj
  obtain ⟨a, b, c, d, ha, hb, hc', hd, rfl⟩ := hj
  cases ha
  cases hb
  exact ⟨rfl, hr⟩

/-! ### Properties, patterns, members -/

theorem prop_told [Unicode] {p : Property} (hw : WellFormed (.prop p)) (hc : ∀ c ∈ (Node.prop p).children, Told k c) :
    Told (k + 1) (.prop p) := by
  intro j hj
  rw [readProperty]
  cases p with
  | shorthand l n =>
    simp only [genProperty, withLoc_ok, Out.ok.injEq] at hj
    obtain ⟨_, rfl, rfl⟩ := hj
    rfl
  | literal l key v =>
    rw [genProperty.eq_def] at hj
    simp only at hj
    rw [node6] at hj
    obtain ⟨a, b, c, d, e, f, ha, hb, hc', hd, he, hf, rfl⟩ := hj
    cases hb; cases hc'; cases hf
    have hcomp : d = .bool (isComputed key) := by
      cases key <;> simp only [Out.ok.injEq] at hd <;> subst hd <;> rfl
    subst hcomp
    have hk := hc (.key key) (by simp [Node.children]) (objectKey_text hw.1) (isComputed key) a id ha
    show ((readKey k (isComputed key) a).bind fun key => (readExpr k e).map (Property.literal l key)) = _
    rw [hk, (hc (.expr v) (by simp [Node.children])).here he]
    rfl
  | method l key vl f =>
    rw [genProperty, node6] at hj
    obtain ⟨a, b, c, d, e, f', ha, hb, hc', hd, he, hf, rfl⟩ := hj
    cases hb; cases hc'; cases hf; cases hd
    have hk := hc (.key key) (by simp [Node.children]) (objectKey_text hw.1) false a (by simp) ha
    obtain ⟨h1, h2⟩ := method_told hw.2 (hc (.func f) (by simp [Node.children])) he
    show ((readKey k false a).bind fun key => (place e).bind fun fl =>
      (readMethod (readFunction k) e).map (Property.method l key fl)) = _
    rw [hk, h1, h2]
    rfl
  | spread l e =>
    rw [genProperty, node1] at hj
    obtain ⟨a, ha, rfl⟩ := hj
    show (readExpr k a).map (Property.spread l) = _
    rw [(hc (.expr e) (by simp [Node.children])).here ha]
    rfl

theorem pat_told {p : Pattern} (hc : ∀ c ∈ (Node.pat p).children, Told k c) : Told (k + 1) (.pat p) := by
  intro j hj
  rw [readPattern]
  cases p with
  | void l => simp [genPattern] at hj
  | ident l n =>
    simp only [genPattern, withLoc_ok, Out.ok.injEq] at hj
    obtain ⟨_, rfl, rfl⟩ := hj
    rfl
  | object l ps =>
    rw [genPattern, node1] at hj
    obtain ⟨a, ha, rfl⟩ := hj
    show (listOf (readProperty k) a).map (Pattern.object l) = _
    rw [Told.props (fun p hp => hc _ (by simp [Node.children, hp])) ha]
    rfl
  | array l ps =>
    rw [genPattern, node1] at hj
    obtain ⟨a, ha, rfl⟩ := hj
    show (listOf (readPattern k) a).map (Pattern.array l) = _
    rw [Told.pats (fun p hp => hc _ (by simp [Node.children, hp])) ha]
    rfl
  | rest l n =>
    rw [genPattern, node1] at hj
    obtain ⟨a, ha, rfl⟩ := hj
    show (readIdent a).map (Pattern.rest l) = _
    rw [ident_read ha]
    rfl
  | assign l p e =>
    rw [genPattern, node2] at hj
    obtain ⟨a, b, ha, hb, rfl⟩ := hj
    show ((readPattern k a).bind fun a => (readExpr k b).bind fun b => some (Pattern.assign l a b)) = _
    rw [hc (.pat p) (by simp [Node.children]) a ha, (hc (.expr e) (by simp [Node.children])).here hb]
    rfl

theorem member_told [Unicode] {m : ClassMember} (hw : WellFormed (.member m)) (hc : ∀ c ∈ (Node.member m).children, Told k c) :
    Told (k + 1) (.member m) := by
  intro j hj
  rw [readMember]
  cases m with
  | error l => simp [genMember] at hj
  | literal l st key v => simp [genMember] at hj
  | method l st key kd vl f =>
    rw [genMember, node5] at hj
    obtain ⟨a, b, c, d, e, ha, hb, hc', hd, he, rfl⟩ := hj
    cases ha; cases hb; cases hc'
    have hk := hc (.key key) (by simp [Node.children]) (memberKey_text hw.1) false d (by simp) hd
    obtain ⟨h1, h2⟩ := method_told hw.2.2 (hc (.func f) (by simp [Node.children])) he
    have hkd : (symbol (genMethodKind kd)).bind readMethodKind = some kd := by cases kd <;> rfl
    show ((readKey k false d).bind fun key => ((symbol (genMethodKind kd)).bind readMethodKind).bind fun kd => (place e).bind fun fl =>
      (readMethod (readFunction k) e).bind fun f => some (ClassMember.method l st key kd fl f)) = _
    rw [hk, hkd, h1, h2]
    rfl

/-! ### Statements -/

theorem literal_place {v : Literal} {i : Item} {l : Loc} (hi : genLiteral v = .ok i) : place (jnode i.1 i.2 l) = some l := by
  rcases i with ⟨ty, fs⟩
  cases v <;> simp only [genLiteral, Out.bind_eq_ok, Out.ok.injEq, Prod.mk.injEq] at hi
  case Number v =>
    obtain ⟨fs', hf, -, rfl⟩ := hi
    have hn : ∀ o, expectNumber v o = .ok fs' → place (jnode ty fs' l) = some l := by
      intro o ho
      cases o <;> simp only [expectNumber, reduceCtorEq, Out.ok.injEq] at ho
      subst ho; rfl
    unfold genNumber at hf
    simp only at hf
    split at hf
    · exact hn _ hf
    · split at hf
      · exact hn _ hf
      · split at hf
        · split at hf
          · simp only [Out.ok.injEq] at hf; subst hf; rfl
          · simp at hf
        · exact hn _ hf
  case Binary v =>
    split at hi
    · simp at hi
    · simp only [Out.bind_eq_ok, Out.ok.injEq, Prod.mk.injEq] at hi
      obtain ⟨fs', hf, -, rfl⟩ := hi
      unfold expectNumber at hf
      split at hf
      · simp only [Out.ok.injEq] at hf; subst hf; rfl
      · simp at hf
  case String v =>
    split at hi
    · simp at hi
    · simp only [Out.ok.injEq, Prod.mk.injEq] at hi
      obtain ⟨-, rfl⟩ := hi
      rfl
  case RegEx v => obtain ⟨_, -, -, rfl⟩ := hi; rfl
  all_goals obtain ⟨-, rfl⟩ := hi; rfl

theorem expr_place {e : Expr} {i : Item} {l : Loc} (hi : genExpr e = .ok i) : place (jnode i.1 i.2 l) = some l := by
  cases e
  case void => simp [genExpr] at hi
  case ident l' n =>
    simp only [genExpr, Out.ok.injEq] at hi
    subst hi
    rfl
  case lit l' v => rw [genExpr] at hi; exact literal_place hi
  case «prefix» l' op x =>
    rw [genExpr.eq_def] at hi
    simp only at hi
    split at hi
    · split at hi
      · obtain ⟨_, hf, rfl⟩ := inLoc_ok.1 hi
        simp only [fields_cons, fields_nil] at hf
        obtain ⟨a, -, _, ⟨b, -, _, rfl, rfl⟩, rfl⟩ := hf
        rfl
      · obtain ⟨_, hf, rfl⟩ := inLoc_ok.1 hi
        simp only [fields_cons, fields_nil] at hf
        obtain ⟨a, -, _, ⟨b, -, _, rfl, rfl⟩, rfl⟩ := hf
        rfl
      · simp at hi
    · obtain ⟨_, hf, rfl⟩ := inLoc_ok.1 hi
      simp only [fields_cons, fields_nil] at hf
      obtain ⟨a, -, _, ⟨b, -, _, ⟨c, -, _, rfl, rfl⟩, rfl⟩, rfl⟩ := hf
      rfl
  case function l' f =>
    rcases f with ⟨n, g, ps, b⟩
    rw [genExpr, genFunc] at hi
    obtain ⟨_, hf, rfl⟩ := inLoc_ok.1 hi
    simp only [fields_cons, fields_nil] at hf
    obtain ⟨a, -, _, ⟨b, -, _, ⟨c, -, _, ⟨d, -, _, rfl, rfl⟩, rfl⟩, rfl⟩, rfl⟩ := hf
    rfl
  case «class» l' c =>
    rcases c with ⟨n, s, bl, ms⟩
    rw [genExpr, genClass.eq_def] at hi
    obtain ⟨_, hf, rfl⟩ := inLoc_ok.1 hi
    simp only [fields_cons, fields_nil] at hf
    obtain ⟨a, -, _, ⟨b, -, _, ⟨c, -, _, rfl, rfl⟩, rfl⟩, rfl⟩ := hf
    rfl
  all_goals
    rw [genExpr] at hi
    obtain ⟨_, hf, rfl⟩ := inLoc_ok.1 hi
    simp only [fields_cons, fields_nil] at hf
    first
      | (subst hf; rfl)
      | (obtain ⟨a, -, _, rfl, rfl⟩ := hf; rfl)
      | (obtain ⟨a, -, _, ⟨b, -, _, rfl, rfl⟩, rfl⟩ := hf; rfl)
      | (obtain ⟨a, -, _, ⟨b, -, _, ⟨c, -, _, rfl, rfl⟩, rfl⟩, rfl⟩ := hf; rfl)

theorem declarator_told {d : Declarator} (hc : ∀ c ∈ (Node.declarator d).children, Told k c) :
    Told (k + 1) (.declarator d) := by
  intro j hj
  rw [readDeclarator]
  rcases d with ⟨l, p, i⟩
  rw [genDeclarator.eq_def, node2] at hj
  obtain ⟨a, b, ha, hb, rfl⟩ := hj
  show ((readPattern k a).bind fun p => (orNull (readExpr k) b).bind fun i => some (Declarator.mk l p i)) = _
  rw [hc (.pat p) (by simp [Node.children]) a ha, Told.option (v := i) (fun e he => hc _ (by
      simp only [Node.children, List.mem_cons, List.mem_map, Option.mem_toList]
      exact .inr ⟨e, he, rfl⟩)) hb]
  cases i <;> rfl

theorem forInit_told {i : ForInit} (hc : ∀ c ∈ (Node.forInit i).children, Told k c) : Told (k + 1) (.forInit i) := by
  intro j hj
  rw [readForInit]
  cases i with
  | decl l kd ds =>
    rw [genForInit, node2] at hj
    obtain ⟨a, b, ha, hb, rfl⟩ := hj
    cases ha
    show (((symbol (genDeclKind kd)).bind readDeclKind).bind fun kd => (listOf (readDeclarator k) b).map (ForInit.decl l kd)) = _
    rw [Told.declarators (fun d hd => hc _ (by simp [Node.children, hd])) hb,
      show (symbol (genDeclKind kd)).bind readDeclKind = some kd by cases kd <;> rfl]
    rfl
  | expr l e =>
    rw [genForInit] at hj
    have hr := hc (.expr e) (by simp [Node.children]) l j hj
    obtain ⟨i, hi, rfl⟩ := withLoc_ok.1 hj
    rw [expr_place hi]
    show (if i.1 = "VariableDeclaration" then _ else (readExpr k (jnode i.1 i.2 l)).map (ForInit.expr l)) = _
    rw [if_neg (expr_type hi).2.1, hr]
    rfl

theorem case_told {c : SwitchCase} (hc : ∀ d ∈ (Node.case c).children, Told k d) : Told (k + 1) (.case c) := by
  intro j hj
  rw [readCase]
  rcases c with ⟨l, t, ss⟩
  rw [genCase.eq_def, node2] at hj
  obtain ⟨a, b, ha, hb, rfl⟩ := hj
  show ((orNull (readExpr k) a).bind fun t => (listOf (readStmt k) b).bind fun b => some (SwitchCase.mk l t b)) = _
  rw [Told.option (v := t) (fun e he => hc _ (by
      simp only [Node.children, List.mem_append, List.mem_map, Option.mem_toList]
      exact .inl ⟨e, he, rfl⟩)) ha,
    Told.stmts (fun s hs => hc _ (by
      simp only [Node.children, List.mem_append, List.mem_map]
      exact .inr ⟨s, hs, rfl⟩)) hb]
  cases t <;> rfl

theorem catch_told {c : Catch} (hc : ∀ d ∈ (Node.catch c).children, Told k d) : Told (k + 1) (.catch c) := by
  intro j hj
  rw [readCatch]
  rcases c with ⟨l, p, b⟩
  rw [genCatch, node2] at hj
  obtain ⟨x, y, hx, hy, rfl⟩ := hj
  show ((readPattern k x).bind fun p => (readBlock (readStmt k) y).bind fun b => some (Catch.mk l p b)) = _
  rw [hc (.pat p) (by simp [Node.children]) x hx, hc (.block b) (by simp [Node.children]) y hy]
  rfl

theorem block_told {b : Block} (hc : ∀ d ∈ (Node.block b).children, Told k d) : Told k (.block b) := by
  rcases b with ⟨l, ss⟩
  intro j hj
  exact Told.inBlock (b := .mk l ss) (fun s hs => hc (.stmt s) (by
      simp only [Node.children, List.mem_map]
      exact ⟨s, hs, rfl⟩)) hj

theorem switchBody_told {cs : List SwitchCase} (hc : ∀ d ∈ (Node.switchBody cs).children, Told k d) :
    Told k (.switchBody cs) := by
  intro j hj
  rw [genCases_eq] at hj
  rw [keptCases_map]
  exact list_read (fun c h => hc (.case c) (by simp [Node.children, h])) hj

theorem stmt_told [Unicode] {s : Stmt} (hw : WellFormed (.stmt s)) (hc : ∀ c ∈ (Node.stmt s).children, Told k c) :
    Told (k + 1) (.stmt s) := by
  intro j hj
  rw [readStmt]
  rw [genStmt.eq_def] at hj
  cases s <;> simp only at hj
  case empty l =>
    rw [node0] at hj
    subst hj
    rfl
  case debugger l =>
    rw [node0] at hj
    subst hj
    rfl
  case expr l e =>
    rw [node1] at hj
    obtain ⟨a, ha, rfl⟩ := hj
    show (readExpr k a).map (Stmt.expr l) = _
    rw [(hc (.expr e) (by simp [Node.children])).here ha]
    rfl
  case decl l kd ds =>
    rw [node2] at hj
    obtain ⟨a, b, ha, hb, rfl⟩ := hj
    cases ha
    show (((symbol (genDeclKind kd)).bind readDeclKind).bind fun kd => (listOf (readDeclarator k) b).map (Stmt.decl l kd)) = _
    rw [Told.declarators (fun d hd => hc _ (by simp [Node.children, hd])) hb,
      show (symbol (genDeclKind kd)).bind readDeclKind = some kd by cases kd <;> rfl]
    rfl
  case ret l v =>
    rw [node1] at hj
    obtain ⟨a, ha, rfl⟩ := hj
    show (orNull (readExpr k) a).map (Stmt.ret l) = _
    rw [Told.option (v := v) (fun e he => hc _ (by
      simp only [Node.children, List.mem_map, Option.mem_toList]
      exact ⟨e, he, rfl⟩)) ha]
    cases v <;> rfl
  case brk l n =>
    rw [node1] at hj
    obtain ⟨a, ha, rfl⟩ := hj
    show (orNull readIdent a).map (Stmt.brk l) = _
    rw [label_read ha]
    rfl
  case cont l n =>
    rw [node1] at hj
    obtain ⟨a, ha, rfl⟩ := hj
    show (orNull readIdent a).map (Stmt.cont l) = _
    rw [label_read ha]
    rfl
  case throw l e =>
    rw [node1] at hj
    obtain ⟨a, ha, rfl⟩ := hj
    show (readExpr k a).map (Stmt.throw l) = _
    rw [(hc (.expr e) (by simp [Node.children])).here ha]
    rfl
  case ifS l t c a =>
    rw [node3] at hj
    obtain ⟨x, y, w, hx, hy, hz, rfl⟩ := hj
    show ((readExpr k x).bind fun t => (readStmt k y).bind fun c => (orNull (readStmt k) w).bind fun a =>
      some (Stmt.ifS l t c a)) = _
    rw [(hc (.expr t) (by simp [Node.children])).here hx, hc (.stmt c) (by simp [Node.children]) y hy]
    cases a with
    | none => cases hz; rfl
    | some a => rw [orNull_obj (stmt_obj hz), hc (.stmt a) (by simp [Node.children]) w hz]; rfl
  case whileS l t b =>
    rw [node2] at hj
    obtain ⟨x, y, hx, hy, rfl⟩ := hj
    show ((readExpr k x).bind fun t => (readStmt k y).bind fun b => some (Stmt.whileS l t b)) = _
    rw [(hc (.expr t) (by simp [Node.children])).here hx, hc (.stmt b) (by simp [Node.children]) y hy]
    rfl
  case doS l b t =>
    rw [node2] at hj
    obtain ⟨x, y, hx, hy, rfl⟩ := hj
    show ((readStmt k x).bind fun b => (readExpr k y).bind fun t => some (Stmt.doS l b t)) = _
    rw [(hc (.expr t) (by simp [Node.children])).here hy, hc (.stmt b) (by simp [Node.children]) x hx]
    rfl
  case forS l i t u b =>
    rw [node4] at hj
    obtain ⟨w, x, y, v, hi, ht, hu, hb, rfl⟩ := hj
    show ((orNull (readForInit k) w).bind fun i => (orNull (readExpr k) x).bind fun t => (orNull (readExpr k) y).bind fun u =>
      (readStmt k v).bind fun b => some (Stmt.forS l i t u b)) = _
    rw [Told.option (v := t) (fun e he => hc _ (by
        simp only [Node.children, List.mem_append, List.mem_map, Option.mem_toList]
        exact .inl (.inl (.inr ⟨e, he, rfl⟩)))) ht,
      Told.option (v := u) (fun e he => hc _ (by
        simp only [Node.children, List.mem_append, List.mem_map, Option.mem_toList]
        exact .inl (.inr ⟨e, he, rfl⟩))) hu,
      hc (.stmt b) (by simp [Node.children]) v hb]
    cases i with
    | none => cases hi; cases t <;> cases u <;> rfl
    | some i =>
      rw [orNull_obj (init_obj hi), hc (.forInit i) (by simp [Node.children]) w hi]
      cases t <;> cases u <;> rfl
  case forIn l i r b =>
    rw [node3] at hj
    obtain ⟨x, y, w, hx, hy, hz, rfl⟩ := hj
    show ((readForInit k x).bind fun i => (readExpr k y).bind fun r => (readStmt k w).bind fun b =>
      some (Stmt.forIn l i r b)) = _
    rw [hc (.forInit i) (by simp [Node.children]) x hx, (hc (.expr r) (by simp [Node.children])).here hy,
      hc (.stmt b) (by simp [Node.children]) w hz]
    rfl
  case forOf l i r b =>
    rw [node3] at hj
    obtain ⟨x, y, w, hx, hy, hz, rfl⟩ := hj
    show ((readForInit k x).bind fun i => (readExpr k y).bind fun r => (readStmt k w).bind fun b =>
      some (Stmt.forOf l i r b)) = _
    rw [hc (.forInit i) (by simp [Node.children]) x hx, (hc (.expr r) (by simp [Node.children])).here hy,
      hc (.stmt b) (by simp [Node.children]) w hz]
    rfl
  case tryS l b h f =>
    rw [node3] at hj
    obtain ⟨x, y, w, hx, hy, hz, rfl⟩ := hj
    show ((readBlock (readStmt k) x).bind fun b => (orNull (readCatch k) y).bind fun h =>
      (orNull (readBlock (readStmt k)) w).bind fun f => some (Stmt.tryS l b h f)) = _
    rw [hc (.block b) (by simp [Node.children]) x hx]
    have hh : orNull (readCatch k) y = some (match h with | some h => some (keptCatch h) | none => none) := by
      cases h with
      | none => cases hy; rfl
      | some h => rw [orNull_obj (catch_obj hy), hc (.catch h) (by simp [Node.children]) y hy]; rfl
    have hf : orNull (readBlock (readStmt k)) w = some (match f with | some b => some (keptBlock b) | none => none) := by
      cases f with
      | none => cases hz; rfl
      | some f => rw [orNull_obj (block_obj hz), hc (.block f) (by simp [Node.children]) w hz]; rfl
    rw [hh, hf]
    cases h <;> cases f <;> rfl
  case block l ss =>
    rw [node1] at hj
    obtain ⟨a, ha, rfl⟩ := hj
    show (listOf (readStmt k) a).map (Stmt.block l) = _
    rw [Told.stmts (fun s hs => hc _ (by
      simp only [Node.children, List.mem_map]
      exact ⟨s, hs, rfl⟩)) ha]
    rfl
  case labeled l n b =>
    rw [node2] at hj
    obtain ⟨x, y, hx, hy, rfl⟩ := hj
    cases hx
    show (readStmt k y).bind (fun b => some (Stmt.labeled l n b)) = _
    rw [hc (.stmt b) (by simp [Node.children]) y hy]
    rfl
  case function l f =>
    have hf := hc (.func f) (by simp [Node.children]) l j hj
    rcases f with ⟨n, g, ps, b⟩
    rw [genFunc, node4] at hj
    obtain ⟨a, b, c, d, ha, hb, hc, hd, rfl⟩ := hj
    cases n with
    | empty => simp [WellFormed, funcName, Name.isMandatory] at hw
    | optional n => simp [WellFormed, funcName, Name.isMandatory] at hw
    | mandatory n =>
      have hn : readIdent b = some n := ident_read hb
      show ((readIdent b).bind fun n => (readFunction k (.mandatory n) _).map (Stmt.function l)) = _
      rw [hn]
      show (readFunction k (.mandatory n) _).map (Stmt.function l) = _
      rw [show readFunction k (.mandatory n) _ = _ from hf]
      rfl
  case «class» l c =>
    have hf := hc (.cls c) (by simp [Node.children]) l j hj
    rcases c with ⟨n, s, bl, ms⟩
    rw [genClass.eq_def, node3] at hj
    obtain ⟨b, c, d, hb, hc, hd, rfl⟩ := hj
    cases n with
    | empty => simp [WellFormed, className, Name.isMandatory] at hw
    | optional n => simp [WellFormed, className, Name.isMandatory] at hw
    | mandatory n =>
      have hn : readIdent b = some n := ident_read hb
      show ((readIdent b).bind fun n => (readClass k (.mandatory n) _).map (Stmt.class l)) = _
      rw [hn]
      show (readClass k (.mandatory n) _).map (Stmt.class l) = _
      rw [show readClass k (.mandatory n) _ = _ from hf]
      rfl
  case switch l d bl cs =>
    rw [node2] at hj
    obtain ⟨x, y, hx, hy, rfl⟩ := hj
    show ((readExpr k x).bind fun d => (listOf (readCase k) y).map (Stmt.switch l d z)) = _
    rw [(hc (.expr d) (by simp [Node.children])).here hx, hc (.switchBody cs) (by simp [Node.children]) y hy]
    rfl
  case «import» l ss src =>
    rw [node2] at hj
    obtain ⟨x, y, hx, hy, rfl⟩ := hj
    cases hy
    show ((listOf readImportSpec x).bind fun ss => some (Stmt.import l ss src)) = _
    rw [list_read (h := id) (fun s _ j hj => spec_read hj) hx]
    simp [keptStmt]

/-! ### All nodes -/

theorem told_of [Unicode] (n : Node) (ih : ∀ c : Node, c.size < n.size → c.Forall WellFormed → ∀ k, c.size < k → Told k c)
    (hw : n.Forall WellFormed) (k : Nat) (hk : n.size < k) : Told k n := by
  obtain ⟨hn, hch⟩ := Node.forall_iff.1 hw
  have same : ∀ c ∈ n.children, Told k c := fun c hc =>
    ih c (Node.child_lt hc) (hch c hc) k (by have := Node.child_lt hc; omega)
  obtain ⟨k, rfl⟩ : ∃ k', k = k' + 1 := ⟨k - 1, by omega⟩
  have less : ∀ c ∈ n.children, Told k c := fun c hc =>
    ih c (Node.child_lt hc) (hch c hc) k (by have := Node.child_lt hc; omega)
  cases n with
  | expr e =>
    exact expr_told hn less fun c hc d hd => ih d (Nat.lt_trans (Node.child_lt hd) (Node.child_lt hc))
      ((Node.forall_iff.1 (hch c hc)).2 d hd) k (by have := Node.child_lt hc; have := Node.child_lt hd; omega)
  | key key => exact key_told (fun c hc => (Node.forall_iff.1 (hch c hc)).1) less
  | prop p => exact prop_told hn less
  | pat p => exact pat_told less
  | func f => exact func_told less
  | cls c => exact cls_told less
  | member m => exact member_told hn less
  | block b => exact block_told same
  | stmt s => exact stmt_told hn less
  | declarator d => exact declarator_told less
  | forInit i => exact forInit_told less
  | case c => exact case_told less
  | «catch» c => exact catch_told less
  | switchBody cs => exact switchBody_told same

theorem told [Unicode] (n : Node) (hw : n.Forall WellFormed) (k : Nat) (hk : n.size < k) : Told k n :=
  told_of n (fun c _ hw k hk => told c hw k hk) hw k hk
termination_by n.size

end Ratel
