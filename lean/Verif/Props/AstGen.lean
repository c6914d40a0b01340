import Verif.Spec.Estree
import Mathlib.Tactic.Tauto
/-! C37: serialisation to ESTree. -/
namespace Ratel
open Spec

/-- The computation succeeds with a good value if `p` holds and panics otherwise. -/
def V (good : α → Prop) (x : Out α) (p : Prop) : Prop :=
  (p → ∃ a, x = .ok a ∧ good a) ∧ (¬p → x = .panic)

theorem V.congr {good : α → Prop} {x : Out α} {p q : Prop} (h : V good x p) (e : p ↔ q) :
    V good x q := ⟨fun hq => h.1 (e.2 hq), fun hq => h.2 fun hp => hq (e.1 hp)⟩

theorem V.ok {good : α → Prop} {a : α} (h : good a) : V good (.ok a) True :=
  ⟨fun _ => ⟨a, rfl, h⟩, fun h => absurd trivial h⟩

theorem V.panic {good : α → Prop} : V good (.panic : Out α) False :=
  ⟨fun h => h.elim, fun _ => rfl⟩

theorem V.bind {good : α → Prop} {good' : β → Prop} {x : Out α} {f : α → Out β} {p q : Prop}
    (h : V good x p) (h' : ∀ a, good a → V good' (f a) q) : V good' (x >>= f) (p ∧ q) := by
  constructor
  · rintro ⟨hp, hq⟩
    obtain ⟨a, rfl, ha⟩ := h.1 hp
    exact (h' a ha).1 hq
  · intro hn
    by_cases hp : p
    · obtain ⟨a, rfl, ha⟩ := h.1 hp
      exact (h' a ha).2 fun hq => hn ⟨hp, hq⟩
    · rw [h.2 hp]; rfl

/-- All fields are well formed. -/
def GoodFields (fs : List (String × Json)) : Prop := ∀ f ∈ fs, Estree f.2

/-- All fields of an item are well formed. -/
def GoodItem (i : Item) : Prop := GoodFields i.2

theorem V.withLoc {x : Out Item} {p : Prop} {l : Loc} (h : V GoodItem x p) :
    V Estree (Ratel.withLoc l x) p := by
  refine (V.bind (q := True) h fun a ha => ?_).congr (by simp)
  exact V.ok (.node _ _ _ ha)

theorem V.fieldsNil : V GoodFields (fields []) True := V.ok (by simp [GoodFields])

theorem V.fieldsCons {k : String} {x : Out Json} {r : List (String × Out Json)} {p q : Prop}
    (h : V Estree x p) (h' : V GoodFields (fields r) q) : V GoodFields (fields ((k, x) :: r)) (p ∧ q) := by
  refine V.bind h fun a ha => ?_
  refine (V.bind (q := True) h' fun b hb => V.ok ?_).congr (by simp)
  intro f hf
  simp at hf
  rcases hf with rfl | hf
  · exact ha
  · exact hb f hf

theorem V.inLoc {ty : String} {fs : List (String × Out Json)} {p : Prop}
    (h : V GoodFields (fields fs) p) : V GoodItem (Ratel.inLoc ty fs) p := by
  refine (V.bind (q := True) h fun a ha => V.ok ?_).congr (by simp)
  exact ha

theorem V.sequence {xs : List α} {f : α → Out Json} {P : α → Prop}
    (h : ∀ x ∈ xs, V Estree (f x) (P x)) :
    V (fun js => ∀ j ∈ js, Estree j) (Ratel.sequence (xs.map f)) (∀ x ∈ xs, P x) := by
  induction xs with
  | nil => exact (V.ok (by simp)).congr (by simp)
  | cons x xs ih =>
    refine (V.bind (q := ∀ y ∈ xs, P y) (h x (by simp)) fun a ha => ?_).congr (by simp)
    refine (V.bind (q := True) (ih fun y hy => h y (by simp [hy])) fun b hb => V.ok ?_).congr (by simp)
    intro j hj
    simp at hj
    rcases hj with rfl | hj
    · exact ha
    · exact hb j hj

theorem V.array {xs : List α} {f : α → Out Json} {P : α → Prop}
    (h : ∀ x ∈ xs, V Estree (f x) (P x)) : V Estree (Ratel.array (xs.map f)) (∀ x ∈ xs, P x) := by
  refine (V.bind (q := True) (V.sequence h) fun a ha => V.ok ?_).congr (by simp)
  exact .arr ha

theorem V.ident (i : Ident) : V Estree (genIdent i) True :=
  V.withLoc (V.ok (by simp [GoodItem, GoodFields, identItem]; exact .str _))

theorem V.identItem (l : Loc) (n : Bytes) : V Estree (Ratel.withLoc l (.ok (Ratel.identItem n))) True :=
  V.withLoc (V.ok (by simp [GoodItem, GoodFields, Ratel.identItem]; exact .str _))

theorem V.name (n : Name) : V Estree (genName n) True := by
  rcases n with _ | ⟨_ | n⟩ | n
  · exact V.ok .null
  · exact V.ok .null
  · exact V.ident n
  · exact V.ident n

theorem digitsValue_eq (radix : Nat) (s : Bytes) (acc : Nat) :
    (∃ v, digitsValue radix acc s = some v) ↔ ∀ b ∈ s, ∃ d, digitValue b = some d ∧ d < radix := by
  induction s generalizing acc with
  | nil => simp [digitsValue]
  | cons b s ih =>
    simp only [digitsValue, List.forall_mem_cons]
    cases h : digitValue b with
    | none => simp
    | some d =>
      by_cases hd : d < radix
      · simp [hd, ih]
      · simp [hd]

theorem digitsValue_val {radix : Nat} {s : Bytes} {acc v : Nat} (h : digitsValue radix acc s = some v) :
    v = s.foldl (fun acc b => acc * radix + (digitValue b).getD 0) acc := by
  induction s generalizing acc with
  | nil => simpa [digitsValue] using h.symm
  | cons b s ih =>
    simp only [digitsValue] at h
    cases hb : digitValue b with
    | none => simp [hb] at h
    | some d =>
      simp only [hb] at h
      split at h
      · simpa [hb] using ih h
      · simp at h

theorem parseInt_some (limit radix : Nat) (s : Bytes) :
    (∃ v, parseInt limit radix s = some v) ↔ fitsInt limit radix s := by
  unfold parseInt fitsInt
  cases s with
  | nil => simp
  | cons b s =>
    simp only [List.isEmpty_cons, Bool.false_eq_true, if_false, ne_eq, reduceCtorEq, not_false_eq_true,
      true_and]
    rw [← digitsValue_eq radix (b :: s) 0]
    cases h : digitsValue radix 0 (b :: s) with
    | none => simp
    | some v =>
      have := digitsValue_val h
      simp only [Option.some.injEq, exists_eq', true_and, valueOf, ← this]
      split <;> simp_all

theorem V.expectNumber (raw : Bytes) (limit radix : Nat) (s : Bytes) :
    V GoodFields (Ratel.expectNumber raw (parseInt limit radix s)) (fitsInt limit radix s) := by
  rw [← parseInt_some]
  cases parseInt limit radix s with
  | none => exact V.panic.congr (by simp)
  | some v =>
    refine (V.ok ?_).congr (by simp)
    simp only [GoodFields, List.forall_mem_cons]
    exact ⟨.int _, .str _, by simp⟩

theorem lastSlash_spec (s : Bytes) :
    (lastSlash s = none ↔ #b'/' ∉ s) ∧ ∀ x y, lastSlash s = some (x, y) → s = x ++ #b'/' :: y ∧ #b'/' ∉ x := by
  induction s with
  | nil => simp [lastSlash]
  | cons b s ih =>
    simp only [lastSlash]
    by_cases hb : b = #b'/'
    · simp [hb]
    · simp only [hb, if_false]
      cases h : lastSlash s with
      | none =>
        simp only [h, true_iff] at ih
        simp [ih.1, Ne.symm hb]
      | some xy =>
        obtain ⟨x, y⟩ := xy
        have := ih.2 x y h
        simp only [reduceCtorEq, false_iff, Option.some.injEq, Prod.mk.injEq, and_imp]
        constructor
        · simp [this.1]
        · rintro x' y' rfl rfl
          simp [this.1, this.2, Ne.symm hb]

theorem V.regex (v : Bytes) : V (fun _ => True) (parseRegex v) (literalFits (.RegEx v)) := by
  unfold parseRegex literalFits
  cases v with
  | nil => exact V.panic.congr (by simp)
  | cons b t =>
    simp only
    have hs := lastSlash_spec (b :: t).reverse
    cases h : lastSlash (b :: t).reverse with
    | none =>
      have hn : #b'/' ∉ b :: t := by
        have := hs.1.1 h
        rw [List.mem_reverse] at this
        exact this
      simp only
      have hn' : #b'/' ∉ t := fun h => hn (by simp [h])
      split
      · rename_i hl
        have ht : t = [] := by
          cases t with
          | nil => rfl
          | cons => simp at hl; omega
        exact V.panic.congr (by simp [ht])
      · rename_i hl
        refine (V.ok trivial).congr ?_
        simp only [true_iff]
        exact Or.inr ⟨hn, by omega⟩
    | some xy =>
      obtain ⟨x, y⟩ := xy
      obtain ⟨he, hx⟩ := hs.2 x y h
      have he' : b :: t = y.reverse ++ #b'/' :: x.reverse := by
        have := congrArg List.reverse he
        simpa using this
      simp only
      split
      · rename_i hl
        have hy : y = [] := by cases y <;> simp_all
        subst hy
        simp at he'
        refine V.panic.congr ?_
        simp [he'.1, he'.2, hx]
      · rename_i hl
        refine (V.ok trivial).congr ?_
        simp only [true_iff]
        left
        have : (b :: t).drop 1 = t := rfl
        rw [this]
        cases hy : y.reverse with
        | nil => simp at hy; simp [hy] at hl
        | cons c y' =>
          rw [hy] at he'
          simp at he'
          simp [he'.2]

theorem V.literal {v : Literal} (h : literalDelimited v) : V GoodItem (genLiteral v) (literalFits v) := by
  cases v
  case Number v =>
    simp only [genLiteral]
    refine (V.bind (good := GoodFields) (p := literalFits (.Number v)) (q := True) ?_ fun a ha => V.ok (good := GoodItem) (a := ("Literal", a)) ha).congr (by simp)
    unfold genNumber literalFits
    simp only [gt_iff_lt]
    split
    · exact V.expectNumber ..
    · split
      · exact V.expectNumber ..
      · have : (v.any fun b => b == #b'.') = true ↔ #b'.' ∈ v := by simp [List.any_eq_true]
        simp only [this]
        split
        · split
          · refine (V.ok ?_).congr (by simp [*])
            simp only [GoodFields, List.forall_mem_cons]
            exact ⟨.float _, .str _, by simp⟩
          · exact V.panic.congr (by simp [*])
        · exact V.expectNumber ..
  case Binary v =>
    simp only [genLiteral, if_neg (Nat.not_lt.2 h)]
    exact (V.bind (q := True) (V.expectNumber v maxI32 2 (v.drop 2)) fun a ha =>
      V.ok (good := GoodItem) (a := ("Literal", a)) ha).congr (by simp [literalFits])
  case String v =>
    simp only [genLiteral, if_neg (Nat.not_lt.2 h)]
    refine (V.ok ?_).congr (by simpa [literalFits, literalDelimited] using h)
    simp only [GoodItem, GoodFields, List.forall_mem_cons]
    exact ⟨.str _, .str _, by simp⟩
  case RegEx v =>
    refine (V.bind (q := True) (V.regex v) fun a _ => V.ok ?_).congr (by simp)
    simp only [GoodItem, GoodFields, List.forall_mem_cons]
    exact ⟨.regex _ _, .str _, by simp⟩
  all_goals
    refine V.ok ?_
    simp only [GoodItem, GoodFields, List.forall_mem_cons]
    refine ⟨?_, ?_⟩
    all_goals first | constructor | simp
  all_goals first | constructor | simp

theorem V.quasis (qs : List Ident) : V Estree (Ratel.array (genQuasis qs)) (∀ q ∈ qs, q.loc.stop ≠ 0) := by
  have : V (fun js => ∀ j ∈ js, Estree j) (Ratel.sequence (genQuasis qs)) (∀ q ∈ qs, q.loc.stop ≠ 0) := by
    induction qs with
    | nil => exact (V.ok (by simp)).congr (by simp)
    | cons q qs ih =>
      simp only [genQuasis, Ratel.sequence]
      refine (V.bind (good := Estree) (p := q.loc.stop ≠ 0) (q := ∀ q ∈ qs, q.loc.stop ≠ 0) ?_
        fun a ha => ?_).congr (by simp)
      · split
        · exact V.panic.congr (by simp [*])
        · refine (V.withLoc (V.ok ?_)).congr (by simp [*])
          simp only [GoodItem, GoodFields, List.forall_mem_cons]
          exact ⟨.bool _, .text _ _, by simp⟩
      · refine (V.bind (q := True) ih fun b hb => V.ok ?_).congr (by simp)
        intro j hj
        simp at hj
        rcases hj with rfl | hj
        · exact ha
        · exact hb j hj
  refine (V.bind (q := True) this fun a ha => V.ok ?_).congr (by simp)
  exact .arr ha

theorem genExprs_eq (l : List Expr) : genExprs l = l.map fun e => withLoc e.loc (genExpr e) := by
  induction l <;> simp [genExprs, *]
theorem genProperties_eq (l : List Property) : genProperties l = l.map genProperty := by
  induction l <;> simp [genProperties, *]
theorem genPatterns_eq (l : List Pattern) : genPatterns l = l.map genPattern := by
  induction l <;> simp [genPatterns, *]
theorem genMembers_eq (l : List ClassMember) : genMembers l = l.map genMember := by
  induction l <;> simp [genMembers, *]
theorem genStmts_eq (l : List Stmt) : genStmts l = l.map genStmt := by
  induction l <;> simp [genStmts, *]
theorem genDeclarators_eq (l : List Declarator) : genDeclarators l = l.map genDeclarator := by
  induction l <;> simp [genDeclarators, *]
theorem genCases_eq (l : List SwitchCase) : genCases l = l.map genCase := by
  induction l <;> simp [genCases, *]

/-- Serialisation of a node of any kind. -/
def genNode : Node → Out Json
  | .expr e => withLoc e.loc (genExpr e)
  | .key k => genKey k
  | .prop p => genProperty p
  | .pat p => genPattern p
  | .func f => withLoc ⟨0, 0⟩ (genFunc f)
  | .cls c => withLoc ⟨0, 0⟩ (genClass c)
  | .member m => genMember m
  | .block b => genBlock b
  | .stmt s => genStmt s
  | .declarator d => genDeclarator d
  | .forInit i => genForInit i
  | .case c => genCase c
  | .catch c => genCatch c
  | .switchBody cs => array (genCases cs)

theorem V.ofWithLoc {x : Out Item} {p : Prop} {l : Loc} (h : V Estree (Ratel.withLoc l x) p) :
    V GoodItem x p := by
  constructor
  · intro hp
    obtain ⟨j, hj, hg⟩ := h.1 hp
    simp only [Ratel.withLoc, Out.bind_eq_ok] at hj
    obtain ⟨⟨ty, fs⟩, rfl, hj⟩ := hj
    refine ⟨_, rfl, ?_⟩
    simp only [Out.ok.injEq] at hj
    subst hj
    generalize hx : Json.obj _ = y at hg
    cases hg
    case node ty' fs' s e hg =>
      simp only [Json.obj.injEq, List.cons_append, List.nil_append, List.cons.injEq,
        Prod.mk.injEq, true_and] at hx
      have := List.append_inj' hx.2 (by simp)
      simp only [GoodItem, GoodFields]
      rw [this.1]; exact hg
    all_goals simp at hx
  · intro hp
    have := h.2 hp
    simp only [Ratel.withLoc] at this
    cases x <;> simp_all

theorem V.elements {l : List (Option (Out Json))} {P : Option (Out Json) → Prop}
    (h : ∀ o ∈ l, V Estree (optional o) (P o)) :
    V (fun js => ∀ j ∈ js, Estree j) (Ratel.sequence ((dropTrailing l).map optional)) (∀ o ∈ l, P o) := by
  induction l with
  | nil => exact (V.ok (by simp)).congr (by simp)
  | cons o l ih =>
    have ih := ih fun o ho => h o (by simp [ho])
    have ho := h o (by simp)
    have step : V (fun js => ∀ j ∈ js, Estree j)
        (Ratel.sequence ((o :: dropTrailing l).map optional)) (∀ o' ∈ o :: l, P o') := by
      refine (V.bind (q := ∀ y ∈ l, P y) ho fun a ha => ?_).congr (by simp)
      refine (V.bind (q := True) ih fun b hb => V.ok ?_).congr (by simp)
      intro j hj
      simp at hj
      rcases hj with rfl | hj
      · exact ha
      · exact hb j hj
    unfold dropTrailing
    split
    · rename_i hd
      rw [hd] at ih
      have h1 : ∀ o ∈ l, P o := Classical.byContradiction fun hn => by
        have := ih.2 hn
        simp [Ratel.sequence] at this
      have h2 : P none := Classical.byContradiction fun hn => by
        have := ho.2 hn
        simp [optional] at this
      refine (V.ok (by simp)).congr ?_
      simp only [true_iff, List.forall_mem_cons]
      exact ⟨h2, h1⟩
    · exact step

theorem genElements_eq (l : List Expr) : genElements l =
    l.map fun e => if (Node.expr e).isJsonHole then none else some (withLoc e.loc (genExpr e)) := by
  induction l with
  | nil => rfl
  | cons e l ih =>
    cases e <;> simp only [genElements, ih, List.map_cons] <;> simp [Node.isJsonHole]

/-- The node is no hole and all nodes in it are serialisable. -/
def Fine (n : Node) : Prop := n.isJsonHole = false ∧ n.Forall Node.serialisable

theorem fine_iff {n : Node} (h : n.isJsonHole = false) (h' : n.isJsonArray = false) :
    Fine n ↔ n.supported ∧ ∀ c ∈ n.children, Fine c := by
  unfold Fine
  rw [Node.forall_iff, Node.serialisable]
  simp only [h, h', true_and, Bool.false_eq_true, false_or]
  constructor
  · rintro ⟨⟨a, b⟩, c⟩
    exact ⟨a, fun k hk => ⟨b k hk, c k hk⟩⟩
  · rintro ⟨a, b⟩
    exact ⟨⟨a, fun k hk => (b k hk).1⟩, fun k hk => (b k hk).2⟩

theorem V.array' {xs : List α} {f : α → Out Json} {P : α → Prop}
    (h : ∀ x ∈ xs, V Estree (f x) (P x)) : V Estree (Ratel.array (xs.map f)) (∀ x ∈ xs, P x) := V.array h

theorem V.retype {ty : String} (ty' : String) {fs : List (String × Out Json)} {p : Prop}
    (h : V GoodItem (Ratel.inLoc ty fs) p) : V GoodItem (Ratel.inLoc ty' fs) p := by
  unfold Ratel.inLoc at *
  cases hf : fields fs with
  | ok js =>
    rw [hf] at h
    constructor
    · intro hp
      obtain ⟨a, ha, hg⟩ := h.1 hp
      simp at ha
      subst ha
      exact ⟨_, rfl, hg⟩
    · intro hp
      have := h.2 hp
      simp at this
  | oob => rw [hf] at h; exact ⟨fun hp => by obtain ⟨a, ha, -⟩ := h.1 hp; simp at ha, h.2⟩
  | panic => exact ⟨fun hp => by rw [hf] at h; obtain ⟨a, ha, -⟩ := h.1 hp; simp at ha, fun _ => rfl⟩
  | timeout => rw [hf] at h; exact ⟨fun hp => by obtain ⟨a, ha, -⟩ := h.1 hp; simp at ha, h.2⟩

theorem V.methodKind (k : MethodKind) : V Estree (.ok (genMethodKind k)) True :=
  V.ok (by cases k <;> exact .sym _)

theorem V.declKind (k : DeclKind) : V Estree (.ok (genDeclKind k)) True :=
  V.ok (by cases k <;> exact .sym _)

theorem V.label (n : Option Ident) : V Estree (optional (n.map genIdent)) True := by
  cases n
  · exact V.ok .null
  · exact V.ident _

theorem V.importSpec (s : ImportSpec) : V Estree (genImportSpec s) True := by
  cases s <;> apply V.withLoc
  · refine (V.bind (q := True) (V.ident _) fun a ha => (V.bind (q := True) (V.ident _) fun b hb =>
      V.ok ?_).congr (by simp)).congr (by simp)
    simp only [GoodItem, GoodFields, List.forall_mem_cons]
    exact ⟨ha, hb, by simp⟩
  all_goals
    refine (V.bind (q := True) (V.ident _) fun a ha => V.ok ?_).congr (by simp)
    simp only [GoodItem, GoodFields, List.forall_mem_cons]
    exact ⟨ha, by simp⟩

set_option maxHeartbeats 4000000 in
theorem V.node (n : Node) : n.Forall Node.delimited → V Estree (genNode n) (Fine n) := by
  induction n using Node.ind with
  | h n hk =>
    intro hd0
    have hd : n.delimited := (Node.forall_iff.1 hd0).1
    replace hk : ∀ c ∈ n.children, V Estree (genNode c) (Fine c) := fun c hc => hk c hc ((Node.forall_iff.1 hd0).2 c hc)
    clear hd0
    by_cases hh : n.isJsonHole = true
    · rcases n with e | _ | _ | _ | _ | _ | _ | _ | _ | _ | _ | _ | _ | _
      case expr =>
        cases e
        case void => exact V.panic.congr (by simp [Fine, Node.isJsonHole])
        all_goals simp [Node.isJsonHole] at hh
      all_goals simp [Node.isJsonHole] at hh
    by_cases ha : n.isJsonArray = true
    · rcases n with e | _ | _ | _ | _ | _ | _ | _ | _ | _ | _ | _ | _ | _
      case expr =>
        cases e
        case array l body =>
          have hk : ∀ e ∈ body, V Estree (genNode (.expr e)) (Fine (.expr e)) :=
            fun e he => hk (.expr e) (by simp [Node.children, he])
          have key : V (fun js => ∀ j ∈ js, Estree j)
              (Ratel.sequence ((dropTrailing (genElements body)).map optional))
              (∀ o ∈ genElements body, ∃ j, optional o = .ok j) := by
            apply V.elements
            intro o ho
            rw [genElements_eq, List.mem_map] at ho
            obtain ⟨e, he, rfl⟩ := ho
            by_cases hv : (Node.expr e).isJsonHole = true
            · simp only [hv, if_true, optional]
              exact (V.ok .null).congr (by simp)
            · simp only [hv, optional]
              have := hk e he
              by_cases hf : Fine (.expr e)
              · obtain ⟨j, hj, hg⟩ := this.1 hf
                rw [genNode] at hj
                simp only [hj]
                exact (V.ok hg).congr (by simp)
              · have := this.2 hf
                rw [genNode] at this
                simp only [this]
                exact V.panic.congr (by simp)
          have e2 : (∀ o ∈ genElements body, ∃ j, optional o = .ok j) ↔ Fine (.expr (.array l body)) := by
            rw [Fine, Node.forall_iff, Node.serialisable]
            have e0 : (Node.expr (.array l body)).isJsonHole = false := rfl
            simp only [e0, Node.supported, Node.isJsonArray, Node.children, true_and, true_or,
              List.forall_mem_map, genElements_eq]
            constructor
            · intro h e he
              have h1 := h e he
              by_cases hv : (Node.expr e).isJsonHole = true
              · cases e <;> simp [Node.isJsonHole] at hv
                rw [Node.forall_iff]; simp [Node.serialisable, Node.supported, Node.children]
              · simp only [hv, optional] at h1
                obtain ⟨j, hj⟩ := h1
                exact (Classical.byContradiction fun hn => by
                  have := (hk e he).2 hn
                  rw [genNode] at this
                  rw [this] at hj
                  simp at hj : Fine (.expr e)).2
            · intro h e he
              by_cases hv : (Node.expr e).isJsonHole = true
              · exact ⟨.null, by simp [hv, optional]⟩
              · obtain ⟨j, hj, -⟩ := (hk e he).1 ⟨by simpa using hv, h e he⟩
                exact ⟨j, by simpa [hv, optional, genNode] using hj⟩
          simp only [genNode, genExpr]
          refine V.withLoc (V.inLoc ((V.fieldsCons (V.bind (q := True) key fun a ha => V.ok (.arr ha)) V.fieldsNil).congr ?_))
          simpa using e2
        all_goals simp [Node.isJsonArray] at ha
      all_goals simp [Node.isJsonArray] at ha
    simp only [Bool.not_eq_true] at hh ha
    refine V.congr ?_ (fine_iff hh ha).symm
    rcases n with e | k | p | p | f | c' | m | b | s | d | i | c' | c' | cs
    all_goals first | cases e | cases k | cases p | cases f | cases c' | cases m | cases b | cases s | cases d | cases i | skip
    all_goals try (rename_i b; have hb : Block := b; clear hb; cases b)

    case member.error => exact V.panic.congr (by simp [Node.supported])
    case member.literal => exact V.panic.congr (by simp [Node.supported])
    case pat.void => exact V.panic.congr (by simp [Node.supported])
    case expr.array => simp [Node.isJsonArray] at ha
    case expr.lit l v => exact (V.withLoc (V.literal hd)).congr (by simp [Node.supported, Node.children])
    case expr.void => simp [Node.isJsonHole] at hh
    case expr.prefix l op a =>
      have hv := hk (.expr a) (by simp [Node.children])
      by_cases ho : op = .New
      · subst ho
        cases a
        case call lc c args =>
          refine V.congr ?_ (by simp [Node.supported, Node.children] : Fine (.expr (.call lc c args)) ↔ _)
          have := V.ofWithLoc hv
          simp only [genExpr] at this
          exact V.withLoc (V.retype _ this)
        case lit ll v =>
          refine V.congr ?_ (by simp [Node.supported, Node.children] : Fine (.expr (.lit ll v)) ↔ _)
          refine V.withLoc (V.inLoc ((V.fieldsCons hv (V.fieldsCons (V.ok (.arr (by simp))) V.fieldsNil)).congr (by simp)))
        all_goals exact V.panic.congr (by simp [Node.supported])
      · have hs : Node.supported (.expr (.prefix l op a)) := by cases op <;> first | contradiction | trivial
        rw [genNode, genExpr.eq_def]
        simp only [if_neg ho]
        refine V.withLoc (V.inLoc ((V.fieldsCons (V.ok (.str _)) (V.fieldsCons hv
          (V.fieldsCons (V.ok (.bool _)) V.fieldsNil))).congr ?_))
        simp [hs, Node.children]
    case stmt.import l specs source =>
      simp only [genNode, genStmt]
      refine V.withLoc (V.inLoc ((V.fieldsCons (V.array (P := fun _ => True) fun s _ => V.importSpec s)
        (V.fieldsCons (V.ok (.str _)) V.fieldsNil)).congr ?_))
      simp [Node.supported, Node.children]
    all_goals clear hh ha
    case' cls.mk nm ex _ _ => cases ex
    case' stmt.ret e => cases e
    case' stmt.ifS e => cases e
    case' stmt.brk e => cases e
    case' stmt.cont e => cases e
    case' stmt.forS a b c _ => cases a <;> cases b <;> cases c
    case' stmt.tryS a b => cases a <;> cases b
    case' declarator.mk e => cases e
    case' case.mk e _ => cases e
    all_goals
      revert hk
      simp only [Node.children, List.forall_mem_cons, List.forall_mem_append, List.forall_mem_map,
        List.not_mem_nil, false_implies, implies_true, Option.toList_some, Option.toList_none, List.map_nil,
        List.map_cons, and_imp, true_implies, and_true, true_and, Node.supported,
        genNode, genExpr, genKey, genProperty, genPattern, genFunc, genClass, genMember,
        genStmt, genDeclarator, genForInit, genCase, genCatch, genExprs_eq, genProperties_eq,
        genPatterns_eq, genMembers_eq, genStmts_eq, genDeclarators_eq, genCases_eq, genBlock]
      intros
      apply V.congr
      · repeat' (first
          | with_reducible assumption
          | with_reducible exact V.fieldsNil
          | with_reducible exact V.ident _
          | with_reducible exact V.name _
          | with_reducible exact V.identItem _ _
          | with_reducible exact V.quasis _
          | with_reducible exact V.methodKind _
          | with_reducible exact V.declKind _
          | with_reducible exact V.label _
          | with_reducible exact V.ok (.bool _)
          | with_reducible exact V.ok (.str _)
          | with_reducible exact V.ok (.sym _)
          | with_reducible exact V.ok (.null)
          | with_reducible apply V.withLoc
          | with_reducible apply V.inLoc
          | with_reducible apply V.fieldsCons
          | with_reducible apply V.array
          | (with_reducible apply V.ofWithLoc; assumption))
      · first | (simp; done) | (simp; tauto)

/-! ### C37 -/

/-- A node that can be serialised has its delimiters. -/
theorem Spec.Node.serialisable.delimited {n : Node} (h : n.serialisable) : n.delimited := by
  obtain ⟨h, -⟩ := h
  unfold Node.delimited
  split
  · rename_i l v
    cases v <;> simp only [literalDelimited, Node.supported, literalFits] at h ⊢
    · obtain ⟨h, -⟩ := h
      apply Classical.byContradiction
      intro hn
      exact h (List.drop_eq_nil_of_le (by omega))
    · exact h
  · trivial

theorem genModule_verdict (m : List Stmt) (hd : ∀ n ∈ moduleNodes m, n.delimited) :
    V Estree (genModule m) (∀ n ∈ moduleNodes m, n.serialisable) := by
  unfold genModule
  rw [genStmts_eq]
  refine V.withLoc (V.inLoc ((V.fieldsCons (V.array fun s hs => V.node (.stmt s) fun n hn => hd n (List.mem_flatMap.2 ⟨s, hs, hn⟩)) V.fieldsNil).congr ?_))
  simp only [and_true, Fine, Node.isJsonHole, true_and, Node.Forall, moduleNodes, List.mem_flatMap]
  exact ⟨fun h n ⟨s, hs, hn⟩ => h s hs n hn, fun h s hs n hn => h n ⟨s, hs, hn⟩⟩

/-- C37: a module all of whose nodes can be serialised is serialised; the result is a `Program` node
in which every object carries `type`, `start` and `end`. -/
theorem C37_serialise (m : List Stmt) (h : ∀ n ∈ moduleNodes m, n.serialisable) :
    ∃ j, genModule m = .ok j ∧ Estree j := (genModule_verdict m fun n hn => (h n hn).delimited).1 h

/-- C37, converse: a single node that cannot be serialised makes the serialisation panic. -/
theorem C37_panic (m : List Stmt) (hd : ∀ n ∈ moduleNodes m, n.delimited) {n : Node} (hn : n ∈ moduleNodes m)
    (h : ¬n.serialisable) : genModule m = .panic := (genModule_verdict m hd).2 fun h' => h (h' n hn)

/-- C37: the top level object is a `Program` with the objects of the statements, from the start of the first to the end of
the last statement. -/
theorem C37_program (m : List Stmt) {j : Json} (h : genModule m = .ok j) :
    ∃ body, m.map genStmt = body.map .ok ∧ j = .obj [("type", .sym "Program"), ("body", .arr body),
      ("start", .int ((m.head?.map fun s => s.loc.start).getD 0)), ("end", .int ((m.getLast?.map fun s => s.loc.stop).getD 0))] := by
  have hseq : ∀ (xs : List (Out Json)) (js : List Json), sequence xs = .ok js → xs = js.map .ok := by
    intro xs
    induction xs with
    | nil => intro js h; simp [sequence] at h; simp [h]
    | cons x xs ih =>
      intro js h
      simp only [sequence, Out.bind_eq_ok] at h
      obtain ⟨a, ha, b, hb, h⟩ := h
      simp at h
      subst h
      simp [ih b hb, ha]
  simp only [genModule, withLoc, inLoc, fields, array, Out.bind_eq_ok] at h
  obtain ⟨⟨ty, fs⟩, ⟨a, ⟨b, ⟨c, hc, hb⟩, d, hd, ha⟩, h1⟩, h2⟩ := h
  simp only [Out.ok.injEq] at hb hd ha h1 h2
  subst hb hd ha h2
  simp only [Prod.mk.injEq] at h1
  obtain ⟨rfl, rfl⟩ := h1
  refine ⟨c, ?_, ?_⟩
  · rw [← hseq _ _ hc, genStmts_eq]
  · cases m with
    | nil => rfl
    | cons s ss => simp [moduleLoc, List.getLast?_eq_getLast]

/-- C37: the object of a statement is a node with the span of that statement. -/
theorem C37_statement_span (s : Stmt) {j : Json} (h : genStmt s = .ok j) :
    ∃ ty fs, j = .obj ([("type", .sym ty)] ++ fs ++
      [("start", .int s.loc.start), ("end", .int s.loc.stop)]) := by
  have key : ∀ (l : Loc) (x : Out Item), withLoc l x = .ok j →
      ∃ ty fs, j = .obj ([("type", .sym ty)] ++ fs ++ [("start", .int l.start), ("end", .int l.stop)]) := by
    intro l x h
    simp only [withLoc, Out.bind_eq_ok] at h
    obtain ⟨⟨ty, fs⟩, -, h⟩ := h
    exact ⟨ty, fs, (Out.ok.inj h).symm⟩
  rw [genStmt.eq_def] at h
  cases s <;> exact key _ _ h

/-- The forms that JavaScript allows, ratel parses and the serialiser rejects: `new X`, a class
property, a hole in an array pattern, `1e5`, and numbers beyond `i64`. -/
theorem C37_unsupported_forms :
    genModule [.expr ⟨0, 5⟩ (.prefix ⟨0, 5⟩ .New (.ident ⟨4, 5⟩ bs!"X"))] = .panic ∧
    genModule [.class ⟨0, 9⟩ (.mk (.mandatory ⟨⟨0, 0⟩, bs!"C"⟩) none ⟨0, 9⟩
      [.literal ⟨1, 2⟩ false (.literal ⟨1, 2⟩ bs!"p") (.this ⟨1, 2⟩)])] = .panic ∧
    genModule [.decl ⟨0, 9⟩ .Let [.mk ⟨0, 9⟩ (.array ⟨0, 9⟩ [.void ⟨1, 1⟩, .ident ⟨2, 3⟩ bs!"a"]) none]]
      = .panic ∧
    genModule [.expr ⟨0, 3⟩ (.lit ⟨0, 3⟩ (.Number bs!"1e5"))] = .panic ∧
    genModule [.expr ⟨0, 3⟩ (.lit ⟨0, 3⟩ (.Number bs!"9223372036854775808"))] = .panic := by
  refine ⟨?_, ?_, ?_, ?_, ?_⟩
  · exact C37_panic _ (by simp [moduleNodes, Node.all_eq, Node.children, Node.delimited]) (n := .expr (.prefix ⟨0, 5⟩ .New (.ident ⟨4, 5⟩ bs!"X")))
      (by simp [moduleNodes, Node.all_eq, Node.children]) (by simp [Node.serialisable, Node.supported])
  · exact C37_panic _ (by simp [moduleNodes, Node.all_eq, Node.children, Node.delimited]) (n := .member (.literal ⟨1, 2⟩ false (.literal ⟨1, 2⟩ bs!"p") (.this ⟨1, 2⟩)))
      (by simp [moduleNodes, Node.all_eq, Node.children]) (by simp [Node.serialisable, Node.supported])
  · exact C37_panic _ (by simp [moduleNodes, Node.all_eq, Node.children, Node.delimited]) (n := .pat (.void ⟨1, 1⟩))
      (by simp [moduleNodes, Node.all_eq, Node.children]) (by simp [Node.serialisable, Node.supported])
  · rfl
  · rfl

/-- The hypotheses of C37 are met: `[1, , "a"].b(...c, /x/g)` as a statement. -/
example : ∀ n ∈ moduleNodes [.expr ⟨0, 9⟩ (.call ⟨0, 9⟩ (.member ⟨0, 9⟩ (.array ⟨0, 9⟩
      [.lit ⟨1, 2⟩ (.Number bs!"1"), .void ⟨3, 3⟩, .lit ⟨4, 5⟩ (.String bs!"\"a\"")]) ⟨⟨6, 7⟩, bs!"b"⟩)
      [.spread ⟨8, 9⟩ (.ident ⟨8, 9⟩ bs!"c"), .lit ⟨8, 9⟩ (.RegEx bs!"/x/g")])],
    n.serialisable := by
  simp [moduleNodes, Node.all_eq, Node.children, Node.serialisable, Node.supported, Node.isJsonArray,
    Node.isJsonHole, literalFits, fitsInt, valueOf, digitValue, maxI64]

end Ratel
