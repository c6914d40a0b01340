import Verif.Lemmas.JsonText
import Verif.Props.AstGen
import Verif.Spec.Code
/-! The documents of ESTree are determined by the JSON value that is written for them. -/
namespace Ratel
open Spec Spec.Rfc8259

/-- Documents in which constants are the `type` and `kind` members, and numbers with a fraction are the `value` of their
`raw`. `S` holds for all texts. -/
inductive Plainly (S : Bytes → Prop) : Json → Prop where
  | null : Plainly S .null
  | bool (b) : Plainly S (.bool b)
  | int (i) : Plainly S (.int i)
  | str {s} (h : S s) : Plainly S (.str s)
  | arr {xs : List Json} (h : ∀ x ∈ xs, Plainly S x) : Plainly S (.arr xs)
  | obj {fs : List (String × Json)}
      (h1 : ∀ f ∈ fs, f.1 = "type" ∨ f.1 = "kind" → ∃ s, f.2 = .sym s)
      (h2 : ∀ f ∈ fs, ¬(f.1 = "type" ∨ f.1 = "kind") → (∀ v, f.2 ≠ .float v) → Plainly S f.2)
      (h3 : ∀ f ∈ fs, ∀ v, f.2 = .float v → f.1 = "value" ∧ rawOf fs = some v ∧ v ≠ bs!"null")
      (h4 : ∀ f ∈ fs, f.1 = "value" → f.2 = .null → rawOf fs = some bs!"null") : Plainly S (.obj fs)

section
variable [Floats]

set_option linter.unusedSectionVars false

theorem plainAll_eq (xs : List Json) : plainAll xs = xs.map plain := by
  induction xs <;> simp [plainAll, *]

theorem plainFields_eq (fs : List (String × Json)) : plainFields fs = fs.map fun f => (f.1, plain f.2) := by
  induction fs <;> simp [plainFields, *]

theorem typedAll_eq (xs : List Json) : typedAll xs = xs.map typed := by
  induction xs <;> simp [typedAll, *]

theorem lookup_plain (l : String) (fs : List (String × Json)) : (plainFields fs).lookup l = (fs.lookup l).map plain := by
  induction fs with
  | nil => rfl
  | cons f fs ih =>
    obtain ⟨k, x⟩ := f
    simp only [plainFields, List.lookup_cons]
    split <;> simp [ih]

theorem mem_of_lookup {l : String} {x : Json} : ∀ {fs : List (String × Json)}, fs.lookup l = some x → (l, x) ∈ fs
  | [], h => by simp at h
  | (k, y) :: fs, h => by
    rw [List.lookup_cons] at h
    split at h
    · rename_i hk
      simp only [beq_iff_eq] at hk
      simp only [Option.some.injEq] at h
      subst h hk
      simp
    · exact List.mem_cons_of_mem _ (mem_of_lookup h)

theorem typed_plain {S : Bytes → Prop} {j : Json} (h : Plainly S j) : typed (plain j) = j := by
  induction h with
  | null => rfl
  | bool => rfl
  | int => rfl
  | str => rfl
  | arr h ih =>
    rename_i xs
    simp only [plain, typed, plainAll_eq, typedAll_eq, List.map_map]
    congr 1
    have : ∀ x ∈ xs, (typed ∘ plain) x = x := ih
    rw [List.map_congr_left this, List.map_id']
  | obj h1 h2 h3 h4 ih =>
    rename_i fs
    have hr : rawOf (plainFields fs) = rawOf fs := by
      unfold rawOf
      rw [lookup_plain]
      cases hl : fs.lookup "raw" with
      | none => rfl
      | some x =>
        have hm := mem_of_lookup hl
        have hf : ∀ v, x ≠ .float v := fun v hv => by
          have := (h3 _ hm v hv).1
          simp at this
        have := h2 _ hm (by simp) hf
        cases this <;> rfl
    simp only [plain, typed, hr]
    congr 1
    generalize rawOf fs = raw at *
    clear hr
    induction fs with
    | nil => rfl
    | cons f fs ihf =>
      have ihf := ihf (fun f hf => h1 f (List.mem_cons_of_mem _ hf)) (fun f hf => h2 f (List.mem_cons_of_mem _ hf))
        (fun f hf => ih f (List.mem_cons_of_mem _ hf)) (fun f hf => h3 f (List.mem_cons_of_mem _ hf))
        (fun f hf => h4 f (List.mem_cons_of_mem _ hf))
      obtain ⟨l, x⟩ := f
      simp only [plainFields, typedFields, ihf, List.cons.injEq, Prod.mk.injEq, true_and, and_true]
      by_cases hk : l = "type" ∨ l = "kind"
      · obtain ⟨s, hs⟩ := h1 (l, x) (by simp) hk
        simp only at hs
        subst hs
        simp [hk, plain, constantOf, chars_utf8]
      · rw [if_neg hk]
        by_cases hf : ∃ v, x = .float v
        · obtain ⟨v, rfl⟩ := hf
          obtain ⟨e1, e2, e3⟩ := h3 (l, .float v) (by simp) v rfl
          simp only at e1
          subst e1 e2
          simp only [if_true, plain]
          by_cases hn : Floats.text v = bs!"null"
          · rw [if_pos hn]
            have : numeralOf (some v) .null = some v := if_neg fun h => e3 (Option.some.inj h)
            simp only [this]
          · rw [if_neg hn]
            rfl
        · have hx := ih (l, x) (by simp) hk (fun v hv => hf ⟨v, hv⟩)
          have hp := h2 (l, x) (by simp) hk (fun v hv => hf ⟨v, hv⟩)
          simp only at hx hp
          have : (if l = "value" then numeralOf raw (plain x) else none) = none := by
            split
            · rename_i hl
              cases hp
              case null =>
                have := h4 (l, .null) (by simp) hl rfl
                simp [plain, numeralOf, this]
              all_goals rfl
            · rfl
          rw [this]
          exact hx
end

/-! ### The documents of modules -/

/-- What is computed is good. -/
def Yields (good : α → Prop) (x : Out α) : Prop := ∀ a, x = .ok a → good a

theorem Yields.ok {good : α → Prop} {a : α} (h : good a) : Yields good (.ok a) := by
  intro b hb; simp at hb; exact hb ▸ h

theorem Yields.panic {good : α → Prop} : Yields good (.panic : Out α) := by
  intro b hb; simp at hb

theorem Yields.oob {good : α → Prop} : Yields good (.oob : Out α) := by
  intro b hb; simp at hb

theorem Yields.bind {good : α → Prop} {good' : β → Prop} {x : Out α} {f : α → Out β} (h : Yields good x)
    (h' : ∀ a, good a → Yields good' (f a)) : Yields good' (x >>= f) := by
  intro b hb
  rw [Out.bind_eq_ok] at hb
  obtain ⟨a, ha, hb⟩ := hb
  exact h' a (h a ha) b hb

/-- Members that are not in need of `raw`. -/
def PlainField (S : Bytes → Prop) (f : String × Json) : Prop :=
  (f.1 = "kind" ∧ ∃ s, f.2 = .sym s) ∨ (f.1 ≠ "type" ∧ f.1 ≠ "kind" ∧ Plainly S f.2 ∧ (f.1 = "value" → f.2 ≠ .null))

def PlainFields (S : Bytes → Prop) (fs : List (String × Json)) : Prop := ∀ f ∈ fs, PlainField S f

/-- The object of an item, wherever it is. -/
def PlainItem (S : Bytes → Prop) (i : Item) : Prop :=
  ∀ a b : Nat, Plainly S (.obj ([("type", .sym i.1)] ++ i.2 ++ [("start", .int a), ("end", .int b)]))

variable {S : Bytes → Prop}

theorem Plainly.not_float {j : Json} (h : Plainly S j) (v : Bytes) : j ≠ .float v := by
  rintro rfl; cases h

theorem plainly_fields {fs : List (String × Json)}
    (h : ∀ f ∈ fs, (f.1 = "type" ∧ ∃ s, f.2 = .sym s) ∨ PlainField S f) : Plainly S (.obj fs) := by
  refine .obj ?_ ?_ ?_ ?_
  · intro f hf hk
    rcases h f hf with h | h | h
    · exact h.2
    · exact h.2
    · exact absurd hk (by simp [h.1, h.2.1])
  · intro f hf hk _
    rcases h f hf with h | h | h
    · exact absurd (.inl h.1) hk
    · exact absurd (.inr h.1) hk
    · exact h.2.2.1
  · intro f hf v hv
    rcases h f hf with h | h | h
    · obtain ⟨s, hs⟩ := h.2; rw [hs] at hv; simp at hv
    · obtain ⟨s, hs⟩ := h.2; rw [hs] at hv; simp at hv
    · exact absurd hv (h.2.2.1.not_float v)
  · intro f hf hv hn
    rcases h f hf with h | h | h
    · simp [h.1] at hv
    · simp [h.1] at hv
    · exact absurd hn (h.2.2.2 hv)

theorem plain_item {ty : String} {fs : List (String × Json)} (h : PlainFields S fs) : PlainItem S (ty, fs) := by
  intro a b
  apply plainly_fields
  intro f hf
  simp only [List.cons_append, List.nil_append, List.mem_cons, List.mem_append, List.not_mem_nil, or_false] at hf
  rcases hf with rfl | hf | rfl | rfl
  · exact .inl ⟨rfl, _, rfl⟩
  · exact .inr (h f hf)
  · exact .inr (.inr ⟨by simp, by simp, .int _, by simp⟩)
  · exact .inr (.inr ⟨by simp, by simp, .int _, by simp⟩)

theorem Yields.withLoc {x : Out Item} {l : Loc} (h : Yields (PlainItem S) x) : Yields (Plainly S) (Ratel.withLoc l x) := by
  refine Yields.bind h fun a ha => ?_
  exact Yields.ok (ha _ _)

theorem Yields.fieldsNil : Yields (PlainFields S) (fields []) := Yields.ok (by simp [PlainFields])

theorem Yields.fieldsCons {k : String} {x : Out Json} {r : List (String × Out Json)} (hk : k ≠ "type" ∧ k ≠ "kind" ∧ k ≠ "value")
    (h : Yields (Plainly S) x) (h' : Yields (PlainFields S) (fields r)) : Yields (PlainFields S) (fields ((k, x) :: r)) := by
  refine Yields.bind h fun a ha => Yields.bind h' fun b hb => Yields.ok ?_
  intro f hf
  simp only [List.mem_cons] at hf
  rcases hf with rfl | hf
  · exact .inr ⟨hk.1, hk.2.1, ha, fun h => absurd h hk.2.2⟩
  · exact hb f hf

theorem Yields.fieldsKind {s : String} {r : List (String × Out Json)} (h' : Yields (PlainFields S) (fields r)) :
    Yields (PlainFields S) (fields (("kind", .ok (.sym s)) :: r)) := by
  refine Yields.bind (Yields.ok (good := fun x => x = .sym s) rfl) fun a ha => Yields.bind h' fun b hb => Yields.ok ?_
  subst ha
  intro f hf
  simp only [List.mem_cons] at hf
  rcases hf with rfl | hf
  · exact .inl ⟨rfl, _, rfl⟩
  · exact hb f hf

theorem Yields.fieldsValue {x : Out Item} {l : Loc} {r : List (String × Out Json)} (h : Yields (PlainItem S) x)
    (h' : Yields (PlainFields S) (fields r)) : Yields (PlainFields S) (fields (("value", Ratel.withLoc l x) :: r)) := by
  refine Yields.bind (good := fun j => Plainly S j ∧ j ≠ .null) ?_ fun a ha => Yields.bind h' fun b hb => Yields.ok ?_
  · exact Yields.bind h fun a ha => Yields.ok ⟨ha _ _, by simp⟩
  · intro f hf
    simp only [List.mem_cons] at hf
    rcases hf with rfl | hf
    · exact .inr ⟨by simp, by simp, ha.1, fun _ => ha.2⟩
    · exact hb f hf

theorem Yields.inLoc {ty : String} {fs : List (String × Out Json)} (h : Yields (PlainFields S) (fields fs)) :
    Yields (PlainItem S) (Ratel.inLoc ty fs) :=
  Yields.bind h fun _ ha => Yields.ok (plain_item ha)

theorem Yields.sequence {xs : List (Out Json)} (h : ∀ x ∈ xs, Yields (Plainly S) x) :
    Yields (fun js => ∀ j ∈ js, Plainly S j) (Ratel.sequence xs) := by
  induction xs with
  | nil => exact Yields.ok (by simp)
  | cons x xs ih =>
    refine Yields.bind (h x (by simp)) fun a ha => Yields.bind (ih fun y hy => h y (by simp [hy])) fun b hb => Yields.ok ?_
    intro j hj
    simp only [List.mem_cons] at hj
    rcases hj with rfl | hj
    · exact ha
    · exact hb j hj

theorem Yields.arrayOf {xs : List (Out Json)} (h : ∀ x ∈ xs, Yields (Plainly S) x) : Yields (Plainly S) (Ratel.array xs) :=
  Yields.bind (Yields.sequence h) fun _ ha => Yields.ok (.arr ha)

theorem Yields.array {xs : List α} {f : α → Out Json} (h : ∀ x ∈ xs, Yields (Plainly S) (f x)) :
    Yields (Plainly S) (Ratel.array (xs.map f)) := Yields.arrayOf (List.forall_mem_map.2 h)

theorem Yields.identItem (l : Loc) {n : Bytes} (h : S n) : Yields (Plainly S) (Ratel.withLoc l (.ok (Ratel.identItem n))) := by
  refine Yields.withLoc (Yields.ok (plain_item ?_))
  intro f hf
  simp only [List.mem_cons, List.not_mem_nil, or_false] at hf
  subst hf
  exact .inr ⟨by simp, by simp, .str h, by simp⟩

theorem Yields.ident {i : Ident} (h : S i.name) : Yields (Plainly S) (genIdent i) := Yields.identItem i.loc h

/-- The texts of a literal are good, with and without delimiters. -/
def litSafe (S : Bytes → Prop) : Literal → Prop
  | .Number v => S v
  | .Binary v => S v
  | .String v => S v ∧ S ((v.drop 1).dropLast)
  | .RegEx v => S v ∧ ∀ p f, parseRegex v = .ok (p, f) → S p ∧ S f
  | _ => True

theorem Yields.expectNumber {v : Bytes} (h : S v) (o : Option Nat) : Yields (PlainFields S) (Ratel.expectNumber v o) := by
  cases o with
  | none => exact Yields.panic
  | some n =>
    refine Yields.ok ?_
    intro f hf
    simp only [List.mem_cons, List.not_mem_nil, or_false] at hf
    rcases hf with rfl | rfl
    · exact .inr ⟨by simp, by simp, .int _, by simp⟩
    · exact .inr ⟨by simp, by simp, .str h, by simp⟩

theorem Yields.literal (hS : ∀ s : Bytes, (∀ b ∈ s, b < 128) → S s) {v : Literal} (h : litSafe S v) :
    Yields (PlainItem S) (genLiteral v) := by
  cases v
  case Undefined =>
    refine Yields.ok (plain_item ?_)
    intro f hf
    simp only [List.mem_cons, List.not_mem_nil, or_false] at hf
    subst hf
    exact .inr ⟨by simp, by simp, .str (hS _ (by decide)), by simp⟩
  case Null =>
    refine Yields.ok fun a b => ?_
    refine .obj ?_ ?_ ?_ ?_
    all_goals simp only [List.cons_append, List.nil_append, List.forall_mem_cons, List.not_mem_nil, false_implies, implies_true, and_true]
    · simp
    · simp
      exact ⟨.null, .str (hS _ (by decide)), .int _, .int _⟩
    · simp
    · simp; rfl
  case True =>
    refine Yields.ok (plain_item ?_)
    intro f hf
    simp only [List.mem_cons, List.not_mem_nil, or_false] at hf
    rcases hf with rfl | rfl
    · exact .inr ⟨by simp, by simp, .bool _, by simp⟩
    · exact .inr ⟨by simp, by simp, .str (hS _ (by decide)), by simp⟩
  case False =>
    refine Yields.ok (plain_item ?_)
    intro f hf
    simp only [List.mem_cons, List.not_mem_nil, or_false] at hf
    rcases hf with rfl | rfl
    · exact .inr ⟨by simp, by simp, .bool _, by simp⟩
    · exact .inr ⟨by simp, by simp, .str (hS _ (by decide)), by simp⟩
  case Number v =>
    have h : S v := h
    refine Yields.bind (good := fun fs => PlainItem S ("Literal", fs)) ?_ fun a ha => Yields.ok ha
    have hw : ∀ o, Yields (fun fs => PlainItem S ("Literal", fs)) (Ratel.expectNumber v o) :=
      fun o a ha => plain_item (Yields.expectNumber h o a ha)
    unfold genNumber
    simp only
    split
    · exact hw _
    · split
      · exact hw _
      · split
        · rename_i hd
          split
          · refine Yields.ok fun a b => ?_
            have hv : v ≠ bs!"null" := by
              rintro rfl
              exact absurd hd (by decide)
            refine .obj ?_ ?_ ?_ ?_
            all_goals simp only [List.cons_append, List.nil_append, List.forall_mem_cons, List.not_mem_nil, false_implies, implies_true, and_true]
            · simp
            · simp
              exact ⟨.str h, .int _, .int _⟩
            · simp
              exact ⟨rfl, hv⟩
            · simp
          · exact Yields.panic
        · exact hw _
  case Binary v =>
    have h : S v := h
    simp only [genLiteral]
    split
    · exact Yields.oob
    · exact Yields.bind (Yields.expectNumber h _) fun a ha => Yields.ok (plain_item ha)
  case String v =>
    have h : S v ∧ _ := h
    simp only [genLiteral]
    split
    · exact Yields.oob
    · refine Yields.ok (plain_item ?_)
      intro f hf
      simp only [List.mem_cons, List.not_mem_nil, or_false] at hf
      rcases hf with rfl | rfl
      · exact .inr ⟨by simp, by simp, .str h.2, by simp⟩
      · exact .inr ⟨by simp, by simp, .str h.1, by simp⟩
  case RegEx v =>
    have h : S v ∧ _ := h
    refine Yields.bind (good := fun x => S x.1 ∧ S x.2) (fun a ha => h.2 a.1 a.2 ha) fun a ha => Yields.ok (plain_item ?_)
    intro f hf
    simp only [List.mem_cons, List.not_mem_nil, or_false] at hf
    rcases hf with rfl | rfl
    · refine .inr ⟨by simp, by simp, plainly_fields ?_, by simp⟩
      intro f hf
      simp only [List.mem_cons, List.not_mem_nil, or_false] at hf
      rcases hf with rfl | rfl
      · exact .inr (.inr ⟨by simp, by simp, .str ha.1, by simp⟩)
      · exact .inr (.inr ⟨by simp, by simp, .str ha.2, by simp⟩)
    · exact .inr ⟨by simp, by simp, .str h.1, by simp⟩

theorem Yields.quasis {qs : List Ident} (h : ∀ q ∈ qs, S q.name) : Yields (Plainly S) (Ratel.array (genQuasis qs)) := by
  apply Yields.arrayOf
  induction qs with
  | nil => simp [genQuasis]
  | cons q qs ih =>
    simp only [genQuasis, List.forall_mem_cons]
    refine ⟨?_, ih fun q hq => h q (by simp [hq])⟩
    have hq := h q (by simp)
    split
    · exact Yields.panic
    · refine Yields.withLoc (Yields.ok (plain_item ?_))
      intro f hf
      simp only [List.mem_cons, List.not_mem_nil, or_false] at hf
      rcases hf with rfl | rfl
      · exact .inr ⟨by simp, by simp, .bool _, by simp⟩
      · refine .inr ⟨by simp, by simp, plainly_fields ?_, by simp⟩
        intro f hf
        simp only [List.mem_cons, List.not_mem_nil, or_false] at hf
        rcases hf with rfl | rfl
        · exact .inr (.inr ⟨by simp, by simp, .str hq, by simp⟩)
        · exact .inr (.inr ⟨by simp, by simp, .str hq, by simp⟩)

theorem mem_dropTrailing : ∀ {l : List (Option (Out Json))} {x : Option (Out Json)}, x ∈ dropTrailing l → x ∈ l
  | [], _, h => by simp [dropTrailing] at h
  | y :: l, x, h => by
    unfold dropTrailing at h
    split at h
    · simp at h
    · simp only [List.mem_cons] at h ⊢
      exact h.imp id mem_dropTrailing

/-- The texts of a node are good. -/
def NodeSafe (S : Bytes → Prop) (n : Node) : Prop :=
  (∀ t ∈ n.texts, S t) ∧ ∀ l v, n = .expr (.lit l v) → litSafe S v

theorem Yields.name {n : Name} (h : ∀ i, n = .optional (some i) ∨ n = .mandatory i → S i.name) : Yields (Plainly S) (genName n) := by
  rcases n with _ | ⟨_ | n⟩ | n
  · exact Yields.ok .null
  · exact Yields.ok .null
  · exact Yields.ident (h _ (.inl rfl))
  · exact Yields.ident (h _ (.inr rfl))

theorem Yields.importSpec {s : ImportSpec}
    (h : ∀ t ∈ (match s with | .named _ i l => [i.name, l.name] | .default _ l => [l.name] | .namespace _ l => [l.name]), S t) :
    Yields (Plainly S) (genImportSpec s) := by
  cases s <;> apply Yields.withLoc
  · refine Yields.bind (Yields.ident (h _ (by simp))) fun a ha => Yields.bind (Yields.ident (h _ (by simp))) fun b hb =>
      Yields.ok (plain_item ?_)
    intro f hf
    simp only [List.mem_cons, List.not_mem_nil, or_false] at hf
    rcases hf with rfl | rfl
    · exact .inr ⟨by simp, by simp, ha, by simp⟩
    · exact .inr ⟨by simp, by simp, hb, by simp⟩
  all_goals
    refine Yields.bind (Yields.ident (h _ (by simp))) fun a ha => Yields.ok (plain_item ?_)
    intro f hf
    simp only [List.mem_cons, List.not_mem_nil, or_false] at hf
    subst hf
    exact .inr ⟨by simp, by simp, ha, by simp⟩

theorem Yields.label {n : Option Ident} (h : ∀ i, n = some i → S i.name) : Yields (Plainly S) (optional (n.map genIdent)) := by
  cases n
  · exact Yields.ok .null
  · exact Yields.ident (h _ rfl)

theorem asStr_ascii (op : Op) : ∀ b ∈ op.asStr, b < 128 := by cases op <;> decide

theorem Yields.fieldsMethod {k : MethodKind} {r : List (String × Out Json)} (h' : Yields (PlainFields S) (fields r)) :
    Yields (PlainFields S) (fields (("kind", .ok (genMethodKind k)) :: r)) := by cases k <;> exact Yields.fieldsKind h'

theorem Yields.fieldsDecl {k : DeclKind} {r : List (String × Out Json)} (h' : Yields (PlainFields S) (fields r)) :
    Yields (PlainFields S) (fields (("kind", .ok (genDeclKind k)) :: r)) := by cases k <;> exact Yields.fieldsKind h'

theorem PlainItem.retype {ty : String} (ty' : String) {fs : List (String × Json)} (h : PlainItem S (ty, fs)) :
    PlainItem S (ty', fs) := by
  intro a b
  have h := h a b
  have hr : ∀ (x y : Json) (r : List (String × Json)), rawOf (("type", x) :: r) = rawOf (("type", y) :: r) := fun _ _ _ => rfl
  simp only [List.cons_append, List.nil_append] at h ⊢
  generalize fs ++ [("start", Json.int a), ("end", Json.int b)] = r at *
  generalize hj : Json.obj (("type", Json.sym ty) :: r) = j at h
  cases h
  case obj h1 h2 h3 h4 =>
    simp only [Json.obj.injEq] at hj
    subst hj
    rw [hr _ (.sym ty')] at h3 h4
    simp only [List.forall_mem_cons] at h1 h2 h3 h4
    refine .obj ?_ ?_ ?_ ?_
    all_goals simp only [List.forall_mem_cons]
    · exact ⟨by simp, h1.2⟩
    · exact ⟨by simp, h2.2⟩
    · exact ⟨by simp, h3.2⟩
    · exact ⟨by simp, h4.2⟩
  all_goals simp at hj

theorem Yields.retype {ty : String} (ty' : String) {fs : List (String × Out Json)} (h : Yields (PlainItem S) (Ratel.inLoc ty fs)) :
    Yields (PlainItem S) (Ratel.inLoc ty' fs) := by
  intro a ha
  simp only [Ratel.inLoc, Out.bind_eq_ok] at ha
  obtain ⟨js, hjs, ha⟩ := ha
  simp only [Out.ok.injEq] at ha
  subst ha
  exact (h (ty, js) (by simp only [Ratel.inLoc, Out.bind_eq_ok]; exact ⟨js, hjs, rfl⟩)).retype ty'

/-- An item or the document that holds it. -/
theorem Yields.ofWithLoc {x : Out Item} (h : ∀ l, Yields (Plainly S) (Ratel.withLoc l x)) : Yields (PlainItem S) x := by
  rintro a rfl i j
  exact h ⟨i, j⟩ _ rfl

/-- What is computed for a node, with any span for expressions, functions and classes. -/
def NodeYields (S : Bytes → Prop) : Node → Prop
  | .expr e => Yields (PlainItem S) (genExpr e)
  | .func f => Yields (PlainItem S) (genFunc f)
  | .cls c => Yields (PlainItem S) (genClass c)
  | n => Yields (Plainly S) (genNode n)

set_option maxHeartbeats 4000000 in
theorem Yields.node (hS : ∀ s : Bytes, (∀ b ∈ s, b < 128) → S s) (n : Node) : n.Forall (NodeSafe S) → NodeYields S n := by
  induction n using Node.ind with
  | h n hk =>
    intro hd0
    have hd : NodeSafe S n := (Node.forall_iff.1 hd0).1
    replace hk : ∀ c ∈ n.children, NodeYields S c := fun c hc => hk c hc ((Node.forall_iff.1 hd0).2 c hc)
    clear hd0
    have ho : ∀ op : Op, Yields (Plainly S) (.ok (.str op.asStr)) := fun op => Yields.ok (.str (hS _ (asStr_ascii op)))
    rcases n with e | k | p | p | f | c' | m | b | s | d | i | c' | c' | cs
    all_goals first | cases e | cases k | cases p | cases f | cases c' | cases m | cases b | cases s | cases d | cases i | skip
    all_goals try (rename_i b; have hb : Block := b; clear hb; cases b)
    case member.error => exact Yields.panic
    case member.literal => exact Yields.panic
    case pat.void => exact Yields.panic
    case expr.void => exact Yields.panic
    case expr.array l body =>
      refine Yields.inLoc (Yields.fieldsCons (by simp) (Yields.arrayOf ?_) Yields.fieldsNil)
      intro x hx
      simp only [List.mem_map] at hx
      obtain ⟨o, ho, rfl⟩ := hx
      have := mem_dropTrailing ho
      rw [genElements_eq, List.mem_map] at this
      obtain ⟨e, he, rfl⟩ := this
      split
      · exact Yields.ok .null
      · exact Yields.withLoc (hk (.expr e) (by simp [Node.children, he]))
    case expr.lit l v => exact Yields.literal hS (hd.2 l v rfl)
    case expr.ident l n =>
      exact Yields.ofWithLoc fun l => Yields.identItem l (hd.1 n (by simp [Node.texts]))
    case expr.prefix l op a =>
      have hv : NodeYields S (.expr a) := hk (.expr a) (by simp [Node.children])
      by_cases hn : op = .New
      · subst hn
        cases a
        case call lc c args =>
          have hv : Yields (PlainItem S) (genExpr (.call lc c args)) := hv
          simp only [NodeYields, genExpr, if_true] at hv ⊢
          exact hv.retype _
        case lit ll v =>
          exact Yields.inLoc (Yields.fieldsCons (by simp) (Yields.withLoc hv)
            (Yields.fieldsCons (by simp) (Yields.ok (.arr (by simp))) Yields.fieldsNil))
        all_goals exact Yields.panic
      · simp only [NodeYields]
        rw [genExpr.eq_def]
        simp only [if_neg hn]
        exact Yields.inLoc (Yields.fieldsCons (by simp) (ho _) (Yields.fieldsCons (by simp) (Yields.withLoc hv)
          (Yields.fieldsCons (by simp) (Yields.ok (.bool _)) Yields.fieldsNil)))
    case stmt.import l specs source =>
      refine Yields.withLoc (Yields.inLoc (Yields.fieldsCons (by simp) (Yields.array fun s hs => Yields.importSpec fun t ht =>
        hd.1 t ?_) (Yields.fieldsCons (by simp) (Yields.ok (.str (hd.1 _ (by simp [Node.texts])))) Yields.fieldsNil)))
      simp only [Node.texts, List.mem_cons, List.mem_flatMap]
      right
      refine ⟨s, hs, ?_⟩
      cases s <;> exact ht
    case' cls.mk nm ex _ _ => rcases nm with _ | ⟨_ | _⟩ | _ <;> cases ex
    case' func.mk.mk nm _ _ _ _ => rcases nm with _ | ⟨_ | _⟩ | _
    case' stmt.brk e => cases e
    case' stmt.cont e => cases e
    case' stmt.ret e => cases e
    case' stmt.ifS e => cases e
    case' stmt.forS a b c _ => cases a <;> cases b <;> cases c
    case' stmt.tryS a b => cases a <;> cases b
    case' declarator.mk e => cases e
    case' case.mk e _ => cases e
    all_goals
      have ht := hd.1
      clear hd
      revert hk ht
      simp only [Node.children, List.forall_mem_cons, List.forall_mem_append, List.forall_mem_map,
        List.not_mem_nil, false_implies, implies_true, Option.toList_some, Option.toList_none, List.map_nil,
        List.map_cons, and_imp, true_implies, and_true, true_and, NodeYields,
        genNode, genExpr, genKey, genProperty, genPattern, genFunc, genClass, genMember,
        genStmt, genDeclarator, genForInit, genCase, genCatch, genExprs_eq, genProperties_eq,
        genPatterns_eq, genMembers_eq, genStmts_eq, genDeclarators_eq, genCases_eq, genBlock, Node.texts, genName, optional, Option.map_some, Option.map_none]
      intros
      repeat' (first
          | with_reducible assumption
          | with_reducible exact Yields.fieldsNil
          | (with_reducible apply Yields.ident; assumption)
          | (with_reducible apply Yields.identItem; assumption)
          | (with_reducible apply Yields.quasis; assumption)
          | with_reducible exact ho _
          | with_reducible exact Yields.ok (.bool _)
          | with_reducible exact Yields.ok .null
          | (with_reducible refine Yields.ok (.str ?_); assumption)
          | with_reducible apply Yields.withLoc
          | with_reducible apply Yields.inLoc
          | with_reducible apply Yields.fieldsMethod
          | with_reducible apply Yields.fieldsDecl
          | with_reducible apply Yields.fieldsKind
          | with_reducible apply Yields.fieldsValue
          | (with_reducible refine Yields.fieldsCons ⟨by simp, by simp, by simp⟩ ?_ ?_)
          | with_reducible apply Yields.array
          | (intro x hx; with_reducible apply Yields.withLoc)
          | (with_reducible apply_assumption; assumption))

end Ratel
