import Verif.Lemmas.Formed
/-! The trees of the grammar are well formed. -/
namespace Ratel
open Spec

set_option linter.unusedSectionVars false
section
variable [Unicode] {i j : List Item}

abbrev Formed (n : Node) : Prop := n.Forall WellFormed

theorem formed {n : Node} (h : WellFormed n) (hc : ∀ c ∈ n.children, Formed c) : Formed n := Node.forall_iff.2 ⟨h, hc⟩

/-- The name `import`, which is not an identifier, at the beginning of `import(x)`. -/
def Weak : List Item → Prop
  | .tok .Identifier w _ :: j => w = bs!"import" ∧ (look j = .Comma ∨ look j = .ParenOpen)
  | _ => False

def HeadText (i : List Item) : Prop := ∀ y ∈ i.head?, ItemText y

/-- A parameter of an arrow function. -/
def ParamOk (e : Expr) : Prop := ∀ p, paramOf e = some p → Formed (.pat p) ∧ arrowParam p = true

def ParamsOk (e : Expr) : Prop := ∀ ps, paramsOf e = some ps → ∀ p ∈ ps, Formed (.pat p) ∧ arrowParam p = true

structure ExprOk (e : Expr) : Prop where
  formed : Formed (.expr e)
  proper : proper e = true
  zIn : ∀ l a b, e = .binary l .In a b → l = z

def NamingOk : Naming → Name → Prop
  | .never, n => n = .empty
  | .optional, n => Name.isOptional n = true
  | .always, n => Name.isMandatory n = true

/-- What holds for a phrase from `i` to `j`. -/
def PhraseOk (i : List Item) (j : List Item) : Phrase → Prop
  | .expr k e | .whole k e => ExprOk e ∧ (HeadText i → ParamOk e ∧ ParamsOk e) ∧
      (Weak i → k = 17 → ∀ ps, paramsOf e = some ps → j = i.tail)
  | .commaTail es => (∀ e ∈ es, ExprOk e ∧ ParamOk e) ∧ es ≠ []
  | .arg e => Formed (.expr e) ∧ isVoid e = false
  | .args es => ∀ e ∈ es, Formed (.expr e) ∧ isVoid e = false
  | .elem e => Formed (.expr e) ∧ (isVoid e = true → j = i)
  | .elems es => (∀ e ∈ es, Formed (.expr e)) ∧ ∀ l, es = [.void l] → look i = .BracketClose
  | .template es qs | .templateTail es qs => (∀ e ∈ es, ExprOk e) ∧ qs.length = es.length + 1 ∧ ∀ q ∈ qs, TplBody q.name
  | .prop p => Formed (.prop p)
  | .props ps => ∀ p ∈ ps, Formed (.prop p)
  | .propValue k p => ObjectKey k → Formed (.key k) → Formed (.prop p)
  | .pat p => Formed (.pat p) ∧ plain p = true
  | .param p => Formed (.pat p) ∧ isRest p = false ∧ isHole p = false
  | .params ps => (∀ p ∈ ps, Formed (.pat p) ∧ isHole p = false) ∧ ∀ p ∈ ps.dropLast, isRest p = false
  | .patElem p => Formed (.pat p) ∧ isRest p = false ∧ (isHole p = true → j = i)
  | .patElems ps => (∀ p ∈ ps, Formed (.pat p) ∧ isRest p = false) ∧ ∀ l, ps = [.void l] → look i = .BracketClose
  | .func nk f => Formed (.func f) ∧ NamingOk nk (funcName f)
  | .cls nk c => Formed (.cls c) ∧ NamingOk nk (className c)
  | .member m => Formed (.member m)
  | .memberValue s kd k m => MemberKey k → MethodKindOk s k kd → Formed (.key k) → Formed (.member m)
  | .membersTail ms => ∀ m ∈ ms, Formed (.member m)
  | .block b => ∀ s ∈ b.body, Formed (.stmt s)
  | .stmtsTail ss | .caseBody ss | .program ss => ∀ s ∈ ss, Formed (.stmt s)
  | .stmt s => Formed (.stmt s)
  | .declarator d => Formed (.declarator d) ∧ (hasInit d = true → continues 1 j = false)
  | .declarators ds => (∀ d ∈ ds, Formed (.declarator d)) ∧ ds ≠ [] ∧ ∀ d ∈ ds.getLast?, hasInit d = true → continues 1 j = false
  | .optExpr _ e => ∀ x ∈ e, ExprOk x
  | .forInit x => Formed (.forInit x) ∧ (∀ l k ds, x = .decl l k ds → ∀ d ∈ ds.getLast?, hasInit d = true → continues 1 j = false) ∧
      ∀ l e, x = .expr l e → isIn e = false
  | .switchCase c => Formed (.case c)
  | .cases cs => ∀ c ∈ cs, Formed (.case c)
  | .catch c => Formed (.catch c)

def isExprPhrase : Phrase → Bool
  | .expr .. | .whole .. => true
  | _ => false

def Claim (i : List Item) (x : Phrase) (j : List Item) : Prop :=
  (∀ y ∈ i.tail, ItemText y) → (HeadText i ∨ isExprPhrase x = true ∧ Weak i) → (∀ y ∈ j, ItemText y) ∧ PhraseOk i j x

def ItemsOk (i : List Item) : Prop := ∀ y ∈ i, ItemText y

theorem ItemsOk.head (h : ItemsOk i) : HeadText i := fun y hy => h y (List.mem_of_mem_head? hy)
theorem ItemsOk.tk {i j : List Item} {t : Token} (h : ItemsOk i) (hi : Tk t i j) : ItemsOk j := by
  obtain ⟨w, a, rfl⟩ := hi
  exact fun y hy => h y (.tail _ hy)
theorem ItemsOk.wd {i j : List Item} {t : Token} {w : Bytes} (h : ItemsOk i) (hi : Wd t w i j) : TextOf t w ∧ ItemsOk j := by
  obtain ⟨a, rfl⟩ := hi
  exact ⟨h _ (.head _), fun y hy => h y (.tail _ hy)⟩
theorem tail_tk {i j : List Item} {t : Token} (h : ∀ y ∈ i.tail, ItemText y) (hi : Tk t i j) : ItemsOk j := by
  obtain ⟨w, a, rfl⟩ := hi
  exact h
theorem tail_wd {i j : List Item} {t : Token} {w : Bytes} (h : ∀ y ∈ i.tail, ItemText y) (hi : Wd t w i j) : ItemsOk j := by
  obtain ⟨a, rfl⟩ := hi
  exact h
theorem itemsOk {i : List Item} {b : Bool} {P : Prop} (h : ∀ y ∈ i.tail, ItemText y) (hh : HeadText i ∨ b = true ∧ P) (hb : b = false) : ItemsOk i := by
  rcases hh with hh | ⟨h', -⟩
  · cases i with
    | nil => nofun
    | cons x i =>
      rintro y (_ | ⟨_, hy⟩)
      · exact hh _ rfl
      · exact h y hy
  · rw [hb] at h'
    cases h'

theorem Claim.of {i j : List Item} {x : Phrase} (h : Claim i x j) (hi : ItemsOk i) : ItemsOk j ∧ PhraseOk i j x :=
  h (fun y hy => hi y (List.mem_of_mem_tail hy)) (.inl hi.head)

theorem Weak.token {t : Token} {w : Bytes} {a : Asi} {j : List Item} (h : Weak (.tok t w a :: j)) : t = .Identifier := by
  unfold Weak at h
  split at h
  · rename_i h'; cases h'; rfl
  · cases h

/-- An expression that is not a parameter of an arrow function. -/
theorem mkExpr {i j : List Item} {k : Nat} {e : Expr} (hj : ItemsOk j) (hw : WellFormed (.expr e)) (hc : ∀ c ∈ (Node.expr e).children, Formed c)
    (hp : proper e = true) (hz : ∀ l a b, e = .binary l .In a b → l = z) (h1 : paramOf e = none) (h2 : paramsOf e = none) :
    ItemsOk j ∧ PhraseOk i j (.expr k e) :=
  ⟨hj, ⟨formed hw hc, hp, hz⟩, fun _ => ⟨fun p h => (by rw [h1] at h; cases h), fun p h => (by rw [h2] at h; cases h)⟩,
    fun _ _ ps h => (by rw [h2] at h; cases h)⟩

theorem ParamOk.params {e : Expr} (h : ParamOk e) (hs : ∀ l es, e ≠ .seq l es) : ParamsOk e := by
  intro ps hps p hp
  unfold paramsOf at hps
  split at hps
  · exact absurd rfl (hs _ _)
  · cases hq : paramOf e with
    | none => rw [hq] at hps; cases hps
    | some q =>
      rw [hq] at hps
      cases hps
      cases hp with
      | head => exact h _ hq
      | tail _ hp => cases hp

theorem mapM_mem {es : List Expr} {ps : List Pattern} (h : es.mapM paramOf = some ps) : ∀ p ∈ ps, ∃ e ∈ es, paramOf e = some p := by
  induction es generalizing ps with
  | nil => cases h; nofun
  | cons e es ih =>
    simp only [List.mapM_cons] at h
    cases h1 : paramOf e with
    | none => rw [h1] at h; cases h
    | some p =>
      cases h2 : es.mapM paramOf with
      | none => rw [h1, h2] at h; cases h
      | some qs =>
        rw [h1, h2] at h
        cases h
        rintro q (_ | ⟨_, hq⟩)
        · exact ⟨e, by simp, h1⟩
        · obtain ⟨x, hx, hx'⟩ := ih h2 q hq
          exact ⟨x, by simp [hx], hx'⟩

theorem assign_param {l : Loc} {op : Op} {a b : Expr} (ha : target a = true) (h : ParamOk a) (hb : ExprOk b) : ParamOk (.binary l op a b) := by
  intro p hp
  cases a with
  | ident l' n =>
    unfold paramOf at hp
    split at hp
    · rename_i h'; cases h'
    · rename_i h'
      cases h'
      simp only [paramOf, Option.map_some, Option.some.injEq] at hp
      subst hp
      refine ⟨formed ⟨rfl, hb.proper⟩ ?_, rfl⟩
      simp only [Node.children]
      rintro c (_ | ⟨_, _ | ⟨_, hc⟩⟩)
      · exact (h _ rfl).1
      · exact hb.formed
      · cases hc
    · cases hp
  | member | cmember | object | array =>
    unfold paramOf at hp
    split at hp
    · rename_i h'; cases h'
    · rename_i h'
      cases h'
      simp [paramOf] at hp
    · cases hp
  | _ => cases ha

end
end Ratel
