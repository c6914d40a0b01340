import Verif.Lemmas.Under
import Verif.Lemmas.Walk
import Verif.Spec.Shift
/-! Two runs of the parser, one of them with a text in front of the source: if the first one ends without errors, so does
the second, with the same result moved by the length of the text. -/
namespace Ratel
open Spec

set_option linter.unusedSectionVars false
set_option linter.unusedVariables false

/-- Moving the positions in a value. -/
class Sh (α : Type) where
  sh : Nat → α → α
export Sh (sh)

namespace Shift
instance : Sh Unit := ⟨fun _ x => x⟩
instance : Sh Bool := ⟨fun _ x => x⟩
instance : Sh Nat := ⟨fun k n => n + k⟩
instance : Sh Loc := ⟨shiftLoc⟩
instance : Sh Ident := ⟨shiftIdent⟩
instance : Sh Name := ⟨shiftName⟩
instance : Sh ImportSpec := ⟨shiftSpec⟩
instance : Sh Expr := ⟨shiftExpr⟩
instance : Sh PropKey := ⟨shiftKey⟩
instance : Sh Property := ⟨shiftProp⟩
instance : Sh Pattern := ⟨shiftPat⟩
instance : Sh Func := ⟨shiftFunc⟩
instance : Sh Class := ⟨shiftClass⟩
instance : Sh ClassMember := ⟨shiftMember⟩
instance : Sh Block := ⟨shiftBlock⟩
instance : Sh Stmt := ⟨shiftStmt⟩
instance : Sh Declarator := ⟨shiftDeclarator⟩
instance : Sh ForInit := ⟨shiftInit⟩
instance : Sh SwitchCase := ⟨shiftCase⟩
instance : Sh Catch := ⟨shiftCatch⟩
instance [Sh α] : Sh (List α) := ⟨fun k => List.map (sh k)⟩
instance : Sh Bytes := ⟨fun _ x => x⟩
instance [Sh α] : Sh (Option α) := ⟨fun k => Option.map (sh k)⟩
instance [Sh α] [Sh β] : Sh (α × β) := ⟨fun k x => (sh k x.1, sh k x.2)⟩
instance [Sh σ] [Sh α] : Sh (Step σ α) := ⟨fun k x => match x with
  | .again s => .again (sh k s)
  | .done a => .done (sh k a)⟩
end Shift
open Shift

variable (k : Nat)
@[simp] theorem sh_nat (n : Nat) : sh k n = n + k := rfl
@[simp] theorem sh_bool (n : Bool) : sh k n = n := rfl
@[simp] theorem sh_unit (n : Unit) : sh k n = n := rfl
@[simp] theorem sh_bytes (n : Bytes) : sh k n = n := rfl
@[simp] theorem sh_pair [Sh α] [Sh β] (a : α) (b : β) : sh k (a, b) = (sh k a, sh k b) := rfl
@[simp] theorem sh_again [Sh α] [Sh β] (a : α) : sh k (Step.again a : Step α β) = .again (sh k a) := rfl
@[simp] theorem sh_done [Sh α] [Sh β] (a : β) : sh k (Step.done a : Step α β) = .done (sh k a) := rfl
@[simp] theorem sh_nil [Sh α] : sh k ([] : List α) = [] := rfl
@[simp] theorem sh_cons [Sh α] (a : α) (l : List α) : sh k (a :: l) = sh k a :: sh k l := rfl
@[simp] theorem sh_append [Sh α] (a b : List α) : sh k (a ++ b) = sh k a ++ sh k b := List.map_append
@[simp] theorem sh_none [Sh α] : sh k (none : Option α) = none := rfl
@[simp] theorem sh_some [Sh α] (a : α) : sh k (some a) = some (sh k a) := rfl
@[simp] theorem sh_loc (l : Loc) : sh k l = ⟨l.start + k, l.stop + k⟩ := rfl
@[simp] theorem sh_ident (l : Loc) (n : Bytes) : sh k (⟨l, n⟩ : Ident) = ⟨⟨l.start + k, l.stop + k⟩, n⟩ := rfl

variable [Unicode]

/-- The state of the second run: `f` says that its first token may be behind another line break. -/
structure Rel (g : Bytes) (f : Bool) (l l' : Lex) : Prop where
  eq : l' = { l.under g id with asi := l'.asi }
  asi : f = false → l'.asi = l.asi
  lexing : ∃ src, Lexing src l

variable {g : Bytes} {α β σ : Type} [Sh α] [Sh β] [Sh σ] {T : Lex → Prop} {f : Bool}

/-- The relation between two programs. -/
structure Sim (g : Bytes) (T : Lex → Prop) (f : Bool) (m m' : P α) : Prop where
  keeps : ∀ s a s1, m s = .ok (a, s1) → s.errors ≠ [] → s1.errors ≠ []
  run : ∀ l l', Rel g f l l' → T l → ∀ a l1, m ⟨l, []⟩ = .ok (a, ⟨l1, []⟩) →
    ∃ l1', m' ⟨l', []⟩ = .ok (sh g.length a, ⟨l1', []⟩) ∧ Rel g false l1 l1'

/-- Nothing is known about the lexer. -/
def Any : Lex → Prop := fun _ => True

theorem Sim.any {m m' : P α} (h : Sim g Any f m m') : Sim g T f m m' := ⟨h.keeps, fun l l' hr _ => h.run l l' hr trivial⟩
theorem Sim.weaken {T' : Lex → Prop} {m m' : P α} (h : Sim g T' f m m') (ht : ∀ l, T l → T' l) : Sim g T f m m' :=
  ⟨h.keeps, fun l l' hr h' => h.run l l' hr (ht l h')⟩
theorem Sim.fresh {m m' : P α} (h : Sim g T true m m') : Sim g T f m m' :=
  ⟨h.keeps, fun l l' hr => h.run l l' ⟨hr.eq, nofun, hr.lexing⟩⟩

theorem Sim.pure {a a' : α} (h : a' = sh g.length a) : Sim g T false (pure a) (pure a') :=
  ⟨fun s _ s' hr he => by cases hr; exact he, fun l l' hr _ a1 l1 h' => by cases h'; exact ⟨l', by rw [h]; rfl, hr⟩⟩

theorem Sim.bind {m m' : P α} {F F' : α → P β} (h : Sim g T f m m') (hf : ∀ a, Sim g Any false (F a) (F' (sh g.length a))) :
    Sim g T f (m >>= F) (m' >>= F') := by
  constructor
  · intro s b s' hr he
    obtain ⟨a, t, h1, h2⟩ := P.bind_ok.1 hr
    exact (hf a).keeps _ _ _ h2 (h.keeps _ _ _ h1 he)
  · intro l l' hr ht b l1 hb
    obtain ⟨a, ⟨l2, es⟩, h1, h2⟩ := P.bind_ok.1 hb
    have he : es = [] := by
      refine Decidable.byContradiction fun he => ?_
      exact (hf a).keeps _ _ _ h2 he rfl
    subst he
    obtain ⟨l2', h3, h4⟩ := h.run l l' hr ht a l2 h1
    obtain ⟨l1', h5, h6⟩ := (hf a).run l2 l2' h4 trivial b l1 h2
    exact ⟨l1', P.bind_ok.2 ⟨_, _, h3, h5⟩, h6⟩

theorem Sim.bind₂ {γ : Type} [Sh γ] {m m' : P (α × β)} {F F' : α × β → P γ} (h : Sim g T f m m')
    (hf : ∀ a b, Sim g Any false (F (a, b)) (F' (sh g.length a, sh g.length b))) : Sim g T f (m >>= F) (m' >>= F') :=
  h.bind fun ⟨a, b⟩ => hf a b
theorem Sim.bind₃ {γ δ : Type} [Sh γ] [Sh δ] {m m' : P (α × β × γ)} {F F' : α × β × γ → P δ} (h : Sim g T f m m')
    (hf : ∀ a b c, Sim g Any false (F (a, b, c)) (F' (sh g.length a, sh g.length b, sh g.length c))) :
    Sim g T f (m >>= F) (m' >>= F') := h.bind fun ⟨a, b, c⟩ => hf a b c
/-- Values without positions. -/
theorem Sim.bind₀ {F F' : Bytes → P β} {m m' : P Bytes} (h : Sim g T f m m') (hf : ∀ a, Sim g Any false (F a) (F' a)) :
    Sim g T f (m >>= F) (m' >>= F') := h.bind hf
theorem Sim.bindU {F F' : Unit → P β} {m m' : P Unit} (h : Sim g T f m m') (hf : Sim g Any false (F ()) (F' ())) :
    Sim g T f (m >>= F) (m' >>= F') := h.bind fun _ => hf
theorem Sim.bindB {F F' : Bool → P β} {m m' : P Bool} (h : Sim g T f m m') (hf : ∀ b, Sim g Any false (F b) (F' b)) :
    Sim g T f (m >>= F) (m' >>= F') := h.bind fun _ => hf _
theorem Sim.bindN {F F' : Nat → P β} {m m' : P Nat} (h : Sim g T f m m') (hf : ∀ n, Sim g Any false (F n) (F' (n + g.length))) :
    Sim g T f (m >>= F) (m' >>= F') := h.bind fun _ => hf _

theorem Sim.assoc {γ : Type} {m m' : P α} {F F' : α → P γ} {G G' : γ → P β}
    (h : Sim g T f (m >>= fun a => F a >>= G) (m' >>= fun a => F' a >>= G')) : Sim g T f (m >>= F >>= G) (m' >>= F' >>= G') := by
  have e : ∀ {γ : Type} (m : P α) (F : α → P γ) (G : γ → P β), (m >>= F >>= G) = (m >>= fun a => F a >>= G) := fun m F G => by
    funext s
    rw [P.bind_run, P.bind_run, P.bind_run]
    cases m s <;> rfl
  rw [e, e]
  exact h

/-! ### Reading the state -/

theorem Rel.token {l l' : Lex} (h : Rel g f l l') : l'.token = l.token := by rw [h.eq]; rfl
theorem Rel.start {l l' : Lex} (h : Rel g f l l') : l'.tokenStart = l.tokenStart + g.length := by rw [h.eq]; rfl
theorem Rel.index {l l' : Lex} (h : Rel g f l l') : l'.index = l.index + g.length := by rw [h.eq]; rfl
theorem Rel.tokenAsStr {l l' : Lex} (h : Rel g f l l') : l'.tokenAsStr = l.tokenAsStr := by
  rw [h.eq]
  exact Lex.under_slice (φ := id) l _ _
theorem Rel.quasi {l l' : Lex} (h : Rel g f l l') : l'.quasi = l.quasi := by rw [h.eq]; rfl

theorem Sim.read {γ : Type} {p : PState → γ} {F F' : γ → P β}
    (h : ∀ x, Sim g (fun l => T l ∧ ∃ s : PState, s.lex = l ∧ p s = x) f (F x) (F' x))
    (hp : ∀ l l', Rel g f l l' → T l → p ⟨l', []⟩ = p ⟨l, []⟩) :
    Sim g T f ((fun s => .ok (p s, s) : P γ) >>= F) ((fun s => .ok (p s, s) : P γ) >>= F') := by
  constructor
  · intro s b s' hr he
    obtain ⟨a, t, h1, h2⟩ := P.bind_ok.1 hr
    cases h1
    exact (h _).keeps _ _ _ h2 he
  · intro l l' hr ht b l1 hb
    obtain ⟨a, t, h1, h2⟩ := P.bind_ok.1 hb
    cases h1
    obtain ⟨l1', h5, h6⟩ := (h _).run l l' hr ⟨ht, _, rfl, rfl⟩ b l1 h2
    exact ⟨l1', P.bind_ok.2 ⟨_, _, rfl, by rw [hp l l' hr ht]; exact h5⟩, h6⟩

theorem Sim.readSh {γ : Type} [Sh γ] {p : PState → γ} {F F' : γ → P β}
    (h : ∀ x, Sim g T f (F x) (F' (sh g.length x)))
    (hp : ∀ l l', Rel g f l l' → p ⟨l', []⟩ = sh g.length (p ⟨l, []⟩)) :
    Sim g T f ((fun s => .ok (p s, s) : P γ) >>= F) ((fun s => .ok (p s, s) : P γ) >>= F') := by
  constructor
  · intro s b s' hr he
    obtain ⟨a, t, h1, h2⟩ := P.bind_ok.1 hr
    cases h1
    exact (h _).keeps _ _ _ h2 he
  · intro l l' hr ht b l1 hb
    obtain ⟨a, t, h1, h2⟩ := P.bind_ok.1 hb
    cases h1
    obtain ⟨l1', h5, h6⟩ := (h _).run l l' hr ht b l1 h2
    exact ⟨l1', P.bind_ok.2 ⟨_, _, rfl, by rw [hp l l' hr]; exact h5⟩, h6⟩

theorem Sim.tok {F F' : Token → P β} (h : ∀ t, Sim g (fun l => T l ∧ l.token = t) f (F t) (F' t)) :
    Sim g T f (tok >>= F) (tok >>= F') := by
  refine Sim.read (fun x => (h x).weaken fun l ⟨h1, s, h2, h3⟩ => ⟨h1, h2 ▸ h3⟩) fun l l' hr _ => hr.token
theorem Sim.tokStr {F F' : Bytes → P β} (h : ∀ t, Sim g T f (F t) (F' t)) : Sim g T f (tokStr >>= F) (tokStr >>= F') :=
  Sim.read (fun x => (h x).weaken fun _ h => h.1) fun l l' hr _ => hr.tokenAsStr
theorem Sim.quasi {F F' : Bytes → P β} (h : ∀ t, Sim g T f (F t) (F' t)) : Sim g T f (quasi >>= F) (quasi >>= F') :=
  Sim.read (fun x => (h x).weaken fun _ h => h.1) fun l l' hr _ => hr.quasi
theorem Sim.asi {F F' : Asi → P β} (h : ∀ t, Sim g T false (F t) (F' t)) : Sim g T false (asi >>= F) (asi >>= F') :=
  Sim.read (fun x => (h x).weaken fun _ h => h.1) fun l l' hr _ => hr.asi rfl
theorem Sim.start {F F' : Nat → P β} (h : ∀ t, Sim g T f (F t) (F' (t + g.length))) : Sim g T f (start >>= F) (start >>= F') :=
  Sim.readSh h fun l l' hr => hr.start
theorem Sim.stop {F F' : Nat → P β} (h : ∀ t, Sim g T f (F t) (F' (t + g.length))) : Sim g T f (stop >>= F) (stop >>= F') :=
  Sim.readSh h fun l l' hr => hr.index
theorem Sim.curLoc {F F' : Loc → P β} (h : ∀ a b, Sim g T f (F ⟨a, b⟩) (F' ⟨a + g.length, b + g.length⟩)) :
    Sim g T f (curLoc >>= F) (curLoc >>= F') :=
  Sim.readSh (fun x => h x.start x.stop) fun l l' hr => by rw [hr.start, hr.index]; rfl

/-! ### Moving on -/

theorem Lex.consume_asi (l : Lex) (a : Asi) : ({ l with asi := a } : Lex).consume = l.consume := rfl

theorem Sim.consume : Sim g T f consume consume := by
  constructor
  · intro s a s1 hr
    cases hc : s.lex.consume <;> simp [Ratel.consume, hc, Out.bind] at hr
    subst hr
    exact id
  · intro l l' hr ht a l1 h
    cases hc : l.consume <;> simp [Ratel.consume, hc, Out.bind] at h
    subst h
    obtain ⟨src, hx⟩ := hr.lexing
    rename_i l2
    refine ⟨l2.under g id, ?_, ⟨rfl, fun _ => rfl, src, hx.consume hc⟩⟩
    rw [hr.eq, Ratel.consume]
    simp only [Lex.consume_asi, Lex.consume_mv l, hc]
    rfl

theorem Sim.template : Sim g T false readTemplateKind readTemplateKind := by
  constructor
  · intro s a s1 hr
    cases hc : s.lex.readTemplateKind <;> simp [readTemplateKind, hc, Out.bind] at hr
    subst hr
    exact id
  · intro l l' hr ht a l1 h
    cases hc : l.readTemplateKind <;> simp [readTemplateKind, hc, Out.bind] at h
    subst h
    obtain ⟨src, hx⟩ := hr.lexing
    rename_i l2
    have e : l' = l.under g id := by rw [hr.eq, hr.asi rfl]; rfl
    refine ⟨l2.under g id, ?_, ⟨rfl, fun _ => rfl, src, hx.template hc⟩⟩
    rw [e, readTemplateKind]
    simp only [Lex.under_readTemplateKind l, hc]
    rfl

theorem error_keeps {s s1 : PState} {a : Unit} (h : error s = .ok (a, s1)) : s1.errors ≠ [] := by
  cases hc : s.lex.invalidToken <;> simp [error, hc, Out.bind] at h
  subst h
  simp

theorem Sim.error {m' : P Unit} : Sim g T f error m' :=
  ⟨fun s a s1 h _ => error_keeps h, fun l l' _ _ a l1 h => absurd rfl (error_keeps h)⟩

theorem Sim.error_bind {F : Unit → P β} {m' : P β} (h : ∀ s a s1, F () s = .ok (a, s1) → s.errors ≠ [] → s1.errors ≠ []) :
    Sim g T f (Ratel.error >>= F) m' := by
  constructor
  · intro s b s' hr he
    obtain ⟨a, t, h1, h2⟩ := P.bind_ok.1 hr
    exact h _ _ _ h2 (error_keeps h1)
  · intro l l' _ _ b l1 hb
    obtain ⟨a, t, h1, h2⟩ := P.bind_ok.1 hb
    exact absurd rfl (h _ _ _ h2 (error_keeps h1))

theorem Sim.error_pure {b : β} {m' : P β} : Sim g T f (Ratel.error >>= fun _ => Pure.pure b) m' :=
  .error_bind fun s a s1 h he => by cases h; exact he

theorem Sim.ite {c c' : Prop} [Decidable c] [Decidable c'] {m n m' n' : P α} (hc : c ↔ c') (h : c → Sim g T f m m')
    (h' : ¬c → Sim g T f n n') : Sim g T f (if c then m else n) (if c' then m' else n') := by
  by_cases hh : c
  · rw [if_pos hh, if_pos (hc.1 hh)]; exact h hh
  · rw [if_neg hh, if_neg (fun x => hh (hc.2 x))]; exact h' hh

theorem Sim.loop {body body' : σ → P (Step σ α)} (h : ∀ x, Sim g Any false (body x) (body' (sh g.length x))) (n : Nat) :
    ∀ {T : Lex → Prop} {x x' : σ}, x' = sh g.length x → Sim g T false (Ratel.loop n body x) (Ratel.loop n body' x') := by
  induction n with
  | zero => exact fun _ => ⟨fun _ _ _ h => (by cases h), fun _ _ _ _ _ _ h => (by cases h)⟩
  | succ n ih =>
    intro T x x' e
    subst e
    rw [Ratel.loop, Ratel.loop]
    refine (h x).any.bind fun r => ?_
    cases r with
    | again y => exact ih rfl
    | done a => exact .pure rfl

theorem Sim.timeout {m' : P α} : Sim g T f (fun _ => .timeout) m' := ⟨fun _ _ _ h => (by cases h), fun _ _ _ _ _ _ h => (by cases h)⟩
theorem Sim.panic {m' : P α} : Sim g T f Ratel.panic m' := ⟨fun _ _ _ h => (by cases h), fun _ _ _ _ _ _ h => (by cases h)⟩

theorem Sim.expect (t : Token) : Sim g T f (expect t) (expect t) := by
  unfold Ratel.expect
  exact Sim.tok fun t' => .ite Iff.rfl (fun _ => .consume) fun _ => .error
theorem Sim.startThenConsume : Sim g T f startThenConsume startThenConsume := by
  unfold Ratel.startThenConsume
  exact Sim.start fun s => .bindU .consume (.pure rfl)
theorem Sim.endThenConsume : Sim g T f endThenConsume endThenConsume := by
  unfold Ratel.endThenConsume
  exact Sim.stop fun s => .bindU .consume (.pure rfl)

end Ratel
