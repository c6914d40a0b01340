import Verif.Lemmas.SoundStmt
/-! Loops of error-free runs are phrases of the grammar. -/
namespace Ratel
open Spec

set_option linter.unusedSectionVars false
variable [Unicode]

variable {src : Bytes} {n : Nat} {R : Rec} [Rec.Known src R] [hR : Rec.Gs src R]

theorem forInit_sound {l : Lex} {t : Token} {k : DeclKind} (hl : At src l) (ht : l.token = t) (hs : special t = false)
    (hk : declKindOf t = some k) : W (forInit n R k) l fun s l' => Got l (.forInit (bareInit s)) l' ∧ ∃ z ds, s = .decl z k ds := by
  unfold forInit
  go
  refine ⟨?_, _, _, rfl⟩
  have hsp := hs
  clear hs
  intro j hs
  unwind
  obtain ⟨i, h1, h2, -⟩ := hs.plain (src := src) (l := l) (by assumption) ht hsp
  replace hs := h1
  rule G.forInitDecl

theorem bareStmt_forS (loc : Loc) (init : Option ForInit) (t u : Option Expr) (b : Stmt) : bareStmt (.forS loc init t u b) =
    .forS z (init.map bareInit) (t.map bareExpr) (u.map bareExpr) (bareStmt b) := by
  cases init <;> cases t <;> cases u <;> rfl

/-- What the rest of a loop has read. -/
def RestGot (init : Option ForInit) (l : Lex) (s : Stmt) (l' : Lex) : Prop :=
  ∃ loc t u b, s = .forS loc init t u b ∧
    Via l (fun i j => ∃ m n, G i (.optExpr .Semicolon (t.map bareExpr)) m ∧ G m (.optExpr .ParenClose (u.map bareExpr)) n ∧
      G n (.stmt (bareStmt b)) j) l'

macro "opt" : tactic => `(tactic| first
  | exact .optExprNone (Spec.Wd.tk (by assumption))
  | exact .optExprSome (by assumption) (Spec.Wd.tk (by assumption)))

instance {s : Nat} {init : Option ForInit} : Rs src (forRest R s init) (RestGot init) := ⟨fun l hl => by
  unfold forRest
  go
  all_goals
    refine ⟨_, _, _, _, rfl, ?_⟩
    back
    refine ⟨_, hs, ?_⟩
    apply Exists.intro
    apply Exists.intro
    refine ⟨by opt, by opt, by assumption⟩⟩

/-- What the rest of a loop over the elements has read. -/
def EachGot (l : Lex) (r : Loc × Expr × Stmt) (l' : Lex) : Prop :=
  Via l (fun i j => ∃ m n, G i (.whole 0 (bareExpr r.2.1)) m ∧ Tk .ParenClose m n ∧ G n (.stmt (bareStmt r.2.2)) j) l'

instance {s : Nat} : Rs src (forEachRest R s) EachGot := ⟨fun l hl => by
  unfold forEachRest
  go
  unfold EachGot
  back
  exact ⟨_, hs, _, _, by assumption, Spec.Wd.tk (by assumption), by assumption⟩⟩

/-- What has been read before the rest of a loop. -/
def HeadGot (l : Lex) (init : ForInit) (l' : Lex) : Prop :=
  Via l (fun i j => ∃ m n, Tk .For i m ∧ Tk .ParenOpen m n ∧ G n (.forInit (bareInit init)) j) l'

theorem forAfterInit_sound {l0 l : Lex} {s : Nat} {init : ForInit} (hl : At src l) (h : HeadGot l0 init l)
    (hi : (∃ z k ds, init = .decl z k ds) ∨ l.token ≠ .OperatorIn) :
    W (forAfterInit R s init) l fun s l' => Got l0 (.stmt (bareStmt s)) l' := by
  unfold forAfterInit
  go
  · rename_i hx
    obtain ⟨z', k, ds, rfl⟩ : ∃ z k ds, init = .decl z k ds := by
      rcases hi with h | h
      · exact h
      · exact absurd (by assumption) h
    intro j hs
    obtain ⟨i, g1, m, o, g2, g3, g4⟩ := hx j hs
    obtain ⟨i', g5, g6, -⟩ := g1.plain (src := src) (l := l) (t := .OperatorIn) (by assumption) (by assumption) rfl
    obtain ⟨i0, hs, m', o', g7, g8, g9⟩ := h i' g5
    exact ⟨_, hs, .forInDecl g7 g8 g9 g6.tk g2 g3 g4⟩
  · rename_i hn _ _ _ hx
    obtain ⟨ht, hw⟩ := (by assumption : _ ∧ l.tokenAsStr = _)
    intro j hs
    obtain ⟨i, g1, m, o, g2, g3, g4⟩ := hx j hs
    obtain ⟨i', g5, g6, -⟩ := g1.plain (src := src) (l := l) (t := .Identifier) (by assumption) (by assumption) rfl
    rw [hw] at g6
    obtain ⟨i0, hs, m', o', g7, g8, g9⟩ := h i' g5
    exact ⟨_, hs, .forOf g7 g8 g9 g6 g2 g3 g4⟩
  · rename_i hx
    obtain ⟨loc, t, u, b, rfl, hx⟩ := hx
    intro j hs
    obtain ⟨i, g1, m, o, g2, g3, g4⟩ := hx j hs
    obtain ⟨i', g5, g6, -⟩ := g1.plain (src := src) (l := l) (t := .Semicolon) (by assumption) (by assumption) rfl
    obtain ⟨i0, hs, m', o', g7, g8, g9⟩ := h i' g5
    rw [bareStmt_forS]
    exact ⟨_, hs, .forLoopInit g7 g8 g9 g6.tk g2 g3 g4⟩

theorem handler_in : ∀ a, nestedHandler .ANY a .OperatorIn ≠ none := by
  intro a
  cases a <;> decide +kernel

theorem bare_in {e : Expr} (h : ∀ loc a b, e ≠ .binary loc .In a b) : ∀ a b, bareExpr e ≠ .binary z .In a b := by
  intro a b
  cases e <;> simp only [bareExpr, ne_eq, reduceCtorEq, not_false_eq_true, Expr.binary.injEq, not_and]
  rintro - rfl
  exact absurd rfl (h _ _ _)

theorem head_of_init {l l1 l2 l3 : Lex} {x : ForInit} (ht : l.token = .For) (n1 : Nxt src l l1) (ht1 : l1.token = .ParenOpen)
    (n2 : Nxt src l1 l2) (h : Got l2 (.forInit (bareInit x)) l3) : HeadGot l x l3 := by
  intro j hs
  obtain ⟨i, g1, g2⟩ := h j hs
  obtain ⟨i1, g3, g4, -⟩ := g1.plain n2 ht1 rfl
  obtain ⟨i2, g5, g6, -⟩ := g3.plain n1 ht rfl
  exact ⟨i2, g5, _, _, g6.tk, g4.tk, g2⟩

instance : Rs src (forStatement n R) fun l s l' => l.token = .For → Got l (.stmt (bareStmt s)) l' := ⟨fun l hl => by
  rw [forStatement]
  refine .startThenConsume (src := src) hl fun l1 h1 n1 => ?_
  refine .expect (src := src) h1 (fun ht1 l2 h2 n2 => ?_) (by mono)
  refine .tok ?_
  split
  · refine .consume (src := src) h2 fun l3 h3 n3 => ?_
    refine .rs' (src := src) h3 fun s l4 h4 hx ht => ?_
    obtain ⟨loc, t, u, b, rfl, hx⟩ := hx
    intro j hs
    obtain ⟨i, g1, m, o, g2, g3, g4⟩ := hx j hs
    obtain ⟨i1, g5, g6, -⟩ := g1.plain n3 (by assumption) rfl
    obtain ⟨i2, g7, g8, -⟩ := g5.plain n2 ht1 rfl
    obtain ⟨i3, g9, g10, -⟩ := g7.plain n1 ht rfl
    rw [bareStmt_forS]
    exact ⟨_, g9, .forLoop g10.tk g8.tk g6.tk g2 g3 g4⟩
  · refine .call (src := src) h2 (forInit_sound h2 (by assumption) rfl rfl) (fun i m hm _ hx => ?_) (fun _ => by mono)
    intro a l' hr ht
    exact forAfterInit_sound (src := src) hm (head_of_init ht n1 ht1 n2 hx.1) (.inl (by obtain ⟨_, _, h⟩ := hx.2; exact ⟨_, _, _, h⟩)) a l' hr
  · refine .call (src := src) h2 (forInit_sound h2 (by assumption) rfl rfl) (fun i m hm _ hx => ?_) (fun _ => by mono)
    intro a l' hr ht
    exact forAfterInit_sound (src := src) hm (head_of_init ht n1 ht1 n2 hx.1) (.inl (by obtain ⟨_, _, h⟩ := hx.2; exact ⟨_, _, _, h⟩)) a l' hr
  · refine .call (src := src) h2 (forInit_sound h2 (by assumption) rfl rfl) (fun i m hm _ hx => ?_) (fun _ => by mono)
    intro a l' hr ht
    exact forAfterInit_sound (src := src) hm (head_of_init ht n1 ht1 n2 hx.1) (.inl (by obtain ⟨_, _, h⟩ := hx.2; exact ⟨_, _, _, h⟩)) a l' hr
  · refine .call (src := src) h2 ((hR.idle .ANY _ h2).and (Gs.is (src := src) _ h2)) (fun e m hm _ hx => ?_) (fun _ => by mono)
    obtain ⟨hx, hg⟩ := hx
    split
    · refine .expect (src := src) hm (fun ht2 l4 h4 n4 => ?_) (by mono)
      refine .gs (src := src) h4 (fun s l5 h5 g => .pure fun ht => ?_) (fun _ => by mono)
      intro j hs
      obtain ⟨i, g1, g2⟩ := g j hs
      obtain ⟨i1, g5, g6, -⟩ := g1.plain n4 ht2 rfl
      obtain ⟨i2, g7, g8⟩ := hg i1 g5
      obtain ⟨i3, g9, g10, -⟩ := g7.plain n2 ht1 rfl
      obtain ⟨i4, g11, g12, -⟩ := g9.plain n1 ht rfl
      exact ⟨_, g11, .forInExpr g12.tk g10.tk g8 g6.tk g2⟩
    · rename_i hne
      intro a l' hr ht
      refine forAfterInit_sound (src := src) hm (head_of_init ht n1 ht1 n2 ?_) (.inr fun h => ?_) a l' hr
      · intro j hs
        obtain ⟨i, g1, g2⟩ := hg j hs
        exact ⟨i, g1, .forInitExpr g2 (bare_in fun loc a b h => hne _ _ _ h)⟩
      · rw [h] at hx
        exact handler_in _ hx⟩

end Ratel
