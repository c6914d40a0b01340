import Verif.Spec.Rename
import Verif.Lemmas.Join
/-! Renaming commutes with the grammar. -/
namespace Ratel
open Spec

variable {ρ : Bytes → Bytes} {i j m n : List Item}

/-- The text of a token after renaming. -/
def rnText (ρ : Bytes → Bytes) : Token → Bytes → Bytes
  | .Identifier, w => ρ w
  | .Accessor, w => ρ w
  | _, w => w

theorem renameItem_tok (ρ : Bytes → Bytes) (t : Token) (w : Bytes) (a : Asi) : renameItem ρ (.tok t w a) = .tok t (rnText ρ t w) a := by
  cases t <;> rfl

abbrev rn (ρ : Bytes → Bytes) (i : List Item) : List Item := i.map (renameItem ρ)

/-- The texts that are not renamed as items are not renamed in the tree. -/
def Keeps (ρ : Bytes → Bytes) (i : List Item) : Prop :=
  ∀ t w a, .tok t w a ∈ i → (t.isWord = true ∧ t ≠ .Identifier) ∨ t = .LiteralString ∨ t = .LiteralNumber ∨ t = .Import → ρ w = w

theorem Keeps.sub (h : Keeps ρ i) (hs : j <:+ i) : Keeps ρ j := fun t w a hm => h t w a (hs.mem hm)
theorem Keeps.tail {x : Item} (h : Keeps ρ (x :: i)) : Keeps ρ i := h.sub (List.suffix_cons _ _)

theorem Keeps.swap {w w' : Bytes} {a : Asi} (h : Keeps ρ (.tok .Import w a :: i)) : Keeps ρ (.tok .Identifier w' a :: i) := by
  intro t v b hm ht
  rcases List.mem_cons.1 hm with he | he
  · cases he
    simp at ht
  · exact h t v b (List.mem_cons_of_mem _ he) ht

theorem renameItem_token (ρ : Bytes → Bytes) (x : Item) : (renameItem ρ x).token = x.token := by
  cases x with
  | tok t w a => rw [renameItem_tok]; rfl
  | _ => rfl

@[simp] theorem rn_look (ρ : Bytes → Bytes) (i : List Item) : look (rn ρ i) = look i := by
  cases i with
  | nil => rfl
  | cons x r => exact renameItem_token ρ x

@[simp] theorem rn_semicolon (ρ : Bytes → Bytes) (i : List Item) : semicolon (rn ρ i) = semicolon i := by
  cases i with
  | nil => rfl
  | cons x r => cases x with
    | tok t w a => simp only [rn, List.map_cons, renameItem_tok]; rfl
    | _ => rfl

@[simp] theorem rn_continues (ρ : Bytes → Bytes) (k : Nat) (i : List Item) : continues k (rn ρ i) = continues k i := by
  simp only [continues, rn_look, rn_semicolon]

@[simp] theorem rn_target (ρ : Bytes → Bytes) (e : Expr) : target (renameExpr ρ e) = target e := by
  cases e <;> rfl

theorem Spec.Tk.rn {t : Token} (h : Tk t i j) (ρ : Bytes → Bytes) : Tk t (rn ρ i) (rn ρ j) := by
  obtain ⟨w, a, rfl⟩ := h
  exact ⟨rnText ρ t w, a, by simp only [Ratel.rn, List.map_cons, renameItem_tok]⟩
theorem Spec.Wd.rn {t : Token} {w : Bytes} (h : Wd t w i j) (ρ : Bytes → Bytes) : Wd t (rnText ρ t w) (rn ρ i) (rn ρ j) := by
  obtain ⟨a, rfl⟩ := h
  exact ⟨a, by simp only [Ratel.rn, List.map_cons, renameItem_tok]⟩
theorem Spec.Wd.rnEq {t : Token} {w w' : Bytes} (h : Wd t w i j) (hw : rnText ρ t w = w') : Wd t w' (Ratel.rn ρ i) (Ratel.rn ρ j) := hw ▸ h.rn ρ

theorem Renaming.ctx (hρ : Renaming ρ) {c : Bytes} (hc : c ∈ Spec.contextual) : ρ c = c := (hρ.contextual c c hc).2 rfl

theorem Spec.Wd.rnCtx {t : Token} {w : Bytes} (h : Wd t w i j) (hρ : Renaming ρ) (hc : w ∈ Spec.contextual) :
    Wd t w (Ratel.rn ρ i) (Ratel.rn ρ j) := by
  refine h.rnEq ?_
  have := Renaming.ctx hρ hc
  cases t <;> first | rfl | exact this

theorem Spec.Wd.rnLit {t : Token} {w : Bytes} {v : Literal} (h : Wd t w i j) (ρ : Bytes → Bytes) (hv : literalOf t w = .some v) :
    Wd t w (Ratel.rn ρ i) (Ratel.rn ρ j) := by
  refine h.rnEq ?_
  cases t <;> first | rfl | cases hv

theorem Spec.Wd.mem {t : Token} {w : Bytes} (h : Wd t w i j) : ∃ a, .tok t w a ∈ i := by
  obtain ⟨a, rfl⟩ := h; exact ⟨a, List.mem_cons_self ..⟩

theorem Spec.Wd.rnWord {t : Token} {w : Bytes} (h : Wd t w i j) (hk : Keeps ρ i) (ht : t.isWord = true) :
    Wd t (ρ w) (Ratel.rn ρ i) (Ratel.rn ρ j) := by
  refine h.rnEq ?_
  obtain ⟨a, ha⟩ := h.mem
  by_cases hi : t = .Identifier
  · subst hi; rfl
  have := hk t w a ha (.inl ⟨ht, hi⟩)
  rw [this]
  cases t <;> first | rfl | exact this

theorem Spec.Wd.rnTwo {t : Token} {w : Bytes} (h : Wd t w i j) (hk : Keeps ρ i) (ht : t = .LiteralString ∨ t = .LiteralNumber) :
    Wd t (ρ w) (Ratel.rn ρ i) (Ratel.rn ρ j) := by
  refine h.rnEq ?_
  obtain ⟨a, ha⟩ := h.mem
  rw [hk t w a ha (.inr (ht.imp id .inl))]
  rcases ht with rfl | rfl <;> rfl

theorem Spec.Semi.rn (h : Semi i j) (ρ : Bytes → Bytes) : Semi (rn ρ i) (rn ρ j) := by
  cases h with
  | written => exact .written
  | inserted h => exact .inserted (by simpa using h)
theorem Spec.OptSemi.rn (h : OptSemi i j) (ρ : Bytes → Bytes) : OptSemi (rn ρ i) (rn ρ j) := by
  cases h with
  | written h => exact .written (h.rn ρ)
  | absent h => exact .absent (by simpa using h)
theorem Spec.NameAt.rn {k : Naming} {x : Name} (h : NameAt k i x j) (ρ : Bytes → Bytes) : NameAt k (rn ρ i) (renameName ρ x) (rn ρ j) := by
  cases h with
  | never => exact .never
  | given h => exact .given (h.rn ρ)
  | missing h => exact .missing (by simpa using h)
  | always h => exact .always (h.rn ρ)
theorem Spec.StarAt.rn {b : Bool} (h : StarAt i b j) (ρ : Bytes → Bytes) : StarAt (rn ρ i) b (rn ρ j) := by
  cases h with
  | yes h => exact .yes (h.rn ρ)
  | no h => exact .no (by simpa using h)
theorem Spec.StaticAt.rn {b : Bool} (h : StaticAt i b j) (ρ : Bytes → Bytes) : StaticAt (rn ρ i) b (rn ρ j) := by
  cases h with
  | yes h => exact .yes (h.rn ρ)
  | no h => exact .no (by simpa using h)
theorem Spec.ImportName.rn {s : ImportSpec} (h : ImportName i s j) (hρ : Renaming ρ) : ImportName (rn ρ i) (renameSpec ρ s) (rn ρ j) := by
  cases h with
  | plain h h' =>
    refine .plain (h.rn ρ) ?_
    rintro n ⟨a, hn⟩
    cases j with
    | nil => cases hn
    | cons x r =>
      simp only [Ratel.rn, List.map_cons, List.cons.injEq] at hn
      cases x with
      | tok t w b =>
        rw [renameItem_tok] at hn
        simp only [Item.tok.injEq] at hn
        obtain ⟨⟨rfl, hw, rfl⟩, -⟩ := hn
        have := (hρ.contextual w bs!"as" (by decide)).1 hw
        subst this
        exact h' r ⟨_, rfl⟩
      | _ => simp [renameItem] at hn
  | renamed h h1 h2 => exact .renamed (h.rn ρ) (h1.rnCtx hρ (by decide)) (h2.rn ρ)
theorem Spec.ImportNames.rn {s : List ImportSpec} (h : ImportNames i s j) (hρ : Renaming ρ) :
    ImportNames (rn ρ i) (s.map (renameSpec ρ)) (rn ρ j) := by
  induction h with
  | last h h1 => exact .last (h.rn hρ) (h1.rn ρ)
  | more h h1 _ ih => exact .more (h.rn hρ) (h1.rn ρ) ih
theorem Spec.ImportGroup.rn {s : List ImportSpec} (h : ImportGroup i s j) (hρ : Renaming ρ) :
    ImportGroup (rn ρ i) (s.map (renameSpec ρ)) (rn ρ j) := by
  cases h with
  | names h h1 => exact .names (h.rn ρ) (h1.rn hρ)
  | all h h1 h2 => exact .all (h.rn ρ) (h1.rnCtx hρ (by decide)) (h2.rn ρ)
theorem Spec.ImportHead.rn {s : List ImportSpec} (h : ImportHead i s j) (hρ : Renaming ρ) :
    ImportHead (rn ρ i) (s.map (renameSpec ρ)) (rn ρ j) := by
  cases h with
  | one h h' => exact .one (h.rn ρ) (by simpa using h')
  | both h h1 h2 => exact .both (h.rn ρ) (h1.rn ρ) (h2.rn hρ)
  | group h => exact .group (h.rn hρ)

theorem rn_paramOf (ρ : Bytes → Bytes) : ∀ {e : Expr} {p : Pattern}, paramOf e = some p → paramOf (renameExpr ρ e) = some (renamePat ρ p)
  | .ident l n, p, h => by simp only [paramOf, Option.some.injEq] at h; subst h; rfl
  | .binary l op a b, p, h => by
    cases op <;> simp only [paramOf, Option.map_eq_some_iff, reduceCtorEq] at h
    obtain ⟨q, hq, rfl⟩ := h
    simp only [renameExpr, paramOf, rn_paramOf ρ hq, Option.map_some, renamePat]
  | .void _, _, h | .this _, _, h | .lit .., _, h | .seq .., _, h | .array .., _, h | .member .., _, h | .cmember .., _, h
  | .metaProp .., _, h | .call .., _, h | .prefix .., _, h | .postfix .., _, h | .cond .., _, h | .template .., _, h
  | .tagged .., _, h | .spread .., _, h | .arrowE .., _, h | .arrowB .., _, h | .object .., _, h | .function .., _, h
  | .class .., _, h => by simp [paramOf] at h

theorem rn_paramList (ρ : Bytes → Bytes) : ∀ {es : List Expr} {ps : List Pattern}, es.mapM paramOf = some ps →
    (renameExprs ρ es).mapM paramOf = some (renamePats ρ ps)
  | [], ps, h => by simp at h; subst h; rfl
  | e :: es, ps, h => by
    simp only [List.mapM_cons, Option.bind_eq_bind, Option.bind_eq_some_iff, Option.pure_def, Option.some.injEq] at h
    obtain ⟨p, hp, qs, hq, rfl⟩ := h
    simp [renameExprs, renamePats, List.mapM_cons, rn_paramOf ρ hp, rn_paramList ρ hq]

theorem rn_paramsOf (ρ : Bytes → Bytes) {e : Expr} {ps : List Pattern} (h : paramsOf e = some ps) :
    paramsOf (renameExpr ρ e) = some (renamePats ρ ps) := by
  cases e with
  | seq l es => exact rn_paramList ρ h
  | ident l n => simp only [paramsOf, paramOf, Option.map_some, Option.some.injEq] at h; subst h; rfl
  | binary l op a b =>
    simp only [paramsOf, Option.map_eq_some_iff] at h
    obtain ⟨p, hp, rfl⟩ := h
    have := rn_paramOf ρ hp
    simp only [renameExpr] at this ⊢
    simp only [paramsOf, this, Option.map_some, renamePats]
  | _ => simp [paramsOf, paramOf] at h

theorem rn_nil {i : List Item} (h : i ≠ []) : rn ρ i ≠ [] := by simpa using h
theorem rn_noStmts {ss : List Stmt} (h : renameStmts ρ ss = []) : ss = [] := by cases ss <;> simp [renameStmts] at h ⊢
theorem rn_noMembers {ss : List ClassMember} (h : renameMembers ρ ss = []) : ss = [] := by cases ss <;> simp [renameMembers] at h ⊢
theorem rn_tail (ρ : Bytes → Bytes) (i : List Item) : (rn ρ i).tail = rn ρ i.tail := by simp

theorem rn_isIn {e : Expr} (h : ∀ a b, e ≠ .binary z .In a b) (a b : Expr) : renameExpr ρ e ≠ .binary z .In a b := by
  cases e with
  | binary l op x y =>
    simp only [renameExpr]
    intro he
    injection he with h1 h2
    subst h1 h2
    exact h x y rfl
  | _ => simp [renameExpr]

/-- The phrase of the renamed program. -/
def rnPhrase (ρ : Bytes → Bytes) : Phrase → Phrase
  | .expr k e => .expr k (renameExpr ρ e)
  | .whole k e => .whole k (renameExpr ρ e)
  | .commaTail es => .commaTail (renameExprs ρ es)
  | .arg e => .arg (renameExpr ρ e)
  | .args es => .args (renameExprs ρ es)
  | .elem e => .elem (renameExpr ρ e)
  | .elems es => .elems (renameExprs ρ es)
  | .template es qs => .template (renameExprs ρ es) qs
  | .templateTail es qs => .templateTail (renameExprs ρ es) qs
  | .prop p => .prop (renameProp ρ p)
  | .props ps => .props (renameProps ρ ps)
  | .propValue k p => .propValue (renameKey ρ k) (renameProp ρ p)
  | .pat p => .pat (renamePat ρ p)
  | .param p => .param (renamePat ρ p)
  | .params ps => .params (renamePats ρ ps)
  | .patElem p => .patElem (renamePat ρ p)
  | .patElems ps => .patElems (renamePats ρ ps)
  | .func k f => .func k (renameFunc ρ f)
  | .cls k c => .cls k (renameClass ρ c)
  | .member m => .member (renameMember ρ m)
  | .memberValue s kd k m => .memberValue s kd (renameKey ρ k) (renameMember ρ m)
  | .membersTail ms => .membersTail (renameMembers ρ ms)
  | .block b => .block (renameBlock ρ b)
  | .stmtsTail ss => .stmtsTail (renameStmts ρ ss)
  | .stmt s => .stmt (renameStmt ρ s)
  | .declarator d => .declarator (renameDeclarator ρ d)
  | .declarators ds => .declarators (renameDeclarators ρ ds)
  | .optExpr t e => .optExpr t (match e with | some e => some (renameExpr ρ e) | none => none)
  | .forInit i => .forInit (renameInit ρ i)
  | .switchCase c => .switchCase (renameCase ρ c)
  | .cases cs => .cases (renameCases ρ cs)
  | .caseBody ss => .caseBody (renameStmts ρ ss)
  | .catch c => .catch (renameCatch ρ c)
  | .program ss => .program (renameStmts ρ ss)

theorem Spec.G.rn {i j : List Item} {x : Phrase} (hρ : Renaming ρ) (h : G i x j) :
    Keeps ρ i → G (rn ρ i) (rnPhrase ρ x) (rn ρ j) := by
  induction h with
  | @whole i j k e h h' ih_h =>
    intro wf
    have wf_j := wf.sub h.suffix
    exact G.whole (ih_h wf) (by simpa [rn_look, rn_semicolon, rn_continues, rn_target] using h')
  | @ident i j k w hk h  =>
    intro wf
    have wf_j := wf.sub h.suffix
    exact G.ident hk (h.rn ρ)
  | @this i j k hk h  =>
    intro wf
    have wf_j := wf.sub h.suffix
    exact G.this hk (h.rn ρ)
  | @lit i j k t w v hk h hv  =>
    intro wf
    have wf_j := wf.sub h.suffix
    exact G.lit hk (h.rnLit ρ hv) hv
  | @regex j k w a hk  =>
    intro wf
    exact G.regex hk
  | @array i m n j k es hk h h0 h1 h2 ih_h1 =>
    intro wf
    have wf_m := wf.sub h.suffix
    have wf_n := wf_m.sub h1.suffix
    have wf_j := wf_n.sub h2.suffix
    exact G.array hk (h.rn ρ) (by simpa [rn_look, rn_semicolon, rn_continues, rn_target] using h0) (ih_h1 wf_m) (h2.rn ρ)
  | @emptyArray i m j k hk h h2  =>
    intro wf
    have wf_m := wf.sub h.suffix
    have wf_j := wf_m.sub h2.suffix
    exact G.emptyArray hk (h.rn ρ) (h2.rn ρ)
  | @object i m n j k ps hk h h1 h2 ih_h1 =>
    intro wf
    have wf_m := wf.sub h.suffix
    have wf_n := wf_m.sub h1.suffix
    have wf_j := wf_n.sub h2.suffix
    exact G.object hk (h.rn ρ) (ih_h1 wf_m) (h2.rn ρ)
  | @function i m j k f hk h h1 ih_h1 =>
    intro wf
    have wf_m := wf.sub h.suffix
    have wf_j := wf_m.sub h1.suffix
    exact G.function hk (h.rn ρ) (ih_h1 wf_m)
  | @«class» i m j k c hk h h1 ih_h1 =>
    intro wf
    have wf_m := wf.sub h.suffix
    have wf_j := wf_m.sub h1.suffix
    exact G.«class» hk (h.rn ρ) (ih_h1 wf_m)
  | @template i j k es qs hk h ih_h =>
    intro wf
    have wf_j := wf.sub h.suffix
    exact G.template hk (ih_h wf)
  | @paren i m n j k e hk h h1 h2 ih_h1 =>
    intro wf
    have wf_m := wf.sub h.suffix
    have wf_n := wf_m.sub h1.suffix
    have wf_j := wf_n.sub h2.suffix
    exact G.paren hk (h.rn ρ) (ih_h1 wf_m) (h2.rn ρ)
  | @newTarget i m j k hk h h1  =>
    intro wf
    have wf_m := wf.sub h.suffix
    have wf_j := wf_m.sub h1.suffix
    simp only [rnPhrase, renameExpr, renameIdent, Renaming.ctx hρ (c := bs!"target") (by decide), hρ.keyword bs!"new" (by decide)]
    exact G.newTarget hk (h.rn ρ) (h1.rnCtx hρ (by decide))
  | @member i m j k e w hk h h1 ih_h =>
    intro wf
    have wf_m := wf.sub h.suffix
    have wf_j := wf_m.sub h1.suffix
    exact G.member hk (ih_h wf) (h1.rn ρ)
  | @index i m n o j k e p hk h h1 h2 h3 ih_h ih_h2 =>
    intro wf
    have wf_m := wf.sub h.suffix
    have wf_n := wf_m.sub h1.suffix
    have wf_o := wf_n.sub h2.suffix
    have wf_j := wf_o.sub h3.suffix
    exact G.index hk (ih_h wf) (h1.rn ρ) (ih_h2 wf_n) (h3.rn ρ)
  | @call i m n o j k e es hk h h1 h2 h3 ih_h ih_h2 =>
    intro wf
    have wf_m := wf.sub h.suffix
    have wf_n := wf_m.sub h1.suffix
    have wf_o := wf_n.sub h2.suffix
    have wf_j := wf_o.sub h3.suffix
    exact G.call hk (ih_h wf) (h1.rn ρ) (ih_h2 wf_n) (h3.rn ρ)
  | @tagged i m j k e es qs hk h h1 ih_h ih_h1 =>
    intro wf
    have wf_m := wf.sub h.suffix
    have wf_j := wf_m.sub h1.suffix
    exact G.tagged hk (ih_h wf) (ih_h1 wf_m)
  | @«postfix» i j k e t w a op hk h he hop ha ih_h =>
    intro wf
    have ih := ih_h wf
    simp only [Ratel.rn, List.map_cons, renameItem_tok] at ih
    exact G.«postfix» hk ih (by simpa using he) hop ha
  | @arrow i m n j k e ps b hk h hp h1 hb h2 ih_h ih_h2 =>
    intro wf
    have wf_m := wf.sub h.suffix
    have wf_n := wf_m.sub h1.suffix
    have wf_j := wf_n.sub h2.suffix
    exact G.arrow hk (ih_h wf) (rn_paramsOf ρ hp) (h1.rn ρ) (by simpa [rn_look, rn_semicolon, rn_continues, rn_target] using hb) (ih_h2 wf_n)
  | @arrowBlock i m n j k e ps b hk h hp h1 h2 ih_h ih_h2 =>
    intro wf
    have wf_m := wf.sub h.suffix
    have wf_n := wf_m.sub h1.suffix
    have wf_j := wf_n.sub h2.suffix
    exact G.arrowBlock hk (ih_h wf) (rn_paramsOf ρ hp) (h1.rn ρ) (ih_h2 wf_n)
  | @arrow0 i m n o j k b hk h h0 h1 hb h2 ih_h2 =>
    intro wf
    have wf_m := wf.sub h.suffix
    have wf_n := wf_m.sub h0.suffix
    have wf_o := wf_n.sub h1.suffix
    have wf_j := wf_o.sub h2.suffix
    exact G.arrow0 hk (h.rn ρ) (h0.rn ρ) (h1.rn ρ) (by simpa [rn_look, rn_semicolon, rn_continues, rn_target] using hb) (ih_h2 wf_o)
  | @arrowBlock0 i m n o j k b hk h h0 h1 h2 ih_h2 =>
    intro wf
    have wf_m := wf.sub h.suffix
    have wf_n := wf_m.sub h0.suffix
    have wf_o := wf_n.sub h1.suffix
    have wf_j := wf_o.sub h2.suffix
    exact G.arrowBlock0 hk (h.rn ρ) (h0.rn ρ) (h1.rn ρ) (ih_h2 wf_o)
  | @«prefix» i m j k t op e hk h hop h1 ih_h1 =>
    intro wf
    have wf_m := wf.sub h.suffix
    have wf_j := wf_m.sub h1.suffix
    exact G.«prefix» hk (h.rn ρ) hop (ih_h1 wf_m)
  | @new i m j k e hk h hm h1 ih_h1 =>
    intro wf
    have wf_m := wf.sub h.suffix
    have wf_j := wf_m.sub h1.suffix
    exact G.new hk (h.rn ρ) (by simpa [rn_look, rn_semicolon, rn_continues, rn_target] using hm) (ih_h1 wf_m)
  | @binary i m n j k t op p a b hop hk h h1 h2 ih_h ih_h2 =>
    intro wf
    have wf_m := wf.sub h.suffix
    have wf_n := wf_m.sub h1.suffix
    have wf_j := wf_n.sub h2.suffix
    exact G.binary hop hk (ih_h wf) (h1.rn ρ) (ih_h2 wf_n)
  | @cond i m n o q j k a b c hk h h1 h2 h3 h4 ih_h ih_h2 ih_h4 =>
    intro wf
    have wf_m := wf.sub h.suffix
    have wf_n := wf_m.sub h1.suffix
    have wf_o := wf_n.sub h2.suffix
    have wf_q := wf_o.sub h3.suffix
    have wf_j := wf_q.sub h4.suffix
    exact G.cond hk (ih_h wf) (h1.rn ρ) (ih_h2 wf_n) (h3.rn ρ) (ih_h4 wf_q)
  | @assign i m n j k t op a b hk h ha h1 hop h2 ih_h ih_h2 =>
    intro wf
    have wf_m := wf.sub h.suffix
    have wf_n := wf_m.sub h1.suffix
    have wf_j := wf_n.sub h2.suffix
    exact G.assign hk (ih_h wf) (by simpa [rn_look, rn_semicolon, rn_continues, rn_target] using ha) (h1.rn ρ) hop (ih_h2 wf_n)
  | @comma i m n j a es h h1 h2 ih_h ih_h2 =>
    intro wf
    have wf_m := wf.sub h.suffix
    have wf_n := wf_m.sub h1.suffix
    have wf_j := wf_n.sub h2.suffix
    exact G.comma (ih_h wf) (h1.rn ρ) (ih_h2 wf_n)
  | @commaLast i j e h h' ih_h =>
    intro wf
    have wf_j := wf.sub h.suffix
    exact G.commaLast (ih_h wf) (by simpa [rn_look, rn_semicolon, rn_continues, rn_target] using h')
  | @commaMore i m n j e es h h1 h2 ih_h ih_h2 =>
    intro wf
    have wf_m := wf.sub h.suffix
    have wf_n := wf_m.sub h1.suffix
    have wf_j := wf_n.sub h2.suffix
    exact G.commaMore (ih_h wf) (h1.rn ρ) (ih_h2 wf_n)
  | @arg i j e h ih_h =>
    intro wf
    have wf_j := wf.sub h.suffix
    exact G.arg (ih_h wf)
  | @argSpread i m j e h h1 ih_h1 =>
    intro wf
    have wf_m := wf.sub h.suffix
    have wf_j := wf_m.sub h1.suffix
    exact G.argSpread (h.rn ρ) (ih_h1 wf_m)
  | @argsNone j h  =>
    intro wf
    exact G.argsNone (by simpa [rn_look, rn_semicolon, rn_continues, rn_target] using h)
  | @argsLast i j e h h' ih_h =>
    intro wf
    have wf_j := wf.sub h.suffix
    exact G.argsLast (ih_h wf) (by simpa [rn_look, rn_semicolon, rn_continues, rn_target] using h')
  | @argsMore i m n j e es h h1 h2 ih_h ih_h2 =>
    intro wf
    have wf_m := wf.sub h.suffix
    have wf_n := wf_m.sub h1.suffix
    have wf_j := wf_n.sub h2.suffix
    exact G.argsMore (ih_h wf) (h1.rn ρ) (ih_h2 wf_n)
  | @elem i j e h ih_h =>
    intro wf
    have wf_j := wf.sub h.suffix
    exact G.elem (ih_h wf)
  | @elemSpread i m j e h h1 ih_h1 =>
    intro wf
    have wf_m := wf.sub h.suffix
    have wf_j := wf_m.sub h1.suffix
    exact G.elemSpread (h.rn ρ) (ih_h1 wf_m)
  | @elemHole j h  =>
    intro wf
    exact G.elemHole (by simpa [rn_look, rn_semicolon, rn_continues, rn_target] using h)
  | @elemsLast i j e h h' ih_h =>
    intro wf
    have wf_j := wf.sub h.suffix
    exact G.elemsLast (ih_h wf) (by simpa [rn_look, rn_semicolon, rn_continues, rn_target] using h')
  | @elemsMore i m n j e es h h1 h2 ih_h ih_h2 =>
    intro wf
    have wf_m := wf.sub h.suffix
    have wf_n := wf_m.sub h1.suffix
    have wf_j := wf_n.sub h2.suffix
    exact G.elemsMore (ih_h wf) (h1.rn ρ) (ih_h2 wf_n)
  | @templateClosed i j w h  =>
    intro wf
    have wf_j := wf.sub h.suffix
    exact G.templateClosed (h.rn ρ)
  | @templateOpen i m n j w e es qs h h1 h2 ih_h1 ih_h2 =>
    intro wf
    have wf_m := wf.sub h.suffix
    have wf_n := wf_m.sub h1.suffix
    have wf_j := wf_n.sub h2.suffix
    exact G.templateOpen (h.rn ρ) (ih_h1 wf_m) (ih_h2 wf_n)
  | @templateEnd j w  =>
    intro wf
    exact G.templateEnd 
  | @templateMore m n j w e es qs h1 h2 ih_h1 ih_h2 =>
    intro wf
    exact G.templateMore (ih_h1 wf.tail) (ih_h2 (wf.tail.sub h1.suffix))
  | @shorthand i j t w h ht h1 h2  =>
    intro wf
    have wf_j := wf.sub h.suffix
    exact G.shorthand (h.rnWord wf ht) ht (by simpa [rn_look, rn_semicolon, rn_continues, rn_target] using h1) (by simpa [rn_look, rn_semicolon, rn_continues, rn_target] using h2)
  | @propWord i m j t w p h ht h1 ih_h1 =>
    intro wf
    have wf_m := wf.sub h.suffix
    have wf_j := wf_m.sub h1.suffix
    exact G.propWord (h.rnWord wf ht) ht (ih_h1 wf_m)
  | @propLiteral i m j t w p h ht h1 ih_h1 =>
    intro wf
    have wf_m := wf.sub h.suffix
    have wf_j := wf_m.sub h1.suffix
    exact G.propLiteral (h.rnTwo wf ht) ht (ih_h1 wf_m)
  | @propBinary i m j w p h h1 ih_h1 =>
    intro wf
    have wf_m := wf.sub h.suffix
    have wf_j := wf_m.sub h1.suffix
    exact G.propBinary (h.rn ρ) (ih_h1 wf_m)
  | @propComputed i m n o j e p h h1 h2 h3 ih_h1 ih_h3 =>
    intro wf
    have wf_m := wf.sub h.suffix
    have wf_n := wf_m.sub h1.suffix
    have wf_o := wf_n.sub h2.suffix
    have wf_j := wf_o.sub h3.suffix
    exact G.propComputed (h.rn ρ) (ih_h1 wf_m) (h2.rn ρ) (ih_h3 wf_o)
  | @propSpread i m j e h h1 ih_h1 =>
    intro wf
    have wf_m := wf.sub h.suffix
    have wf_j := wf_m.sub h1.suffix
    exact G.propSpread (h.rn ρ) (ih_h1 wf_m)
  | @propField i m j k e h h1 ih_h1 =>
    intro wf
    have wf_m := wf.sub h.suffix
    have wf_j := wf_m.sub h1.suffix
    exact G.propField (h.rn ρ) (ih_h1 wf_m)
  | @propMethod i j k f h h1 ih_h1 =>
    intro wf
    have wf_j := wf.sub h1.suffix
    exact G.propMethod (by simpa [rn_look, rn_semicolon, rn_continues, rn_target] using h) (ih_h1 wf)
  | @propsNone j h  =>
    intro wf
    exact G.propsNone (by simpa [rn_look, rn_semicolon, rn_continues, rn_target] using h)
  | @propsLast i j p h h' ih_h =>
    intro wf
    have wf_j := wf.sub h.suffix
    exact G.propsLast (ih_h wf) (by simpa [rn_look, rn_semicolon, rn_continues, rn_target] using h')
  | @propsMore i m n j p ps h h1 h2 ih_h ih_h2 =>
    intro wf
    have wf_m := wf.sub h.suffix
    have wf_n := wf_m.sub h1.suffix
    have wf_j := wf_n.sub h2.suffix
    exact G.propsMore (ih_h wf) (h1.rn ρ) (ih_h2 wf_n)
  | @patIdent i j w h  =>
    intro wf
    have wf_j := wf.sub h.suffix
    exact G.patIdent (h.rn ρ)
  | @patArray i m n j ps h h0 h1 h2 ih_h1 =>
    intro wf
    have wf_m := wf.sub h.suffix
    have wf_n := wf_m.sub h1.suffix
    have wf_j := wf_n.sub h2.suffix
    exact G.patArray (h.rn ρ) (by simpa [rn_look, rn_semicolon, rn_continues, rn_target] using h0) (ih_h1 wf_m) (h2.rn ρ)
  | @patEmptyArray i m j h h2  =>
    intro wf
    have wf_m := wf.sub h.suffix
    have wf_j := wf_m.sub h2.suffix
    exact G.patEmptyArray (h.rn ρ) (h2.rn ρ)
  | @patObject i m n j ps h h1 h2 ih_h1 =>
    intro wf
    have wf_m := wf.sub h.suffix
    have wf_n := wf_m.sub h1.suffix
    have wf_j := wf_n.sub h2.suffix
    exact G.patObject (h.rn ρ) (ih_h1 wf_m) (h2.rn ρ)
  | @param i j p h h' ih_h =>
    intro wf
    have wf_j := wf.sub h.suffix
    exact G.param (ih_h wf) (by simpa [rn_look, rn_semicolon, rn_continues, rn_target] using h')
  | @paramDefault i m n j p e h h1 h2 ih_h ih_h2 =>
    intro wf
    have wf_m := wf.sub h.suffix
    have wf_n := wf_m.sub h1.suffix
    have wf_j := wf_n.sub h2.suffix
    exact G.paramDefault (ih_h wf) (h1.rn ρ) (ih_h2 wf_n)
  | @patElem i j p h ih_h =>
    intro wf
    have wf_j := wf.sub h.suffix
    exact G.patElem (ih_h wf)
  | @patHole j h  =>
    intro wf
    exact G.patHole (by simpa [rn_look, rn_semicolon, rn_continues, rn_target] using h)
  | @patElemsLast i j p h h' ih_h =>
    intro wf
    have wf_j := wf.sub h.suffix
    exact G.patElemsLast (ih_h wf) (by simpa [rn_look, rn_semicolon, rn_continues, rn_target] using h')
  | @patElemsMore i m n j p ps h h1 h2 ih_h ih_h2 =>
    intro wf
    have wf_m := wf.sub h.suffix
    have wf_n := wf_m.sub h1.suffix
    have wf_j := wf_n.sub h2.suffix
    exact G.patElemsMore (ih_h wf) (h1.rn ρ) (ih_h2 wf_n)
  | @paramsNone i j h  =>
    intro wf
    have wf_j := wf.sub h.suffix
    exact G.paramsNone (h.rn ρ)
  | @paramsRest i m n j w h h1 h2  =>
    intro wf
    have wf_m := wf.sub h.suffix
    have wf_n := wf_m.sub h1.suffix
    have wf_j := wf_n.sub h2.suffix
    exact G.paramsRest (h.rn ρ) (h1.rn ρ) (h2.rn ρ)
  | @paramsLast i m j p h h1 ih_h =>
    intro wf
    have wf_m := wf.sub h.suffix
    have wf_j := wf_m.sub h1.suffix
    exact G.paramsLast (ih_h wf) (h1.rn ρ)
  | @paramsMore i m n j p ps h h1 h2 ih_h ih_h2 =>
    intro wf
    have wf_m := wf.sub h.suffix
    have wf_n := wf_m.sub h1.suffix
    have wf_j := wf_n.sub h2.suffix
    exact G.paramsMore (ih_h wf) (h1.rn ρ) (ih_h2 wf_n)
  | @func i m n o q j nk g nm ps b h h1 h2 h3 h4 ih_h3 ih_h4 =>
    intro wf
    have wf_m := wf.sub h.suffix
    have wf_n := wf_m.sub h1.suffix
    have wf_o := wf_n.sub h2.suffix
    have wf_q := wf_o.sub h3.suffix
    have wf_j := wf_q.sub h4.suffix
    exact G.func (h.rn ρ) (h1.rn ρ) (h2.rn ρ) (ih_h3 wf_o) (ih_h4 wf_q)
  | @cls i m n j nk nm ms h h1 h2 h0 ih_h2 =>
    intro wf
    have wf_m := wf.sub h.suffix
    have wf_n := wf_m.sub h1.suffix
    have wf_j := wf_n.sub h2.suffix
    exact G.cls (h.rn ρ) (h1.rn ρ) (ih_h2 wf_n) (fun h => rn_nil (h0 (rn_noMembers h)))
  | @clsExtends i m n o q j nk nm e ms h h1 h2 h3 h4 h0 ih_h2 ih_h4 =>
    intro wf
    have wf_m := wf.sub h.suffix
    have wf_n := wf_m.sub h1.suffix
    have wf_o := wf_n.sub h2.suffix
    have wf_q := wf_o.sub h3.suffix
    have wf_j := wf_q.sub h4.suffix
    exact G.clsExtends (h.rn ρ) (h1.rn ρ) (ih_h2 wf_n) (h3.rn ρ) (ih_h4 wf_q) (fun h => rn_nil (h0 (rn_noMembers h)))
  | @memberWord i m n j s t w x h h1 ht hn h2 ih_h2 =>
    intro wf
    have wf_m := wf.sub h.suffix
    have wf_n := wf_m.sub h1.suffix
    have wf_j := wf_n.sub h2.suffix
    exact G.memberWord (h.rn ρ) (h1.rnWord wf_m ht) ht (by rw [rn_look]; exact hn) (by simpa only [rnPhrase, renameKey, hρ.contextual w bs!"constructor" (by decide)] using ih_h2 wf_n)
  | @memberGet i m n o j s t t' w x h h1 ht h2 ht' h3 ih_h3 =>
    intro wf
    have wf_m := wf.sub h.suffix
    have wf_n := wf_m.sub h1.suffix
    have wf_o := wf_n.sub h2.suffix
    have wf_j := wf_o.sub h3.suffix
    exact G.memberGet (h.rn ρ) (h1.rnCtx hρ (by decide)) ht (h2.rnWord wf_n ht') ht' (ih_h3 wf_o)
  | @memberSet i m n o j s t t' w x h h1 ht h2 ht' h3 ih_h3 =>
    intro wf
    have wf_m := wf.sub h.suffix
    have wf_n := wf_m.sub h1.suffix
    have wf_o := wf_n.sub h2.suffix
    have wf_j := wf_o.sub h3.suffix
    exact G.memberSet (h.rn ρ) (h1.rnCtx hρ (by decide)) ht (h2.rnWord wf_n ht') ht' (ih_h3 wf_o)
  | @memberNumber i m n j s w x h h1 h2 ih_h2 =>
    intro wf
    have wf_m := wf.sub h.suffix
    have wf_n := wf_m.sub h1.suffix
    have wf_j := wf_n.sub h2.suffix
    exact G.memberNumber (h.rn ρ) (h1.rnTwo wf_m (.inr rfl)) (ih_h2 wf_n)
  | @memberBinary i m n j s w x h h1 h2 ih_h2 =>
    intro wf
    have wf_m := wf.sub h.suffix
    have wf_n := wf_m.sub h1.suffix
    have wf_j := wf_n.sub h2.suffix
    exact G.memberBinary (h.rn ρ) (h1.rn ρ) (ih_h2 wf_n)
  | @memberComputed i m n o q j s e x h h1 h2 h3 h4 ih_h2 ih_h4 =>
    intro wf
    have wf_m := wf.sub h.suffix
    have wf_n := wf_m.sub h1.suffix
    have wf_o := wf_n.sub h2.suffix
    have wf_q := wf_o.sub h3.suffix
    have wf_j := wf_q.sub h4.suffix
    exact G.memberComputed (h.rn ρ) (h1.rn ρ) (ih_h2 wf_n) (h3.rn ρ) (ih_h4 wf_q)
  | @memberMethod i m j s kd k f h h1 h2 ih_h1 =>
    intro wf
    have wf_m := wf.sub h1.suffix
    have wf_j := wf_m.sub h2.suffix
    exact G.memberMethod (by simpa [rn_look, rn_semicolon, rn_continues, rn_target] using h) (ih_h1 wf) (h2.rn ρ)
  | @memberField i m n j s kd k e h h1 h2 ih_h1 =>
    intro wf
    have wf_m := wf.sub h.suffix
    have wf_n := wf_m.sub h1.suffix
    have wf_j := wf_n.sub h2.suffix
    exact G.memberField (h.rn ρ) (ih_h1 wf_m) (h2.rn ρ)
  | @membersClose i j h  =>
    intro wf
    have wf_j := wf.sub h.suffix
    exact G.membersClose (h.rn ρ)
  | @membersEnd   =>
    intro wf
    exact G.membersEnd 
  | @membersMore i m j x xs h h1 ih_h ih_h1 =>
    intro wf
    have wf_m := wf.sub h.suffix
    have wf_j := wf_m.sub h1.suffix
    exact G.membersMore (ih_h wf) (ih_h1 wf_m)
  | @block i m j ss h h1 h0 ih_h1 =>
    intro wf
    have wf_m := wf.sub h.suffix
    have wf_j := wf_m.sub h1.suffix
    exact G.block (h.rn ρ) (ih_h1 wf_m) (fun h => rn_nil (h0 (rn_noStmts h)))
  | @stmtsClose i j h  =>
    intro wf
    have wf_j := wf.sub h.suffix
    exact G.stmtsClose (h.rn ρ)
  | @stmtsEnd   =>
    intro wf
    exact G.stmtsEnd 
  | @stmtsMore i m j s ss h h1 ih_h ih_h1 =>
    intro wf
    have wf_m := wf.sub h.suffix
    have wf_j := wf_m.sub h1.suffix
    exact G.stmtsMore (ih_h wf) (ih_h1 wf_m)
  | @empty i j h  =>
    intro wf
    have wf_j := wf.sub h.suffix
    exact G.empty (h.rn ρ)
  | @debugger i j h  =>
    intro wf
    have wf_j := wf.sub h.suffix
    exact G.debugger (h.rn ρ)
  | @blockStmt i j ss h ih_h =>
    intro wf
    have wf_j := wf.sub h.suffix
    exact G.blockStmt (ih_h wf)
  | @exprStmt i m j e h1 h2 h3 h4 h h5 ih_h =>
    intro wf
    have wf_m := wf.sub h.suffix
    have wf_j := wf_m.sub h5.suffix
    exact G.exprStmt (by simpa [rn_look, rn_semicolon, rn_continues, rn_target] using h1) (by simpa [rn_look, rn_semicolon, rn_continues, rn_target] using h2) (by simpa [rn_look, rn_semicolon, rn_continues, rn_target] using h3) (by rw [rn_tail]; simpa only [rn_look] using h4) (ih_h wf) (h5.rn ρ)
  | @importExpr w a i m j e h1 h h5 ih_h =>
    intro wf
    have ih := ih_h wf.swap
    have hwi : ρ w = w := wf _ _ _ (List.mem_cons_self ..) (.inr (.inr (.inr rfl)))
    simp only [Ratel.rn, List.map_cons, renameItem, hwi] at ih ⊢
    exact G.importExpr (by simpa [rn_look, rn_semicolon, rn_continues, rn_target] using h1) ih (h5.rn ρ)
  | @declStmt i m n j t k ds h hk h1 h2 ih_h1 =>
    intro wf
    have wf_m := wf.sub h.suffix
    have wf_n := wf_m.sub h1.suffix
    have wf_j := wf_n.sub h2.suffix
    exact G.declStmt (h.rn ρ) hk (ih_h1 wf_m) (h2.rn ρ)
  | @ret i m j h h1  =>
    intro wf
    have wf_m := wf.sub h.suffix
    have wf_j := wf_m.sub h1.suffix
    exact G.ret (h.rn ρ) (h1.rn ρ)
  | @retValue i m n j e h h0 h1 h2 ih_h1 =>
    intro wf
    have wf_m := wf.sub h.suffix
    have wf_n := wf_m.sub h1.suffix
    have wf_j := wf_n.sub h2.suffix
    exact G.retValue (h.rn ρ) (by simpa [rn_look, rn_semicolon, rn_continues, rn_target] using h0) (ih_h1 wf_m) (h2.rn ρ)
  | @brk i m j h h1  =>
    intro wf
    have wf_m := wf.sub h.suffix
    have wf_j := wf_m.sub h1.suffix
    exact G.brk (h.rn ρ) (h1.rn ρ)
  | @brkLabel i m n j w h h0 h1 h2  =>
    intro wf
    have wf_m := wf.sub h.suffix
    have wf_n := wf_m.sub h1.suffix
    have wf_j := wf_n.sub h2.suffix
    exact G.brkLabel (h.rn ρ) (by simpa [rn_look, rn_semicolon, rn_continues, rn_target] using h0) (h1.rn ρ) (h2.rn ρ)
  | @cont i m j h h1  =>
    intro wf
    have wf_m := wf.sub h.suffix
    have wf_j := wf_m.sub h1.suffix
    exact G.cont (h.rn ρ) (h1.rn ρ)
  | @contLabel i m n j w h h0 h1 h2  =>
    intro wf
    have wf_m := wf.sub h.suffix
    have wf_n := wf_m.sub h1.suffix
    have wf_j := wf_n.sub h2.suffix
    exact G.contLabel (h.rn ρ) (by simpa [rn_look, rn_semicolon, rn_continues, rn_target] using h0) (h1.rn ρ) (h2.rn ρ)
  | @throw i m n j e h h1 h2 ih_h1 =>
    intro wf
    have wf_m := wf.sub h.suffix
    have wf_n := wf_m.sub h1.suffix
    have wf_j := wf_n.sub h2.suffix
    exact G.throw (h.rn ρ) (ih_h1 wf_m) (h2.rn ρ)
  | @ifThen i m n o q j e s h h1 h2 h3 h4 h5 ih_h2 ih_h4 =>
    intro wf
    have wf_m := wf.sub h.suffix
    have wf_n := wf_m.sub h1.suffix
    have wf_o := wf_n.sub h2.suffix
    have wf_q := wf_o.sub h3.suffix
    have wf_j := wf_q.sub h4.suffix
    exact G.ifThen (h.rn ρ) (h1.rn ρ) (ih_h2 wf_n) (h3.rn ρ) (ih_h4 wf_q) (by simpa [rn_look, rn_semicolon, rn_continues, rn_target] using h5)
  | @ifElse i m n o q r u j e s s' h h1 h2 h3 h4 h5 h6 ih_h2 ih_h4 ih_h6 =>
    intro wf
    have wf_m := wf.sub h.suffix
    have wf_n := wf_m.sub h1.suffix
    have wf_o := wf_n.sub h2.suffix
    have wf_q := wf_o.sub h3.suffix
    have wf_r := wf_q.sub h4.suffix
    have wf_u := wf_r.sub h5.suffix
    have wf_j := wf_u.sub h6.suffix
    exact G.ifElse (h.rn ρ) (h1.rn ρ) (ih_h2 wf_n) (h3.rn ρ) (ih_h4 wf_q) (h5.rn ρ) (ih_h6 wf_u)
  | @whileLoop i m n o q j e s h h1 h2 h3 h4 ih_h2 ih_h4 =>
    intro wf
    have wf_m := wf.sub h.suffix
    have wf_n := wf_m.sub h1.suffix
    have wf_o := wf_n.sub h2.suffix
    have wf_q := wf_o.sub h3.suffix
    have wf_j := wf_q.sub h4.suffix
    exact G.whileLoop (h.rn ρ) (h1.rn ρ) (ih_h2 wf_n) (h3.rn ρ) (ih_h4 wf_q)
  | @doLoop i m n o q r j e s h h1 h2 h3 h4 h5 ih_h1 ih_h4 =>
    intro wf
    have wf_m := wf.sub h.suffix
    have wf_n := wf_m.sub h1.suffix
    have wf_o := wf_n.sub h2.suffix
    have wf_q := wf_o.sub h3.suffix
    have wf_r := wf_q.sub h4.suffix
    have wf_j := wf_r.sub h5.suffix
    exact G.doLoop (h.rn ρ) (ih_h1 wf_m) (h2.rn ρ) (h3.rn ρ) (ih_h4 wf_q) (h5.rn ρ)
  | @forLoop i m n o q j t u s h h1 h2 h3 r h4 h5 ih_h3 ih_h4 ih_h5 =>
    intro wf
    have wf_m := wf.sub h.suffix
    have wf_n := wf_m.sub h1.suffix
    have wf_o := wf_n.sub h2.suffix
    have wf_q := wf_o.sub h3.suffix
    have wf_r := wf_q.sub h4.suffix
    have wf_j := wf_r.sub h5.suffix
    cases t <;> cases u <;> exact G.forLoop (h.rn ρ) (h1.rn ρ) (h2.rn ρ) (ih_h3 wf_o) (ih_h4 wf_q) (ih_h5 wf_r)
  | @forLoopInit i m n o q r v j x t u s h h1 h2 h2' h3 h4 h5 ih_h2 ih_h3 ih_h4 ih_h5 =>
    intro wf
    have wf_m := wf.sub h.suffix
    have wf_n := wf_m.sub h1.suffix
    have wf_o := wf_n.sub h2.suffix
    have wf_q := wf_o.sub h2'.suffix
    have wf_r := wf_q.sub h3.suffix
    have wf_v := wf_r.sub h4.suffix
    have wf_j := wf_v.sub h5.suffix
    cases t <;> cases u <;> exact G.forLoopInit (h.rn ρ) (h1.rn ρ) (ih_h2 wf_n) (h2'.rn ρ) (ih_h3 wf_q) (ih_h4 wf_r) (ih_h5 wf_v)
  | @forInDecl i m n o q r v j k ds e s h h1 h2 h3 h4 h5 h6 ih_h2 ih_h4 ih_h6 =>
    intro wf
    have wf_m := wf.sub h.suffix
    have wf_n := wf_m.sub h1.suffix
    have wf_o := wf_n.sub h2.suffix
    have wf_q := wf_o.sub h3.suffix
    have wf_r := wf_q.sub h4.suffix
    have wf_v := wf_r.sub h5.suffix
    have wf_j := wf_v.sub h6.suffix
    exact G.forInDecl (h.rn ρ) (h1.rn ρ) (ih_h2 wf_n) (h3.rn ρ) (ih_h4 wf_q) (h5.rn ρ) (ih_h6 wf_v)
  | @forInExpr i m n o q j a b s h h1 h2 h3 h4 ih_h2 ih_h4 =>
    intro wf
    have wf_m := wf.sub h.suffix
    have wf_n := wf_m.sub h1.suffix
    have wf_o := wf_n.sub h2.suffix
    have wf_q := wf_o.sub h3.suffix
    have wf_j := wf_q.sub h4.suffix
    exact G.forInExpr (h.rn ρ) (h1.rn ρ) (ih_h2 wf_n) (h3.rn ρ) (ih_h4 wf_q)
  | @forOf i m n o q r v j x e s h h1 h2 h3 h4 h5 h6 ih_h2 ih_h4 ih_h6 =>
    intro wf
    have wf_m := wf.sub h.suffix
    have wf_n := wf_m.sub h1.suffix
    have wf_o := wf_n.sub h2.suffix
    have wf_q := wf_o.sub h3.suffix
    have wf_r := wf_q.sub h4.suffix
    have wf_v := wf_r.sub h5.suffix
    have wf_j := wf_v.sub h6.suffix
    exact G.forOf (h.rn ρ) (h1.rn ρ) (ih_h2 wf_n) (h3.rnCtx hρ (by decide)) (ih_h4 wf_q) (h5.rn ρ) (ih_h6 wf_v)
  | @forInitDecl i m j t k ds h hk h1 ih_h1 =>
    intro wf
    have wf_m := wf.sub h.suffix
    have wf_j := wf_m.sub h1.suffix
    exact G.forInitDecl (h.rn ρ) hk (ih_h1 wf_m)
  | @forInitExpr i j e h h1 ih_h =>
    intro wf
    have wf_j := wf.sub h.suffix
    exact G.forInitExpr (ih_h wf) (rn_isIn h1)
  | @optExprNone i j t h  =>
    intro wf
    have wf_j := wf.sub h.suffix
    exact G.optExprNone (h.rn ρ)
  | @optExprSome i m j t e h h1 ih_h =>
    intro wf
    have wf_m := wf.sub h.suffix
    have wf_j := wf_m.sub h1.suffix
    exact G.optExprSome (ih_h wf) (h1.rn ρ)
  | @tryCatch i m n j b c h h1 h2 h3 ih_h1 ih_h2 =>
    intro wf
    have wf_m := wf.sub h.suffix
    have wf_n := wf_m.sub h1.suffix
    have wf_j := wf_n.sub h2.suffix
    exact G.tryCatch (h.rn ρ) (ih_h1 wf_m) (ih_h2 wf_n) (by simpa [rn_look, rn_semicolon, rn_continues, rn_target] using h3)
  | @tryCatchFinally i m n o q j b c f h h1 h2 h3 h4 ih_h1 ih_h2 ih_h4 =>
    intro wf
    have wf_m := wf.sub h.suffix
    have wf_n := wf_m.sub h1.suffix
    have wf_o := wf_n.sub h2.suffix
    have wf_q := wf_o.sub h3.suffix
    have wf_j := wf_q.sub h4.suffix
    exact G.tryCatchFinally (h.rn ρ) (ih_h1 wf_m) (ih_h2 wf_n) (h3.rn ρ) (ih_h4 wf_q)
  | @tryFinally i m n o j b f h h1 h3 h4 ih_h1 ih_h4 =>
    intro wf
    have wf_m := wf.sub h.suffix
    have wf_n := wf_m.sub h1.suffix
    have wf_o := wf_n.sub h3.suffix
    have wf_j := wf_o.sub h4.suffix
    exact G.tryFinally (h.rn ρ) (ih_h1 wf_m) (h3.rn ρ) (ih_h4 wf_o)
  | @«catch» i m n o q j p b h h1 h2 h3 h4 ih_h2 ih_h4 =>
    intro wf
    have wf_m := wf.sub h.suffix
    have wf_n := wf_m.sub h1.suffix
    have wf_o := wf_n.sub h2.suffix
    have wf_q := wf_o.sub h3.suffix
    have wf_j := wf_q.sub h4.suffix
    exact G.«catch» (h.rn ρ) (h1.rn ρ) (ih_h2 wf_n) (h3.rn ρ) (ih_h4 wf_q)
  | @switch i m n o q r j e cs h h1 h2 h3 h4 h5 ih_h2 ih_h5 =>
    intro wf
    have wf_m := wf.sub h.suffix
    have wf_n := wf_m.sub h1.suffix
    have wf_o := wf_n.sub h2.suffix
    have wf_q := wf_o.sub h3.suffix
    have wf_r := wf_q.sub h4.suffix
    have wf_j := wf_r.sub h5.suffix
    exact G.switch (h.rn ρ) (h1.rn ρ) (ih_h2 wf_n) (h3.rn ρ) (h4.rn ρ) (ih_h5 wf_r)
  | @casesClose i j h  =>
    intro wf
    have wf_j := wf.sub h.suffix
    exact G.casesClose (h.rn ρ)
  | @casesMore i m j c cs h h1 ih_h ih_h1 =>
    intro wf
    have wf_m := wf.sub h.suffix
    have wf_j := wf_m.sub h1.suffix
    exact G.casesMore (ih_h wf) (ih_h1 wf_m)
  | @case i m n o j e ss h h1 h2 h3 ih_h1 ih_h3 =>
    intro wf
    have wf_m := wf.sub h.suffix
    have wf_n := wf_m.sub h1.suffix
    have wf_o := wf_n.sub h2.suffix
    have wf_j := wf_o.sub h3.suffix
    exact G.case (h.rn ρ) (ih_h1 wf_m) (h2.rn ρ) (ih_h3 wf_o)
  | @default i m n j ss h h1 h2 ih_h2 =>
    intro wf
    have wf_m := wf.sub h.suffix
    have wf_n := wf_m.sub h1.suffix
    have wf_j := wf_n.sub h2.suffix
    exact G.default (h.rn ρ) (h1.rn ρ) (ih_h2 wf_n)
  | @caseBodyEnd j h  =>
    intro wf
    exact G.caseBodyEnd (by simpa [rn_look, rn_semicolon, rn_continues, rn_target] using h)
  | @caseBodyMore i m j s ss h h1 ih_h ih_h1 =>
    intro wf
    have wf_m := wf.sub h.suffix
    have wf_j := wf_m.sub h1.suffix
    exact G.caseBodyMore (ih_h wf) (ih_h1 wf_m)
  | @labeled i m n j w s h h1 h2 ih_h2 =>
    intro wf
    have wf_m := wf.sub h.suffix
    have wf_n := wf_m.sub h1.suffix
    have wf_j := wf_n.sub h2.suffix
    exact G.labeled (h.rn ρ) (h1.rn ρ) (ih_h2 wf_n)
  | @functionStmt i m j f h h1 ih_h1 =>
    intro wf
    have wf_m := wf.sub h.suffix
    have wf_j := wf_m.sub h1.suffix
    exact G.functionStmt (h.rn ρ) (ih_h1 wf_m)
  | @classStmt i m j c h h1 ih_h1 =>
    intro wf
    have wf_m := wf.sub h.suffix
    have wf_j := wf_m.sub h1.suffix
    exact G.classStmt (h.rn ρ) (ih_h1 wf_m)
  | @importBare i m j w h h1 hw  =>
    intro wf
    have wf_m := wf.sub h.suffix
    have wf_j := wf_m.sub h1.suffix
    exact G.importBare (h.rn ρ) (h1.rn ρ) hw
  | @importFrom i m n o j w ss h h1 h2 h3 hw  =>
    intro wf
    have wf_m := wf.sub h.suffix
    have wf_n := wf_m.sub h1.suffix
    have wf_o := wf_n.sub h2.suffix
    have wf_j := wf_o.sub h3.suffix
    exact G.importFrom (h.rn ρ) (h1.rn hρ) (h2.rnCtx hρ (by decide)) (h3.rn ρ) hw
  | @declarator i j p h h' ih_h =>
    intro wf
    have wf_j := wf.sub h.suffix
    exact G.declarator (ih_h wf) (by simpa [rn_look, rn_semicolon, rn_continues, rn_target] using h')
  | @declaratorInit i m n j p e h h1 h2 ih_h ih_h2 =>
    intro wf
    have wf_m := wf.sub h.suffix
    have wf_n := wf_m.sub h1.suffix
    have wf_j := wf_n.sub h2.suffix
    exact G.declaratorInit (ih_h wf) (h1.rn ρ) (ih_h2 wf_n)
  | @declaratorsLast i j d h h' ih_h =>
    intro wf
    have wf_j := wf.sub h.suffix
    exact G.declaratorsLast (ih_h wf) (by simpa [rn_look, rn_semicolon, rn_continues, rn_target] using h')
  | @declaratorsMore i m n j d ds h h1 h2 ih_h ih_h2 =>
    intro wf
    have wf_m := wf.sub h.suffix
    have wf_n := wf_m.sub h1.suffix
    have wf_j := wf_n.sub h2.suffix
    exact G.declaratorsMore (ih_h wf) (h1.rn ρ) (ih_h2 wf_n)
  | @programEnd   =>
    intro wf
    exact G.programEnd 
  | @programMore i m j s ss h h1 ih_h ih_h1 =>
    intro wf
    have wf_m := wf.sub h.suffix
    have wf_j := wf_m.sub h1.suffix
    exact G.programMore (ih_h wf) (ih_h1 wf_m)

end Ratel
