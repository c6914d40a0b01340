import Verif.Lemmas.AcceptClass
/-! Templates, regular expressions, arrow functions of error-free runs. -/
namespace Ratel
open Spec

set_option linter.unusedSectionVars false
variable [Unicode]

variable {src : Bytes} {n : Nat} {R : Rec} [Rec.Known src R] [hR : Rec.Ok src R]

/-! ### Templates -/

/-- A text of a template that was read. -/
structure QuasiRead (src : Bytes) (l : Lex) (q : Ident) (hi : Nat) : Prop where
  piece : Piece (slice src q.loc.start q.loc.stop) q.name
  lo : l.tokenStart ≤ q.loc.start
  ord : q.loc.start ≤ q.loc.stop
  hi : q.loc.stop ≤ hi

/-- A template that was read. -/
structure TemplateRead (src : Bytes) (l : Lex) (r : Loc × List Expr × List Ident) (l' : Lex) : Prop where
  start : r.1.start = l.tokenStart
  first : l.index ≤ r.1.stop
  stop : r.1.stop ≤ l'.tokenStart
  len : r.2.2.length = r.2.1.length + 1
  good : ∀ e ∈ r.2.1, (Node.expr e).Forall (Good src)
  hole : ∀ e ∈ r.2.1, (Node.expr e).isHole = false
  lo : ∀ e ∈ r.2.1, l.tokenStart ≤ e.loc.start
  ord : ∀ e ∈ r.2.1, e.loc.start ≤ e.loc.stop
  hi : ∀ e ∈ r.2.1, e.loc.stop ≤ r.1.stop
  order : r.2.1.Pairwise fun a b => a.loc.start ≤ b.loc.start
  apart : r.2.1.Pairwise fun a b => a.loc.stop ≤ b.loc.start
  quasis : ∀ q ∈ r.2.2, QuasiRead src l q r.1.stop
  closes : Closes src r.1.stop bs!"`"
  head : ∀ q, r.2.2.head? = some q → r.1.start = q.loc.start
  last : ∀ q, r.2.2.getLast? = some q → r.1.stop = q.loc.stop
  inside : ∀ e ∈ r.2.1, l.index ≤ e.loc.start

theorem QuasiRead.mono {l : Lex} {q : Ident} {a b : Nat} (h : QuasiRead src l q a) (hab : a ≤ b) : QuasiRead src l q b :=
  ⟨h.piece, h.lo, h.ord, Nat.le_trans h.hi hab⟩

theorem At.quasi {l0 l : Lex} (hl : At src l) (ha : l0.tokenStart ≤ l.tokenStart) (ht : l.token = .TemplateOpen ∨ l.token = .TemplateClosed) :
    QuasiRead src l0 ⟨⟨l.tokenStart, l.index⟩, l.quasi⟩ l.index :=
  ⟨hl.text ▸ hl.proper.piece ht, ha, hl.start, Nat.le_refl _⟩

theorem Lex.WF.closed {l l' : Lex} (h : l.WF src) (h' : l.consume = .ok l') (ht : l'.token = .TemplateClosed) :
    bs!"`" <:+ l'.tokenAsStr := by
  obtain ⟨p, i, a, -, h2, h3, -⟩ := h.consume_start h'
  rw [h3]
  generalize l'.token = t at *
  generalize l'.rest = r at *
  clear h3
  cases h2 with
  | templateClosed h => exact ⟨_, rfl⟩
  | punct hp => subst ht; exact absurd hp (by revert p; simp [puncts])
  | word _ _ _ => exact absurd (wordToken_inv ht (by decide)) (by simp [keywords])
  | _ => cases ht

theorem Proper.closed {l : Lex} (h : Proper src l) (ht : l.token = .TemplateClosed) : bs!"`" <:+ l.tokenAsStr := by
  cases h with
  | new h => exact Lex.WF.closed (l := Lex.init src) ⟨rfl, rfl, Nat.zero_le _, Nat.le_refl _, by simp [Lex.init]⟩ h ht
  | consume h h' => exact h.lexing.wf.closed h' ht
  | template h hb h' =>
    obtain ⟨p, q, -, ho, hx⟩ := (Lex.readTemplateKind_spec _).of_ok h'
    have hw := h.lexing.wf.over_text (Lexing.template h.lexing h').wf ho
    rcases hx with ⟨-, rfl, -⟩ | ⟨h1, -⟩ | ⟨h1, -⟩
    · rw [hw, ← List.append_assoc]
      exact ⟨_, rfl⟩
    · rw [h1] at ht; cases ht
    · rw [h1] at ht; cases ht
  | regex h _ h' =>
    obtain ⟨p, c, q, -, ho, h⟩ := (readRegularExpression_spec _).of_ok h'
    rcases h with h | h | h <;> simp_all

/-- The last text of a template ends with a back quote. -/
theorem At.tick {l : Lex} (hl : At src l) (ht : l.token = .TemplateClosed) : Closes src l.index bs!"`" := by
  have h1 := hl.proper.closed ht
  obtain ⟨x, hx⟩ := h1
  have h2 := hl.text
  have h3 := hl.text_length
  have h4 := hl.start
  rw [← hx] at h2 h3
  simp at h3
  refine ⟨by simp; omega, ?_⟩
  rw [show l.index - [#b'`'].length = l.tokenStart + x.length by simp; omega]
  have : slice src (l.tokenStart + x.length) l.index = (slice src l.tokenStart l.index).drop x.length := by
    simp only [slice, List.drop_take, List.drop_drop]
    congr 1
    omega
  rw [this, h2]
  simp

theorem templateString_ok {l : Lex} (hl : At src l) (ht : l.token = .TemplateClosed) : W templateString l (TemplateRead src l) := by
  unfold templateString
  walk
  rename_i h _ h2
  have := hl.quasi (Nat.le_refl _) (.inr ht)
  have hc := hl.tick ht
  constructor <;> simp [*]
  exact h2.le

theorem W.templateBind {β : Type} {f : Unit → P β} {l : Lex} {Q : β → Lex → Prop} (hl : At src l) (ht : l.token = .BraceClose)
    (h : ∀ l', At src l' → l'.tokenStart = l.tokenStart → l.index ≤ l'.index → W (f ()) l' Q) (hf : ∀ a, Mono src (f a)) :
    W (readTemplateKind >>= f) l Q := .bind (.template hl ht h) hf

/-- The invariant of the loop over the texts. -/
structure TemplateInv (src : Bytes) (l : Lex) (s : List Expr × List Ident) (m : Lex) : Prop where
  at_ : At src m
  adv : Adv src l m
  len : s.2.length = s.1.length
  head : ∀ q, s.2.head? = some q → l.tokenStart = q.loc.start
  exprs : Reads src true .expr Expr.loc (fun e => (Node.expr e).isHole = false) l s.1 m
  quasis : ∀ q ∈ s.2, QuasiRead src l q m.index
  inside : ∀ e ∈ s.1, l.index ≤ e.loc.start

theorem TemplateInv.snoc {l m m1 m2 m3 : Lex} {s : List Expr × List Ident} {e : Expr} {q : Ident} (h : TemplateInv src l s m)
    (hq : QuasiRead src l q m1.index) (h1 : Adv src m m1) (h01 : m.index ≤ m1.tokenStart) (h12 : Adv src m1 m2) (he : ExprRead src m1 e m2)
    (h3 : m3.tokenStart = m2.tokenStart) (h4 : m2.index ≤ m3.index) (h5 : At src m3)
    (h0 : s.2 = [] → ∀ x, q = x → l.tokenStart = x.loc.start) :
    TemplateInv src l (s.1 ++ [e], s.2 ++ [q]) m3 := by
  obtain ⟨a1, a2, a3, a6, a4, a5, a7⟩ := h
  refine ⟨h5, ?_, by simp [a3], ?_, ?_, ?_, ?_⟩
  · open_all; constructor <;> omega
  · rw [List.head?_append]
    cases hs : s.2 with
    | nil => exact fun x hx => h0 hs x (by simpa using hx)
    | cons y ys => exact fun x hx => a6 x (by rw [hs]; simpa using hx)
  · exact (a4.snoc (fun _ => h01) he.toRead he.hole (by open_all; omega) h1.1 (by open_all; omega) h12.1).adv (Nat.le_of_eq h3.symm) h4
  · intro x hx
    rcases List.mem_append.1 hx with hx | hx
    · exact (a5 x hx).mono (by open_all; omega)
    · rw [List.mem_singleton] at hx
      exact hx ▸ hq.mono (by open_all; omega)
  · intro x hx
    rcases List.mem_append.1 hx with hx | hx
    · exact a7 x hx
    · rw [List.mem_singleton] at hx
      subst hx
      have := he.lo
      have := a2.2
      omega

theorem templateLiteral_ok {l : Lex} (hl : At src l) (ht : l.token = .TemplateOpen) :
    W (templateLiteral n R) l (TemplateRead src l) := by
  unfold templateLiteral
  walk
  rename_i l1 h1 n1 h2 a1 he hb
  have hq := hl.quasi (Nat.le_refl _) (.inl ht)
  refine W.templateBind (src := src) h2 hb (fun m hm e1 e2 => ?_) (fun _ => by mono)
  have hI : TemplateInv src l ([a], [⟨⟨l.tokenStart, l.index⟩, l.quasi⟩]) m :=
    TemplateInv.snoc (s := ([], [])) (m := l) (m1 := l1) (m2 := l')
      ⟨hl, ⟨Nat.le_refl _, Nat.le_refl _⟩, rfl, by simp, .nil, by simp, by simp⟩ (hq.mono (by open_all; omega)) (by open_all; constructor <;> omega) (by open_all; omega) a1 he e1 e2 hm
      (fun _ x hx => hx ▸ rfl)
  refine W.loop (src := src) (fun s m => TemplateInv src l s m ∧ s.2 ≠ []) (fun s m hm => ?_) (by mono) ⟨hI, by simp⟩
  obtain ⟨hm, hne⟩ := hm
  have hm' := hm.at_
  obtain ⟨es, qs⟩ := s
  walk
  · rename_i hk _ m1 n1 _ m2 a2 he hb
    have hq := hm'.quasi hm.adv.1 (.inl (by assumption))
    refine W.templateBind (src := src) m2 (by assumption) (fun m3 h3 e1 e2 => ?_) (fun _ => by mono)
    exact .pure ⟨hm.snoc (hq.mono (by open_all; omega)) (by open_all; constructor <;> omega) (by open_all; omega) a2 he e1 e2 h3 (fun h => absurd h hne), by simp⟩
  · rename_i m1 n1
    have hq := hm'.quasi hm.adv.1 (.inr (by assumption))
    have hc := hm'.tick (by assumption)
    obtain ⟨b1, b2, b3, b6, b4, b5, b7⟩ := hm
    refine ⟨rfl, ?_, ?_, ?_, b4.good, b4.extra, b4.lo, b4.ord, b4.hi, b4.order, b4.apart rfl, ?_, hc, ?_, ?_, b7⟩
    · exact b2.2
    · exact n1.le
    · simpa using b3
    · intro x hx
      rcases List.mem_append.1 hx with hx | hx
      · exact b5 x hx
      · rw [List.mem_singleton] at hx
        exact hx ▸ hq
    · intro q hq'
      cases qs with
      | nil => exact absurd rfl hne
      | cons y ys => exact b6 q (by simpa using hq')
    · intro q hq'
      simp at hq'
      rw [← hq']

/-! ### Regular expressions -/

theorem W.regex {β : Type} {f : Bytes → P β} {l : Lex} {Q : β → Lex → Prop} (hl : At src l) (ht : l.token = .OperatorDivision)
    (h : ∀ v l', At src l' → l.readRegularExpression = .ok (l', v) → l'.tokenStart = l.tokenStart → l.index ≤ l'.index → W (f v) l' Q)
    (hf : ∀ a, Mono src (f a)) : W (readRegex >>= f) l Q := by
  refine .bind ?_ hf
  intro a l' hr
  cases hc : l.readRegularExpression <;> simp [Ratel.readRegex, hc, Out.bind] at hr
  obtain ⟨rfl, rfl⟩ := hr
  obtain ⟨p, c, q, -, ho, -⟩ := (readRegularExpression_spec _).of_ok hc
  have := ho.index
  exact h _ _ (hl.proper.regex ht hc).at hc ho.tokenStart (by omega)

theorem regularExpression_ok {l : Lex} (hl : At src l) (ht : l.token = .OperatorDivision) :
    W regularExpression l (ExprRead src l) := by
  have hx : l.tokenStart + 1 = l.index := by
    have h1 := hl.text_length
    rw [hl.lexing.punct_text (p := bs!"/") (by rw [ht]; simp [puncts])] at h1
    simp at h1
    omega
  unfold regularExpression
  walk
  refine W.regex (src := src) hl ht (fun v m hm hc h1 h2 => ?_) (fun _ => by mono)
  walk
  have hv := (C38_regex_text hl.lexing hc (by assumption)).1
  rw [show l.index - 1 = l.tokenStart by omega] at hv
  have hne : v ≠ [] := by
    intro h
    have := congrArg List.length hv
    rw [h, slice] at this
    simp at this
    open_all
    omega
  open_all
  full
  · good <;> grind
  all_goals grind

/-! ### Arrow functions -/

theorem patternFromExpression_ok : ∀ (e : Expr) {l : Lex}, (Node.expr e).Forall (Good src) →
    W (patternFromExpression e) l fun p l' => l' = l ∧ (Node.pat p).Forall (Good src) ∧ p.loc = e.loc ∧
      (Node.pat p).isHole = false ∧ isRest p = false := by
  intro e
  induction e using patternFromExpression.induct with
  | case1 loc left right ih =>
    intro l h
    rw [patternFromExpression]
    obtain ⟨hg, hc⟩ := Node.forall_iff.1 h
    have hl := hc (.expr left) (by simp [Node.children])
    have hr := hc (.expr right) (by simp [Node.children])
    refine .bind (src := src) ((ih hl).weaken ?_) (fun _ => by mono)
    rintro p _ ⟨rfl, h1, h2, h3, h4⟩
    refine .pure ⟨rfl, ?_, rfl, rfl, rfl⟩
    obtain ⟨⟨g1, g2, g3⟩, g4, g5, ⟨g6, g7, g8, g9, g10, g16⟩, -, -, -, ⟨g11, g12, g13, g14, g15⟩⟩ := hg
    simp [Node.isArray, Node.children, Node.span, Node.innerSpans, SpansInside, Node.contained, Node.listed, Node.enclosed, Node.opens, Node.closes,
      Node.starts, Node.stops, Node.braces] at *
    good <;> grind
  | case2 loc nm =>
    intro l h
    rw [patternFromExpression]
    obtain ⟨hg, hc⟩ := Node.forall_iff.1 h
    refine .pure ⟨rfl, ?_, rfl, rfl, rfl⟩
    obtain ⟨⟨g1, g2, g3⟩, ⟨g4, -, -⟩, g5, ⟨g6, g7, g8, g9, g10, g16⟩, -, -, -, -⟩ := hg
    simp [Node.isArray, Node.children, Node.span, Node.innerSpans, SpansInside, Node.contained, Node.listed, Node.enclosed, Node.names,
      Node.written] at *
    good <;> grind
  | case3 e h1 h2 =>
    intro l h
    rw [patternFromExpression]
    · exact .error (src := src) fun _ => .pure _
    all_goals assumption

theorem paramsFromExpressions_ok : ∀ (es : List Expr) {l : Lex}, (∀ e ∈ es, (Node.expr e).Forall (Good src)) →
    W (paramsFromExpressions es) l fun ps l' => l' = l ∧ (∀ p ∈ ps, (Node.pat p).Forall (Good src) ∧
      (Node.pat p).isHole = false ∧ isRest p = false) ∧ ps.map (·.loc) = es.map (·.loc) := by
  intro es
  induction es with
  | nil => intro l _; exact .pure ⟨rfl, by simp, rfl⟩
  | cons e es ih =>
    intro l h
    rw [paramsFromExpressions]
    refine .bind (src := src) ((patternFromExpression_ok e (h e (by simp))).weaken ?_) (fun _ => by mono)
    rintro p _ ⟨rfl, h1, h2, h3, h4⟩
    refine .bind (src := src) ((ih fun x hx => h x (by simp [hx])).weaken ?_) (fun _ => by mono)
    rintro ps _ ⟨rfl, h5, h6⟩
    exact .pure ⟨rfl, by simp; exact ⟨⟨h1, h3, h4⟩, h5⟩, by simp [h2, h6]⟩

/-- The parameters of an arrow function, written in front of its arrow. -/
structure Params (src : Bytes) (a : Nat) (es : List Expr) (b c : Nat) : Prop where
  good : ∀ e ∈ es, (Node.expr e).Forall (Good src)
  lo : ∀ e ∈ es, a ≤ e.loc.start
  ord : ∀ e ∈ es, e.loc.start ≤ e.loc.stop
  mid : ∀ e ∈ es, e.loc.start ≤ b
  hi : ∀ e ∈ es, e.loc.stop ≤ c
  order : es.Pairwise fun x y => x.loc.start ≤ y.loc.start
  apart : es.Pairwise fun x y => x.loc.stop ≤ y.loc.start
  head : ∀ e, es.head? = some e → e.loc.start = a
  empty : es = [] → Opens src a bs!"("

theorem arrowFunctionExpression_ok {a : Nat} {l : Lex} {es : List Expr} (hl : At src l) (h : Params src a es l.tokenStart l.tokenStart)
    (ha : a ≤ l.tokenStart) :
    W (arrowFunctionExpression n R a es) l fun e l' => (Node.expr e).Forall (Good src) ∧ e.loc.start = a ∧
      e.loc.stop = l'.index ∧ l.index ≤ l'.index ∧ l.tokenStart ≤ l'.tokenStart ∧ (Node.expr e).isHole = false := by
  unfold arrowFunctionExpression
  refine .bind (src := src) ((paramsFromExpressions_ok es h.good).weaken ?_) (fun _ => by mono)
  rintro ps m ⟨rfl, h1, h2⟩
  have hp : ∀ p ∈ ps, ∃ e ∈ es, p.loc = e.loc := by
    intro p hp
    have : p.loc ∈ es.map (·.loc) := h2 ▸ List.mem_map_of_mem hp
    obtain ⟨e, he, h⟩ := List.mem_map.1 this
    exact ⟨e, he, h.symm⟩
  have ho : ps.Pairwise fun x y => x.loc.start ≤ y.loc.start := by
    have : (es.map (·.loc)).Pairwise fun x y => x.start ≤ y.start := List.pairwise_map.2 h.order
    rw [← h2] at this
    exact (List.pairwise_map (R := fun x y : Loc => x.start ≤ y.start)).1 this
  have ha' : ps.Pairwise fun x y => x.loc.stop ≤ y.loc.start := by
    have : (es.map (·.loc)).Pairwise fun x y => x.stop ≤ y.start := List.pairwise_map.2 h.apart
    rw [← h2] at this
    exact (List.pairwise_map (R := fun x y : Loc => x.stop ≤ y.start)).1 this
  have h3 : ∀ p ∈ ps, a ≤ p.loc.start := fun p hx => by obtain ⟨e, he, h'⟩ := hp p hx; exact h' ▸ h.lo e he
  have h4 : ∀ p ∈ ps, p.loc.start ≤ p.loc.stop := fun p hx => by obtain ⟨e, he, h'⟩ := hp p hx; exact h' ▸ h.ord e he
  have h5 : ∀ p ∈ ps, p.loc.stop ≤ m.tokenStart := fun p hx => by obtain ⟨e, he, h'⟩ := hp p hx; exact h' ▸ h.hi e he
  have h6 : ∀ p ∈ ps, p.loc.start ≤ m.tokenStart := fun p hx => by obtain ⟨e, he, h'⟩ := hp p hx; exact h' ▸ h.mid e he
  have h7 : ∀ p, ps.head? = some p → a = p.loc.start := fun p hx => by
    cases es with
    | nil => cases ps <;> simp at *
    | cons e es =>
      cases ps with
      | nil => simp at h2
      | cons q qs =>
        simp at h2 hx
        subst hx
        rw [h2.1]
        exact (h.head e rfl).symm
  have h8 : ps = [] → Opens src a bs!"(" := fun hx => h.empty (by cases es <;> simp_all)
  clear h2 hp
  walk
  · rename_i hx
    obtain ⟨x1, x2, x3, x4, x5, x6, x7, x8, x9, x10, x11, x12⟩ := hx (by assumption)
    open_all
    refine ⟨?_, rfl, rfl, by omega, by omega, rfl⟩
    good <;> grind
  · open_all
    refine ⟨?_, rfl, rfl, by omega, by omega, rfl⟩
    good <;> grind

end Ratel
