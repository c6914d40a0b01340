import Verif.Lemmas.AcceptTemplate
/-! Expressions of error-free runs. -/
namespace Ratel
open Spec

set_option linter.unusedSectionVars false
variable [Unicode]

variable {src : Bytes} {n : Nat} {R : Rec} [Rec.Known src R] [hR : Rec.Ok src R]

/-! ### Tables -/

/-- The tokens that lead to an expression handler. -/
def EHTok (h : EH) (t : Token) : Bool :=
  match h with
  | .OP => (Op.fromToken t).any fun op => prefixOps.contains op && fixedText t == unaryText op
  | .OBJ => t == .BraceOpen
  | .ARR => t == .BracketOpen
  | .PRN => t == .ParenOpen
  | .CLAS => t == .Class
  | .FUNC => t == .Function
  | .SPRD => t == .OperatorSpread
  | .REG => t == .OperatorDivision
  | .TPLS => t == .TemplateClosed
  | .TPLE => t == .TemplateOpen
  | .IDEN => t == .Identifier
  | .THIS => t == .This
  | .NEW => t == .OperatorNew
  | .TRUE => t == .LiteralTrue
  | .FALS => t == .LiteralFalse
  | .NULL => t == .LiteralNull
  | .UNDE => t == .LiteralUndefined
  | .STR => t == .LiteralString
  | .NUM => t == .LiteralNumber
  | .BIN => t == .LiteralBinary
  | .VOID => t == .Comma || t == .BracketClose
  | _ => true

theorem exprHandler_tok (c : Ctx) (t : Token) : EHTok (exprHandler c t) t = true := by
  revert t
  cases c <;> exact forall_token (by decide +kernel)

theorem exprHandler_void (c : Ctx) (t : Token) : exprHandler c t = .VOID → c = .ARRAY := by
  revert t
  cases c <;> exact forall_token (by decide +kernel)

/-- The tokens that lead to a handler behind an expression. -/
def NHTok (h : NH) (t : Token) : Bool :=
  match h with
  | .ACCS => t == .Accessor
  | .TPLS => t == .TemplateClosed
  | .TPLE => t == .TemplateOpen
  | .CALL => t == .ParenOpen
  | .postfix op => (op == .Increment || op == .Decrement) && fixedText t == unaryText op
  | .assign op => assignOps.contains op
  | .binary _ op => infixOps.contains op
  | _ => true

theorem nestedHandler_tok {lvl : Lvl} {a : Asi} {t : Token} {h : NH} (hh : nestedHandler lvl a t = some h) : NHTok h t = true := by
  have : ∀ lvl, ∀ t, ((((lut lvl)[t.idx]?).join).all fun h => NHTok h t) = true := by
    intro lvl
    cases lvl <;> exact forall_token (by decide +kernel)
  unfold nestedHandler at hh
  split at hh
  · cases hh
  · have := this lvl t
    rw [hh] at this
    exact this

theorem nestedHandler_sep {a : Asi} {t : Token} (ht : t = .Comma ∨ t = .BracketClose) : nestedHandler .B0 a t = none := by
  rcases ht with rfl | rfl <;> cases a <;> rfl

/-! ### Starts of expressions -/

theorem literalExpr_ok {v : Bytes → Literal} {l : Lex} (hl : At src l) (h1 : literalText (v l.tokenAsStr) = l.tokenAsStr)
    (h2 : ∀ x ∈ literalTexts (v l.tokenAsStr), x ≠ []) : W (literalExpr v) l (ExprRead src l) := by
  unfold literalExpr
  unfold literalText at h1
  unfold literalTexts at h2
  have := hl.text
  walk
  open_all
  full
  · good <;> grind
  all_goals grind

theorem parenExpression_ok {l : Lex} (hl : At src l) (ht : l.token = .ParenOpen) : W (parenExpression n R) l (ExprRead src l) := by
  unfold parenExpression
  walk
  · refine (arrowFunctionExpression_ok (src := src) (by assumption) ⟨by simp, by simp, by simp, by simp, by simp, by simp, by simp, by simp,
      fun _ => by open_all; grind⟩ (by open_all; omega)).weaken ?_
    rintro e l' ⟨h1, h2, h3, h4, h5, h6⟩
    open_all
    full
    all_goals grind
  · open_all
    full
    all_goals grind

theorem objectExpression_ok {l : Lex} (hl : At src l) (ht : l.token = .BraceOpen) : W (objectExpression n R) l (ExprRead src l) := by
  unfold objectExpression
  walk
  open_all
  full
  · good <;> grind
  all_goals grind

instance : Sp src (arrayElements n (R.expr .ARRAY .B0)) fun l es l' =>
    Reads src true .expr Expr.loc (fun _ => True) l es l' ∧ l'.token = .BracketClose :=
  ⟨fun _ hl => arrayElements_ok (fun l hl => (Sp.is (src := src) (m := R.expr .ARRAY .B0) l hl).weaken fun _ _ h => ⟨h, trivial⟩) hl⟩

theorem arrayExpression_ok {l : Lex} (hl : At src l) (ht : l.token = .BracketOpen) : W (arrayExpression n R) l (ExprRead src l) := by
  unfold arrayExpression
  walk
  open_all
  full
  · good <;> grind
  all_goals grind

theorem runEH_ok {h : EH} {l : Lex} (hl : At src l) (ht : EHTok h l.token = true) (hv : h ≠ .VOID) :
    W (runEH n R h) l (ExprRead src l) := by
  cases h with
  | ERR => exact .start (.error (src := src) fun _ => .pure _)
  | VOID => exact absurd rfl hv
  | OBJ => exact objectExpression_ok hl (by simpa [EHTok] using ht)
  | PRN => exact parenExpression_ok hl (by simpa [EHTok] using ht)
  | ARR => exact arrayExpression_ok hl (by simpa [EHTok] using ht)
  | REG => exact regularExpression_ok hl (by simpa [EHTok] using ht)
  | CLAS =>
    have ht : l.token = .Class := by simpa [EHTok] using ht
    unfold runEH
    walk
    inst_all
    cases_type* ClassRead
    open_all
    full
    · good <;> grind
    all_goals grind
  | FUNC =>
    have ht : l.token = .Function := by simpa [EHTok] using ht
    unfold runEH
    walk
    inst_all
    cases_type* FuncRead
    open_all
    full
    · good <;> grind
    all_goals grind
  | IDEN =>
    unfold runEH
    walk
    obtain ⟨_, _, _, _, _, _⟩ := hl.ident (by simp [EHTok] at ht; simp [ht]; rfl) (by assumption)
    open_all
    full
    · good <;> grind
    all_goals grind
  | SPRD =>
    have ht : l.token = .OperatorSpread := by simpa [EHTok] using ht
    unfold runEH
    walk
    open_all
    full
    · good <;> grind
    all_goals grind
  | THIS =>
    have hx := hl.keyword (k := bs!"this") (by simp [EHTok] at ht; rw [ht]; simp [keywords])
    have hy := hl.text
    unfold runEH
    walk
    open_all
    full
    · good <;> grind
    all_goals grind
  | OP =>
    unfold runEH
    walk
    · intro _ _ h; cases h
    · rename_i op hop _ _ _ _ _ _
      obtain ⟨_, _⟩ : op ∈ prefixOps ∧ fixedText l.token = unaryText op := by simpa [EHTok, hop] using ht
      open_all
      full
      · good <;> grind
      all_goals grind
  | NEW =>
    have hx := hl.keyword (k := bs!"new") (by simp [EHTok] at ht; rw [ht]; simp [keywords])
    have hy := hl.text
    have hz : Op.New ∈ prefixOps := by simp [prefixOps]
    have ht : l.token = .OperatorNew := by simpa [EHTok] using ht
    unfold runEH
    walk
    all_goals
      open_all
      full
      · good <;> grind
      all_goals grind
  | TRUE =>
    have hx := hl.keyword (k := bs!"true") (by simp [EHTok] at ht; rw [ht]; simp [keywords])
    exact literalExpr_ok hl hx.symm (by simp [literalTexts])
  | FALS =>
    have hx := hl.keyword (k := bs!"false") (by simp [EHTok] at ht; rw [ht]; simp [keywords])
    exact literalExpr_ok hl hx.symm (by simp [literalTexts])
  | NULL =>
    have hx := hl.keyword (k := bs!"null") (by simp [EHTok] at ht; rw [ht]; simp [keywords])
    exact literalExpr_ok hl hx.symm (by simp [literalTexts])
  | UNDE =>
    have hx := hl.keyword (k := bs!"undefined") (by simp [EHTok] at ht; rw [ht]; simp [keywords])
    exact literalExpr_ok hl hx.symm (by simp [literalTexts])
  | STR =>
    have := hl.nonempty (by simp [EHTok] at ht; simp [ht]; rfl)
    exact literalExpr_ok hl rfl (by simpa [literalTexts] using this)
  | NUM =>
    have := hl.nonempty (by simp [EHTok] at ht; simp [ht]; rfl)
    exact literalExpr_ok hl rfl (by simpa [literalTexts] using this)
  | BIN =>
    have := hl.nonempty (by simp [EHTok] at ht; simp [ht]; rfl)
    exact literalExpr_ok hl rfl (by simpa [literalTexts] using this)
  | TPLS =>
    unfold runEH
    refine .call hl (templateString_ok hl (by simpa [EHTok] using ht)) (fun r l' h1 h2 h3 => ?_) (fun _ => by mono)
    obtain ⟨loc, es, qs⟩ := r
    walk
    obtain ⟨t1, t2, t3, t4, t5, t6, t7, t8, t9, t10, t15, t11, t12, t13, t14, t16⟩ := h3
    have u1 := fun q hq => (t11 q hq).1
    have u2 := fun q hq => (t11 q hq).2
    have u3 := fun q hq => (t11 q hq).3
    have u4 := fun q hq => (t11 q hq).4
    open_all
    full
    · good <;> grind
    all_goals grind
  | TPLE =>
    unfold runEH
    refine .call hl (templateLiteral_ok hl (by simpa [EHTok] using ht)) (fun r l' h1 h2 h3 => ?_) (fun _ => by mono)
    obtain ⟨loc, es, qs⟩ := r
    walk
    obtain ⟨t1, t2, t3, t4, t5, t6, t7, t8, t9, t10, t15, t11, t12, t13, t14, t16⟩ := h3
    have u1 := fun q hq => (t11 q hq).1
    have u2 := fun q hq => (t11 q hq).2
    have u3 := fun q hq => (t11 q hq).3
    have u4 := fun q hq => (t11 q hq).4
    open_all
    full
    · good <;> grind
    all_goals grind

/-! ### Continuations of expressions -/

theorem Params.single {a : Nat} {e : Expr} {b c : Nat} (h1 : (Node.expr e).Forall (Good src)) (h2 : a = e.loc.start)
    (h3 : e.loc.start ≤ e.loc.stop) (h4 : e.loc.start ≤ b) (h5 : e.loc.stop ≤ c) : Params src a [e] b c := by
  constructor <;> simp [*]

theorem Params.weaken {a : Nat} {es : List Expr} {b c b' c' : Nat} (h : Params src a es b c) (hb : b ≤ b') (hc : c ≤ c') :
    Params src a es b' c' :=
  ⟨h.good, h.lo, h.ord, fun e he => Nat.le_trans (h.mid e he) hb, fun e he => Nat.le_trans (h.hi e he) hc, h.order, h.apart, h.head, h.empty⟩

theorem no_assign : ∀ op, op ∈ infixOps → op ∉ assignOps := forall_op (by decide +kernel)

/-- The members of a sequence. -/
structure SeqRead (src : Bytes) (a : Nat) (es : List Expr) (l : Lex) : Prop where
  good : ∀ e ∈ es, (Node.expr e).Forall (Good src)
  hole : ∀ e ∈ es, (Node.expr e).isHole = false
  lo : ∀ e ∈ es, a ≤ e.loc.start
  ord : ∀ e ∈ es, e.loc.start ≤ e.loc.stop
  mid : ∀ e ∈ es, e.loc.start ≤ l.tokenStart
  hi : ∀ e ∈ es, e.loc.stop ≤ l.index
  order : es.Pairwise fun x y => x.loc.start ≤ y.loc.start
  apart : es.Pairwise fun x y => x.loc.stop ≤ y.loc.start

theorem SeqRead.snoc {a : Nat} {es : List Expr} {e : Expr} {l l1 l2 : Lex} (h : SeqRead src a es l) (he : ExprRead src l1 e l2)
    (h0 : l.index ≤ l1.tokenStart) (h1 : l.tokenStart ≤ l1.tokenStart) (h2 : l1.tokenStart ≤ l2.tokenStart) (h3 : l.index ≤ l2.index)
    (h4 : a ≤ l1.tokenStart) : SeqRead src a (es ++ [e]) l2 := by
  obtain ⟨d1, d2, d3, d4, d5, d6, d7, d8⟩ := h
  open_all
  constructor
  case order =>
    rw [List.pairwise_append]
    simp
    grind
  case apart =>
    rw [List.pairwise_append]
    simp
    grind
  all_goals grind

theorem Params.seq {loc : Loc} {es : List Expr} {b : Nat} (h : (Node.expr (.seq loc es)).Forall (Good src)) (hb : loc.stop ≤ b) :
    Params src loc.start es b b := by
  obtain ⟨hg, hc⟩ := Node.forall_iff.1 h
  have hc' : ∀ e ∈ es, (Node.expr e).Forall (Good src) := fun e he => hc _ (by simp [Node.children]; exact he)
  have hs : ∀ e ∈ es, e.loc.start ≤ e.loc.stop := fun e he =>
    ((Node.forall_iff.1 (hc' e he)).1.spans e.loc (by simp [Node.span])).1
  obtain ⟨-, -, -, ⟨g6, g7, g8, g9, g10, g16⟩, -, -, g12, ⟨-, -, g11, -, -⟩⟩ := hg
  simp [Node.children, Node.span, Node.contained, Node.listed, List.pairwise_map, Node.starts, WellShaped] at *
  constructor <;> grind

theorem runNH_ok {h : NH} {l0 l : Lex} {left : Expr} (h0 : ExprRead src l0 left l) (hl0 : At src l0) (hl : At src l) (ha : Adv src l0 l)
    (ht : NHTok h l.token = true) : W (runNH n R h left) l (ExprRead src l0 · ·) := by
  cases h with
  | SEQ =>
    unfold runNH
    walk
    rename_i l1 m1 n1 m2 a2 x
    refine .bind (src := src) (W.loop (src := src) (fun acc m => At src m ∧ Adv src l1 m ∧ (2 ≤ acc.length ∧ acc.head? = some left) ∧
      SeqRead src left.loc.start acc m) (fun acc m hm => ?_)
      (by mono) ⟨m2, a2, by simp, ?_⟩) (fun _ => by mono)
    · obtain ⟨b1, b2, ⟨b3, b4⟩, b5⟩ := hm
      walk
      · rename_i c1 c2 c3 c4 c5
        refine ⟨c3, by open_all; constructor <;> omega, by simp; exact ⟨by omega, by simp [b4]⟩, b5.snoc c5 (by open_all; omega) (by open_all; omega)
          (by open_all; omega) (by open_all; omega) (by have := b5.mid left (List.mem_of_mem_head? b4); open_all; omega)⟩
      · change W _ _ _
        walk
        obtain ⟨d1, d2, d3, d4, d5, d6, d7, d8⟩ := b5
        open_all
        full
        · good <;> grind
        all_goals grind
    · open_all
      constructor <;> simp <;> grind
  | COND =>
    unfold runNH
    walk
    open_all
    full
    · good <;> grind
    all_goals grind
  | ARRW =>
    unfold runNH
    walk
    · rename_i n1 loc es
      refine (arrowFunctionExpression_ok (src := src) (by assumption) ((Params.seq h0.good (b := l'.tokenStart) (by open_all; simp at *; omega)).weaken
        (Nat.le_refl _) (by open_all; omega)) (by open_all; simp at *; omega)).weaken ?_
      rintro e l' ⟨h1, h2, h3, h4, h5, h6⟩
      open_all
      full
      all_goals grind
    · refine (arrowFunctionExpression_ok (src := src) (by assumption) (Params.single h0.good rfl h0.ord (by open_all; omega)
        (by open_all; omega)) (by open_all; omega)).weaken ?_
      rintro e l' ⟨h1, h2, h3, h4, h5, h6⟩
      open_all
      full
      all_goals grind
  | ACCS =>
    unfold runNH
    walk
    have : l.token = .Accessor := by simpa [NHTok] using ht
    obtain ⟨s, c, w, h1, h2, h3, -, -⟩ := hl.lexing.accessor_text this
    have h4 := hl.text_length
    have h5 := hl.text
    have h6 : l.index = l.tokenStart + 1 + s.length + l.accessorAsStr.length := by
      rw [h1] at h4
      simp at h4
      open_all
      omega
    have h7 : l.accessorAsStr ≠ [] := by simp [h2]
    have h8 : ∃ a s, left.loc.start ≤ a ∧ (∀ b ∈ s, b ≤ 0x20) ∧
        slice src a (a + 1 + s.length + l.accessorAsStr.length) = #b'.' :: s ++ l.accessorAsStr ∧
        a + 1 + s.length + l.accessorAsStr.length ≤ l'.tokenStart :=
      ⟨l.tokenStart, s, h0.mid, h3, by rw [← h6, h5, h1], by open_all; omega⟩
    clear h1 h2 h3 h6
    open_all
    full
    · good <;> grind
    all_goals grind
  | CALL =>
    have ht : l.token = .ParenOpen := by simpa [NHTok] using ht
    unfold runNH
    walk
    open_all
    full
    · good <;> grind
    all_goals grind
  | CMEM =>
    unfold runNH
    walk
    open_all
    full
    · good <;> grind
    all_goals grind
  | TPLS =>
    unfold runNH
    refine .call hl (templateString_ok hl (by simpa [NHTok] using ht)) (fun r l' h1 h2 h3 => ?_) (fun _ => by mono)
    obtain ⟨loc, es, qs⟩ := r
    walk
    obtain ⟨t1, t2, t3, t4, t5, t6, t7, t8, t9, t10, t15, t11, t12, t13, t14, t16⟩ := h3
    have u1 := fun q hq => (t11 q hq).1
    have u2 := fun q hq => (t11 q hq).2
    have u3 := fun q hq => (t11 q hq).3
    have u4 := fun q hq => (t11 q hq).4
    open_all
    full
    · good <;> grind
    all_goals grind
  | TPLE =>
    unfold runNH
    refine .call hl (templateLiteral_ok hl (by simpa [NHTok] using ht)) (fun r l' h1 h2 h3 => ?_) (fun _ => by mono)
    obtain ⟨loc, es, qs⟩ := r
    walk
    obtain ⟨t1, t2, t3, t4, t5, t6, t7, t8, t9, t10, t15, t11, t12, t13, t14, t16⟩ := h3
    have u1 := fun q hq => (t11 q hq).1
    have u2 := fun q hq => (t11 q hq).2
    have u3 := fun q hq => (t11 q hq).3
    have u4 := fun q hq => (t11 q hq).4
    open_all
    full
    · good <;> grind
    all_goals grind
  | «postfix» op =>
    obtain ⟨hop, hot⟩ : (op = .Increment ∨ op = .Decrement) ∧ fixedText l.token = unaryText op := by simpa [NHTok] using ht
    have hlv : ¬ left.isLvalue = false → isTarget left = true := by
      unfold Expr.isLvalue isTarget; grind
    unfold runNH
    walk
    open_all
    full
    · good <;> grind
    all_goals grind
  | assign op =>
    have hop : op ∈ assignOps := by simpa [NHTok] using ht
    have hlv : ¬ left.isLvalue = false → isTarget left = true := by
      unfold Expr.isLvalue isTarget; grind
    unfold runNH
    walk
    open_all
    full
    · good <;> grind
    all_goals grind
  | binary lvl op =>
    have hop : op ∈ infixOps := by simpa [NHTok] using ht
    have hno : op ∉ assignOps := no_assign op hop
    unfold runNH
    walk
    open_all
    full
    · good <;> grind
    all_goals grind

theorem nestedExpression_ok {lvl : Lvl} {l0 l : Lex} {left : Expr} (h0 : ExprRead src l0 left l) (hl0 : At src l0) (hl : At src l)
    (ha : Adv src l0 l) : W (nestedExpression n R lvl left) l (ExprRead src l0 · ·) := by
  unfold nestedExpression
  refine W.loop (src := src) (fun e m => At src m ∧ Adv src l0 m ∧ ExprRead src l0 e m) (fun e m hm => ?_) (by mono) ⟨hl, ha, h0⟩
  obtain ⟨h1, h2, h3⟩ := hm
  refine .asi (.tok ?_)
  split
  · rename_i h hh
    refine .call h1 (runNH_ok h3 hl0 h1 h2 (nestedHandler_tok hh)) (fun a l' k1 k2 k3 => .pure ?_) (fun _ => .pure _)
    exact ⟨k1, ⟨Nat.le_trans h2.1 k2.1, Nat.le_trans h2.2 k2.2⟩, k3⟩
  · exact .pure h3

theorem runEH_call {β : Type} {h : EH} {f : Expr → P β} {l : Lex} {Q : β → Lex → Prop} (hl : At src l) (ht : EHTok h l.token = true) (hv : h ≠ .VOID)
    (hf : ∀ e l', At src l' → Adv src l l' → ExprRead src l e l' → W (f e) l' Q) (hm : ∀ a, Mono src (f a)) :
    W (runEH n R h >>= f) l Q := by
  refine .bind ?_ hm
  intro a l' hr
  have hpre : (h = .OP → Op.fromToken l.token ≠ none) ∧ (h = .REG → l.token = .OperatorDivision) := by
    refine ⟨fun e => ?_, fun e => ?_⟩
    · subst e
      intro h'
      simp [EHTok, h'] at ht
    · subst e
      simpa [EHTok] using ht
  have hs := (runEH_prog (src := src) h).steps hr
  exact hf a l' ((runEH_prog (src := src) h).proper hl.proper hpre hr).at (hs.adv hl.lexing) (runEH_ok hl ht hv a l' hr)

theorem expression_ok {c : Ctx} {lvl : Lvl} {l : Lex} (hl : At src l) (hv : exprHandler c l.token ≠ .VOID) :
    W (expression n R c lvl) l (ExprRead src l) := by
  unfold expression
  refine .tok ?_
  exact runEH_call hl (exprHandler_tok c _) hv (fun e l' h1 h2 h3 => nestedExpression_ok h3 hl h1 h2) (fun _ => .known)

theorem element_ok {l : Lex} (hl : At src l) : W (expression n R .ARRAY .B0) l fun e l' => Read src (.expr e) e.loc l l' := by
  by_cases hv : exprHandler .ARRAY l.token = .VOID
  · have ht : l.token = .Comma ∨ l.token = .BracketClose := by
      have := exprHandler_tok .ARRAY l.token
      rw [hv] at this
      simpa [EHTok] using this
    unfold expression
    refine .tok ?_
    rw [hv]
    unfold runEH
    walk
    unfold nestedExpression
    refine W.loop (src := src) (fun e m => m = l ∧ e = .void ⟨l.tokenStart, l.tokenStart⟩) (fun e m hm => ?_) (by mono) ⟨rfl, rfl⟩
    obtain ⟨rfl, rfl⟩ := hm
    refine .asi (.tok ?_)
    rw [nestedHandler_sep ht]
    refine .pure ?_
    open_all
    refine ⟨?_, ?_, ?_, ?_, ?_⟩
    · good <;> grind
    all_goals grind
  · exact (expression_ok hl hv).weaken fun _ _ h => h.toRead

end Ratel
