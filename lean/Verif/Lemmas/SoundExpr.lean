import Verif.Lemmas.SoundTemplate
import Verif.Lemmas.AcceptExpr
/-! Expressions of error-free runs are phrases of the grammar. -/
namespace Ratel
open Spec

set_option linter.unusedSectionVars false
variable [Unicode]

variable {src : Bytes} {n : Nat} {R : Rec} [Rec.Known src R] [hR : Rec.Gs src R]

/-! ### Facts about the grammar -/

theorem Spec.G.mono {i j : List Item} {k q : Nat} {e : Expr} (h : G i (.expr q e) j) (hk : k ≤ q) : G i (.expr k e) j := by
  cases h with
  | ident h1 h2 => exact .ident (by omega) h2
  | this h1 h2 => exact .this (by omega) h2
  | lit h1 h2 h3 => exact .lit (by omega) h2 h3
  | regex h1 => exact .regex (by omega)
  | array h1 h2 h3 h4 h5 => exact .array (by omega) h2 h3 h4 h5
  | emptyArray h1 h2 h3 => exact .emptyArray (by omega) h2 h3
  | object h1 h2 h3 h4 => exact .object (by omega) h2 h3 h4
  | function h1 h2 h3 => exact .function (by omega) h2 h3
  | «class» h1 h2 h3 => exact .class (by omega) h2 h3
  | template h1 h2 => exact .template (by omega) h2
  | paren h1 h2 h3 h4 => exact .paren (by omega) h2 h3 h4
  | newTarget h1 h2 h3 => exact .newTarget (by omega) h2 h3
  | member h1 h2 h3 => exact .member (by omega) h2 h3
  | index h1 h2 h3 h4 h5 => exact .index (by omega) h2 h3 h4 h5
  | call h1 h2 h3 h4 h5 => exact .call (by omega) h2 h3 h4 h5
  | tagged h1 h2 h3 => exact .tagged (by omega) h2 h3
  | «postfix» h1 h2 h3 h4 h5 => exact .postfix (by omega) h2 h3 h4 h5
  | arrow h1 h2 h3 h4 h5 h6 => exact .arrow (by omega) h2 h3 h4 h5 h6
  | arrowBlock h1 h2 h3 h4 h5 => exact .arrowBlock (by omega) h2 h3 h4 h5
  | arrow0 h1 h2 h3 h4 h5 h6 => exact .arrow0 (by omega) h2 h3 h4 h5 h6
  | arrowBlock0 h1 h2 h3 h4 h5 => exact .arrowBlock0 (by omega) h2 h3 h4 h5
  | «prefix» h1 h2 h3 h4 => exact .prefix (by omega) h2 h3 h4
  | new h1 h2 h3 h4 => exact .new (by omega) h2 h3 h4
  | binary h1 h2 h3 h4 h5 => exact .binary h1 (by omega) h3 h4 h5
  | cond h1 h2 h3 h4 h5 h6 => exact .cond (by omega) h2 h3 h4 h5 h6
  | assign h1 h2 h3 h4 h5 h6 => exact .assign (by omega) h2 h3 h4 h5 h6
  | comma h1 h2 h3 => cases Nat.le_zero.1 hk; exact .comma h1 h2 h3

/-- The targets of assignments are operands. -/
theorem Spec.G.tight {i j : List Item} {q : Nat} {e : Expr} (h : G i (.expr q e) j) (he : target e = true) : G i (.expr 17 e) j := by
  cases h with
  | ident h1 h2 => exact .ident (by omega) h2
  | array h1 h2 h3 h4 h5 => exact .array (by omega) h2 h3 h4 h5
  | emptyArray h1 h2 h3 => exact .emptyArray (by omega) h2 h3
  | object h1 h2 h3 h4 => exact .object (by omega) h2 h3 h4
  | paren h1 h2 h3 h4 => exact .paren (by omega) h2 h3 h4
  | member h1 h2 h3 => exact .member (by omega) h2 h3
  | index h1 h2 h3 h4 h5 => exact .index (by omega) h2 h3 h4 h5
  | _ => cases he

theorem no_spread {i j : List Item} {x : Phrase} (h : G i x j) : ∀ k e, (x = .expr k (.spread z e) ∨ x = .whole k (.spread z e)) → False := by
  induction h with
  | paren _ _ _ _ ih =>
    intro k e h
    rcases h with h | h
    · cases h; exact ih _ _ (.inr rfl)
    · cases h
  | whole _ _ ih =>
    intro k e h
    rcases h with h | h
    · cases h
    · cases h; exact ih _ _ (.inl rfl)
  | _ =>
    intro k e h
    rcases h with h | h <;> cases h

theorem continues_zero {j : List Item} (h : continues 1 j = false) (hc : look j ≠ .Comma) : continues 0 j = false := by
  rw [continues_eq] at h ⊢
  have : ∀ a ∈ Asi.all, ∀ t ∈ Token.all, continuesTok 1 a t = false → t ≠ .Comma → continuesTok 0 a t = false := by decide +kernel
  exact this _ (Asi.mem_all _) _ (Token.mem_all _) h hc

theorem Spec.G.commaTail_stop {i j : List Item} {x : Phrase} (h : G i x j) : ∀ es, x = .commaTail es → continues 0 j = false := by
  induction h with
  | commaLast h h' =>
    intro _ _
    cases h with
    | whole _ h => exact continues_zero h h'
  | commaMore _ _ _ _ ih => exact fun _ _ => ih _ rfl
  | _ => intro _ h; cases h

/-! ### Tables -/

/-- What the handlers after an expression stand for. -/
def nhSpec (k : Nat) (a : Asi) (t : Token) : NH → Bool
  | .SEQ => t == .Comma && k == 0
  | .COND => t == .OperatorConditional && decide (k ≤ 1)
  | .ARRW => t == .OperatorFatArrow
  | .ACCS => t == .Accessor
  | .CALL => t == .ParenOpen
  | .CMEM => t == .BracketOpen
  | .TPLS => t == .TemplateClosed
  | .TPLE => t == .TemplateOpen
  | .postfix op => postfixOp t == some op && a != .ImplicitSemicolon
  | .assign op => assignOp t == some op && decide (k ≤ 1)
  | .binary L op => match binaryOp t with
    | some (op', p) => op' == op && minPower L == p + 1 && decide (k ≤ p) && decide (5 ≤ p) && decide (p ≤ 15)
    | none => false

theorem nested_spec {L : Lvl} {a : Asi} {t : Token} {h : NH} (hh : nestedHandler L a t = some h) :
    nhSpec (minPower L) a t h = true ∧ special t = (h == .ACCS || h == .TPLS || h == .TPLE) := by
  have : ∀ L ∈ Lvl.all, ∀ a ∈ Asi.all, ∀ t ∈ Token.all, (match nestedHandler L a t with
      | some h => nhSpec (minPower L) a t h && (special t == (h == .ACCS || h == .TPLS || h == .TPLE))
      | none => true) = true := by decide +kernel
  have := this L L.mem_all a a.mem_all t t.mem_all
  rw [hh] at this
  simpa using this

/-- What the handlers at the start of an expression stand for. -/
def ehSpec (t : Token) : EH → Bool
  | .ERR => true
  | .VOID => t == .Comma || t == .BracketClose
  | .OBJ => t == .BraceOpen
  | .CLAS => t == .Class
  | .FUNC => t == .Function
  | .IDEN => t == .Identifier
  | .SPRD => t == .OperatorSpread
  | .THIS => t == .This
  | .OP => (prefixOp t).isSome && prefixOp t == Op.fromToken t && special t == false
  | .NEW => t == .OperatorNew
  | .PRN => t == .ParenOpen
  | .ARR => t == .BracketOpen
  | .REG => t == .OperatorDivision
  | .TRUE => t == .LiteralTrue
  | .FALS => t == .LiteralFalse
  | .NULL => t == .LiteralNull
  | .UNDE => t == .LiteralUndefined
  | .STR => t == .LiteralString
  | .NUM => t == .LiteralNumber
  | .BIN => t == .LiteralBinary
  | .TPLS => t == .TemplateClosed
  | .TPLE => t == .TemplateOpen

theorem head_spec (c : Ctx) (t : Token) : ehSpec t (exprHandler c t) = true ∧ (exprHandler c t = .VOID → c = .ARRAY) ∧
    (exprHandler c t = .SPRD → c ≠ .DEF) := by
  revert t
  cases c <;> exact forall_token (by decide +kernel)

theorem minPower_le (L : Lvl) : minPower L ≤ 16 := by cases L <;> decide


/-! ### The expression read so far -/

/-- An expression of power `q` that is followed by `j` cannot be continued at its own power. -/
def Stops (q : Nat) (j : List Item) : Prop :=
  q = 17 ∨ (q ≤ 1 ∧ continues q j = false) ∨ (5 ≤ q ∧ q ≤ 15 ∧ continues (q + 1) j = false) ∨ (q = 16 ∧ continues 16 j = false)

/-- The expression `e` has been read up to the state `l`, starting at items in `S`. -/
def Left (S : List Item → Prop) (k : Nat) (e : Expr) (l : Lex) : Prop :=
  ∃ q, k ≤ q ∧ ∀ j, Str l j → ∃ i, S i ∧ G i (.expr q (bareExpr e)) j ∧ Stops q j

variable {S : List Item → Prop} {k : Nat} {e left : Expr} {l l' : Lex}

theorem Left.operand (hk : k ≤ 16) (h : ∀ j, Str l j → ∃ i, S i ∧ G i (.expr 17 (bareExpr e)) j) : Left S k e l :=
  ⟨17, by omega, fun j hs => by
    obtain ⟨i, h1, h2⟩ := h j hs
    exact ⟨i, h1, h2, .inl rfl⟩⟩

theorem Left.of_got (hk : k ≤ 16) (h : Got l (.expr 17 (bareExpr e)) l') : Left (Str l) k e l' := .operand hk h

theorem Left.whole (h : Left S k e l) (hc : ∀ j, Str l j → continues k j = false) :
    ∀ j, Str l j → ∃ i, S i ∧ G i (.whole k (bareExpr e)) j := by
  obtain ⟨q, h1, h2⟩ := h
  intro j hs
  obtain ⟨i, h3, h4, -⟩ := h2 j hs
  exact ⟨i, h3, .whole (h4.mono h1) (hc j hs)⟩

/-! ### Arrow functions -/

theorem patternFromExpression_sound : ∀ (e : Expr) {l : Lex}, W (patternFromExpression e) l fun p l' => l' = l ∧
    paramOf (bareExpr e) = some (barePat p) := by
  intro e
  induction e using patternFromExpression.induct with
  | case1 loc left right ih =>
    intro l
    rw [patternFromExpression]
    refine .bind (src := []) (ih.weaken ?_) (fun _ => by mono)
    rintro p _ ⟨rfl, h1⟩
    exact .pure ⟨rfl, by simp [bareExpr, paramOf, h1, barePat]⟩
  | case2 loc nm =>
    intro l
    rw [patternFromExpression]
    exact .pure ⟨rfl, by simp [bareExpr, paramOf, barePat]⟩
  | case3 e h1 h2 =>
    intro l
    rw [patternFromExpression]
    · exact .error (src := []) fun _ => .pure _
    all_goals assumption

theorem paramsFromExpressions_sound : ∀ (es : List Expr) {l : Lex},
    W (paramsFromExpressions es) l fun ps l' => l' = l ∧ (bareExprs es).mapM paramOf = some (barePats ps) := by
  intro es
  induction es with
  | nil => intro l; exact .pure ⟨rfl, rfl⟩
  | cons e es ih =>
    intro l
    rw [paramsFromExpressions]
    refine .bind (src := []) ((patternFromExpression_sound e).weaken ?_) (fun _ => by mono)
    rintro p _ ⟨rfl, h1⟩
    refine .bind (src := []) (ih.weaken ?_) (fun _ => by mono)
    rintro ps _ ⟨rfl, h2⟩
    exact .pure ⟨rfl, by simp [bareExprs, barePats, h1, h2]⟩

/-- The body of an arrow function with the parameters `ps`. -/
def ArrowGot (l : Lex) (ps : List Expr) (e : Expr) (l' : Lex) : Prop :=
  ∃ pats, (bareExprs ps).mapM paramOf = some pats ∧
    ((∃ b, bareExpr e = .arrowE z pats b ∧ l.token ≠ .BraceOpen ∧ Got l (.whole 1 b) l') ∨
      ∃ b, bareExpr e = .arrowB z pats b ∧ Got l (.block b) l')

theorem arrow_sound {s : Nat} {ps : List Expr} (hl : At src l) :
    W (arrowFunctionExpression n R s ps) l fun e l' => ArrowGot l ps e l' := by
  unfold arrowFunctionExpression
  refine .bind (src := src) ((paramsFromExpressions_sound ps).weaken ?_) (fun _ => by mono)
  rintro pats _ ⟨rfl, hp⟩
  go
  · rename_i ht _ h
    exact ⟨_, hp, .inr ⟨_, rfl, h ht⟩⟩
  · rename_i ht _ h
    exact ⟨_, hp, .inl ⟨_, rfl, ht, h⟩⟩

/-! ### The start of an expression -/

theorem literal_sound {v : Bytes → Literal} {t : Token} (hl : At src l) (hk : k ≤ 16) (ht : l.token = t) (hs : special t = false)
    (hv : literalOf t l.tokenAsStr = some (v l.tokenAsStr)) : W (literalExpr v) l fun e l' => Left (Str l) k e l' := by
  unfold literalExpr
  go
  rename_i hn
  refine .of_got hk fun j h => ?_
  obtain ⟨i, h1, h2, -⟩ := h.plain hn ht hs
  exact ⟨i, h1, .lit (by omega) h2 hv⟩

theorem paren_sound (hl : At src l) (hk : k ≤ 16) (ht : l.token = .ParenOpen) : W (parenExpression n R) l fun e l' => Left (Str l) k e l' := by
  unfold parenExpression
  go
  · rename_i l1 h1 n1 h2 l2 h3 n2 h4 h5 n3
    refine (arrow_sound (src := src) h5).weaken fun e m hm => .of_got hk ?_
    obtain ⟨pats, g1, g2⟩ := hm
    cases g1
    rcases g2 with ⟨b, g2, g3, g4⟩ | ⟨b, g2, g4⟩
    · rw [g2]
      back
      rule G.arrow0
    · rw [g2]
      back
      rule G.arrowBlock0
  · refine .of_got hk ?_
    back
    rule G.paren

theorem object_sound (hl : At src l) (hk : k ≤ 16) (ht : l.token = .BraceOpen) : W (objectExpression n R) l fun e l' => Left (Str l) k e l' := by
  unfold objectExpression
  go
  refine .of_got hk ?_
  back
  rule G.object

theorem array_sound (hl : At src l) (hk : k ≤ 16) (ht : l.token = .BracketOpen) : W (arrayExpression n R) l fun e l' => Left (Str l) k e l' := by
  unfold arrayExpression
  go
  rename_i m1 n1
  refine .call (src := src) m1 (arrayElements_sound (src := src) (T := fun ps i j => G i (.elems (bareExprs ps)) j)
    (fun l hl => Gs.is (src := src) l hl) (fun h1 h2 => .elemsLast h1 h2) (fun h1 h2 h3 => .elemsMore h1 h2 h3) m1)
    (fun xs m hm _ hx => ?_) (by mono)
  obtain ⟨ht', hx⟩ := hx
  go
  refine .of_got hk ?_
  rcases hx with ⟨rfl, rfl⟩ | ⟨_, _, _⟩
  · back
    rule G.emptyArray
  · back
    rule G.array

theorem head_sound {h : EH} (hl : At src l) (hk : k ≤ 16) (ht : ehSpec l.token h = true) (hv : h ≠ .VOID) (hsp : h ≠ .SPRD) :
    W (runEH n R h) l fun e l' => Left (Str l) k e l' := by
  cases h with
  | ERR => exact .start (.error (src := src) fun _ => .pure _)
  | VOID => exact absurd rfl hv
  | SPRD => exact absurd rfl hsp
  | OBJ => exact object_sound hl hk (by simpa [ehSpec] using ht)
  | PRN => exact paren_sound hl hk (by simpa [ehSpec] using ht)
  | ARR => exact array_sound hl hk (by simpa [ehSpec] using ht)
  | REG => exact (regularExpression_sound hl (by simpa [ehSpec] using ht)).weaken fun _ _ h => .of_got hk h
  | CLAS =>
    have ht : l.token = .Class := by simpa [ehSpec] using ht
    unfold runEH
    go
    refine .of_got hk ?_
    back
    rule G.class
  | FUNC =>
    have ht : l.token = .Function := by simpa [ehSpec] using ht
    unfold runEH
    go
    refine .of_got hk ?_
    back
    rule G.function
  | IDEN =>
    have ht : l.token = .Identifier := by simpa [ehSpec] using ht
    unfold runEH
    go
    refine .of_got hk ?_
    back
    rule G.ident
  | THIS =>
    have ht : l.token = .This := by simpa [ehSpec] using ht
    unfold runEH
    go
    refine .of_got hk ?_
    back
    rule G.this
  | OP =>
    simp only [ehSpec, Bool.and_eq_true, beq_iff_eq] at ht
    obtain ⟨⟨h1, h2⟩, h3⟩ := ht
    unfold runEH
    go
    · intro _ _ h; cases h
    · rename_i op hop _ _ hn _ hg
      refine ⟨16, hk, fun j hs => ?_⟩
      obtain ⟨i, g1, g2⟩ := hg j hs
      obtain ⟨i', g3, g4, -⟩ := g1.plain hn rfl h3
      exact ⟨i', g3, .prefix (by omega) g4.tk (h2.trans hop) g2, .inr (.inr (.inr ⟨rfl, by cases g2; assumption⟩))⟩
  | NEW =>
    have ht : l.token = .OperatorNew := by simpa [ehSpec] using ht
    unfold runEH
    go
    · rename_i l1 _ hn ha hw _ hn'
      refine .of_got hk fun j hs => ?_
      obtain ⟨i, h1, h2, -⟩ := hs.back hn' ha (by simp)
      obtain ⟨i', h3, h4, -⟩ := h1.plain hn ht rfl
      have : l1.text = l1.accessorAsStr := by simp [Lex.text, ha]
      have hw : l1.accessorAsStr = bs!"target" := by simpa using hw
      refine ⟨i', h3, ?_⟩
      simp only [bareExpr, bareIdent, hw]
      rw [this, hw] at h2
      exact .newTarget (Nat.le_refl _) h4.tk h2
    · rename_i hn ha _ hg
      refine ⟨16, hk, fun j hs => ?_⟩
      obtain ⟨i, g1, g2⟩ := hg j hs
      obtain ⟨i', g3, g4, -⟩ := g1.plain hn ht rfl
      exact ⟨i', g3, .new (by omega) g4.tk (by rw [← g1.token]; exact ha) g2, .inr (.inr (.inr ⟨rfl, by cases g2; assumption⟩))⟩
  | TRUE => have ht : l.token = .LiteralTrue := by simpa [ehSpec] using ht
            exact literal_sound hl hk ht rfl rfl
  | FALS => have ht : l.token = .LiteralFalse := by simpa [ehSpec] using ht
            exact literal_sound hl hk ht rfl rfl
  | NULL => have ht : l.token = .LiteralNull := by simpa [ehSpec] using ht
            exact literal_sound hl hk ht rfl rfl
  | UNDE => have ht : l.token = .LiteralUndefined := by simpa [ehSpec] using ht
            exact literal_sound hl hk ht rfl rfl
  | STR => have ht : l.token = .LiteralString := by simpa [ehSpec] using ht
           exact literal_sound hl hk ht rfl rfl
  | NUM => have ht : l.token = .LiteralNumber := by simpa [ehSpec] using ht
           exact literal_sound hl hk ht rfl rfl
  | BIN => have ht : l.token = .LiteralBinary := by simpa [ehSpec] using ht
           exact literal_sound hl hk ht rfl rfl
  | TPLS =>
    unfold runEH
    refine .call hl (templateString_sound hl (by simpa [ehSpec] using ht)) (fun r l' h1 h2 h3 => ?_) (fun _ => by mono)
    obtain ⟨loc, es, qs⟩ := r
    refine .pure (.of_got hk ?_)
    back
    rule G.template
  | TPLE =>
    unfold runEH
    refine .call hl (templateLiteral_sound hl (by simpa [ehSpec] using ht)) (fun r l' h1 h2 h3 => ?_) (fun _ => by mono)
    obtain ⟨loc, es, qs⟩ := r
    refine .pure (.of_got hk ?_)
    back
    rule G.template


/-! ### What follows an expression -/

theorem continues_binary {q p : Nat} {op : Op} {j : List Item} (h : binaryOp (look j) = some (op, p)) (hq : q ≤ p) : continues q j = true := by
  rw [continues_eq]
  generalize look j = t at *
  cases t <;> simp_all [binaryOp, continuesTok, assignOp]

theorem Stops.binary {q p : Nat} {op : Op} {j : List Item} (hs : Stops q j) (h : binaryOp (look j) = some (op, p)) (h5 : 5 ≤ p) (h15 : p ≤ 15) :
    p ≤ q := by
  have := fun q => continues_binary (q := q) h
  rcases hs with rfl | ⟨h1, h2⟩ | ⟨h1, h2, h3⟩ | ⟨h1, h2⟩
  · omega
  · rw [this q (by omega)] at h2; cases h2
  · apply Classical.byContradiction
    intro hn
    rw [this (q + 1) (by omega)] at h3; cases h3
  · omega

theorem Stops.tight {q : Nat} {j : List Item} (hs : Stops q j) (h : ∀ k, continues k j = true) : q = 17 := by
  rcases hs with rfl | ⟨h1, h2⟩ | ⟨h1, h2, h3⟩ | ⟨h1, h2⟩
  · rfl
  all_goals simp_all

theorem Stops.cond {q : Nat} {j : List Item} (hs : Stops q j) (h : look j = .OperatorConditional) : 5 ≤ q := by
  rcases hs with rfl | ⟨h1, h2⟩ | ⟨h1, h2, h3⟩ | ⟨h1, h2⟩
  · omega
  · simp [continues, h] at h2; omega
  all_goals omega

theorem Stops.comma {q : Nat} {j : List Item} (hs : Stops q j) (h : look j = .Comma) : 1 ≤ q := by
  rcases hs with rfl | ⟨h1, h2⟩ | ⟨h1, h2, h3⟩ | ⟨h1, h2⟩
  · omega
  · simp [continues, h] at h2; omega
  all_goals omega

/-- The last step of an expression. -/
theorem Left.tight (h : Left S k left l) (hc : ∀ j, Str l j → ∀ k, continues k j = true) {j : List Item} (hs : Str l j) :
    ∃ i, S i ∧ G i (.expr 17 (bareExpr left)) j := by
  obtain ⟨q, h1, h2⟩ := h
  obtain ⟨i, h3, h4, h5⟩ := h2 j hs
  cases h5.tight (hc j hs)
  exact ⟨i, h3, h4⟩

theorem Left.target (h : Left S k left l) (ht : left.isLvalue = true) {j : List Item} (hs : Str l j) :
    ∃ i, S i ∧ G i (.expr 17 (bareExpr left)) j ∧ target (bareExpr left) = true := by
  obtain ⟨q, h1, h2⟩ := h
  obtain ⟨i, h3, h4, h5⟩ := h2 j hs
  have : Spec.target (bareExpr left) = true := by
    cases left <;> simp [Expr.isLvalue] at ht <;> simp [bareExpr, Spec.target]
    rw [bareExpr] at h4
    exact no_spread h4 _ _ (.inl rfl)
  exact ⟨i, h3, h4.tight this, this⟩

set_option hygiene false in
/-- Walks back to the start of the operator. -/
macro "unwind" : tactic => `(tactic| (
  inst_all
  (try cases_type* And)
  have _ := hs.token.symm
  have _ := hs.asi.symm
  repeat back_step))

set_option hygiene false in
/-- Applies a rule of the grammar to the left operand `hx`. -/
macro "extend" r:term : tactic => `(tactic| (
  obtain ⟨i0, hi0, hx⟩ := hx
  (try cases_type* And)
  refine ⟨i0, hi0, ?_⟩
  (try simp only [bareExpr, bareExprs, bareIdent])
  apply $r <;> side))

theorem nest_sound {h : NH} {L : Lvl} (hl : At src l) (hh : nestedHandler L l.asi l.token = some h) (hL : Left S (minPower L) left l) :
    W (runNH n R h left) l fun e l' => Left S (minPower L) e l' := by
  obtain ⟨hsp, hspec⟩ := nested_spec hh
  have hk := minPower_le L
  cases h with
  | SEQ =>
    simp only [nhSpec, Bool.and_eq_true, beq_iff_eq] at hsp
    obtain ⟨ht, hk1⟩ := hsp
    unfold runNH
    go
    rename_i l1 h1 n1 h2 hx
    refine W.bind (src := src) (m := loop n _ _) ?_ (fun _ => by mono)
    refine W.loop (src := src) (fun acc m => At src m ∧ ∃ es, acc = left :: es ∧ ∀ j xs k, Str m j →
      ((xs = [] ∧ k = j ∧ look j ≠ .Comma) ∨ ∃ n, Tk .Comma j n ∧ G n (.commaTail (bareExprs xs)) k) →
        ∃ i, Str l1 i ∧ G i (.commaTail (bareExprs (es ++ xs))) k)
      (fun acc m hm => ?_) (fun _ => by mono) ⟨h2, [a], rfl, fun j xs k g1 g2 => ?_⟩
    · obtain ⟨k1, es, rfl, k3⟩ := hm
      refine .tok ?_
      split
      · rename_i ht
        go
        rename_i m1 n2 m2 hx
        refine ⟨m2, es ++ [a], rfl, fun j xs k g1 g2 => ?_⟩
        obtain ⟨i, g3, g4⟩ := hx j g1
        obtain ⟨i', g5, g6, -⟩ := g3.plain (src := src) (l := m) (t := .Comma) (by assumption) (by assumption) rfl
        have := k3 i' (a :: xs) k g5 (.inr ⟨_, g6.tk, by
          rcases g2 with ⟨rfl, rfl, g2⟩ | ⟨o, g7, g8⟩
          · exact .commaLast g4 g2
          · exact .commaMore g4 g7 g8⟩)
        simpa using this
      · rename_i ht'
        refine .pure (.stop (.pure ?_))
        rw [hk1] at hL ⊢
        refine ⟨0, Nat.le_refl _, fun j hs => ?_⟩
        obtain ⟨i1, g1, g2⟩ := k3 j [] j hs (.inl ⟨rfl, rfl, by rw [← hs.token]; exact ht'⟩)
        obtain ⟨i2, g3, g4, -⟩ := g1.plain n1 ht rfl
        obtain ⟨q, q1, q2⟩ := hL
        obtain ⟨i0, g5, g6, g7⟩ := q2 i2 g3
        refine ⟨i0, g5, ?_, .inr (.inl ⟨by omega, g2.commaTail_stop _ rfl⟩)⟩
        simp only [bareExpr, bareExprs]
        rw [List.append_nil] at g2
        exact .comma (g6.mono (g7.comma (g3.token.symm.trans ht))) g4.tk g2
    · obtain ⟨i, g3, g4⟩ := hx j g1
      refine ⟨i, g3, ?_⟩
      rcases g2 with ⟨rfl, rfl, g2⟩ | ⟨o, g7, g8⟩
      · exact .commaLast g4 g2
      · exact .commaMore g4 g7 g8
  | COND =>
    simp only [nhSpec, Bool.and_eq_true, beq_iff_eq, decide_eq_true_eq] at hsp
    obtain ⟨ht, hk1⟩ := hsp
    obtain ⟨q, h1, h2⟩ := hL
    unfold runNH
    go
    refine ⟨1, hk1, fun j hs => ?_⟩
    unwind
    rename_i g1 _ _ _ g2 _ _ _ g3 _ _ _ g4 _ _
    obtain ⟨i0, g5, g6, g7⟩ := h2 _ hs
    refine ⟨i0, g5, ?_, .inr (.inl ⟨Nat.le_refl _, by cases g1; assumption⟩)⟩
    exact .cond (Nat.le_refl _) (g6.mono (g7.cond (hs.token.symm.trans ht))) g4.tk g3 g2.tk g1
  | ARRW =>
    have ht : l.token = .OperatorFatArrow := by simpa [nhSpec] using hsp
    have key : ∀ {l1} (h1 : At src l1) (n1 : Nxt src l l1) ps s,
        (∀ pats, (bareExprs ps).mapM paramOf = some pats → paramsOf (bareExpr left) = some pats) →
        W (arrowFunctionExpression n R s ps) l1 fun e l' => Left S (minPower L) e l' := by
      intro l1 h1 n1 ps s hps
      refine (arrow_sound (src := src) h1).weaken fun e m hm => .operand hk fun j hs => ?_
      obtain ⟨pats, p1, p2⟩ := hm
      have hp := hps _ p1
      rcases p2 with ⟨b, g2, g3, g4⟩ | ⟨b, g2, g4⟩
      · rw [g2]
        unwind
        have hx := hL.tight (fun j hs k => by simp [continues, ← hs.token, ht]) hs
        extend G.arrow
      · rw [g2]
        unwind
        have hx := hL.tight (fun j hs k => by simp [continues, ← hs.token, ht]) hs
        extend G.arrowBlock
    unfold runNH
    go
    · exact key (by assumption) (by assumption) _ _ fun pats h => by rw [bareExpr, paramsOf]; exact h
    · rename_i hq
      refine key (by assumption) (by assumption) _ _ fun pats p1 => ?_
      simp [bareExprs] at p1
      have : paramsOf (bareExpr left) = (paramOf (bareExpr left)).map fun p => [p] := by
        unfold paramsOf
        split
        · rename_i h
          exfalso
          cases left <;> simp [bareExpr] at h
          exact hq _ _ rfl
        · rfl
      rw [this]
      cases hpx : paramOf (bareExpr left) <;> simp_all
  | ACCS =>
    have ht : l.token = .Accessor := by simpa [nhSpec] using hsp
    unfold runNH
    go
    rename_i hn
    refine .operand hk fun j hs => ?_
    obtain ⟨i, h1, h2, -⟩ := hs.back hn ht (by simp)
    have hx := hL.tight (fun j hs k => by simp [continues, ← hs.token, ht]) h1
    have : l.text = l.accessorAsStr := by simp [Lex.text, ht]
    rw [this] at h2
    extend G.member
  | CALL =>
    have ht : l.token = .ParenOpen := by simpa [nhSpec] using hsp
    unfold runNH
    go
    refine .operand hk fun j hs => ?_
    unwind
    have hx := hL.tight (fun j hs k => by simp [continues, ← hs.token, ht]) hs
    extend G.call
  | CMEM =>
    have ht : l.token = .BracketOpen := by simpa [nhSpec] using hsp
    unfold runNH
    go
    refine .operand hk fun j hs => ?_
    unwind
    have hx := hL.tight (fun j hs k => by simp [continues, ← hs.token, ht]) hs
    extend G.index
  | TPLS =>
    have ht : l.token = .TemplateClosed := by simpa [nhSpec] using hsp
    unfold runNH
    refine .call hl (templateString_sound hl ht) (fun r l' h1 h2 h3 => ?_) (fun _ => by mono)
    obtain ⟨loc, es, qs⟩ := r
    refine .pure (.operand hk fun j hs => ?_)
    unwind
    have hx := hL.tight (fun j hs k => by simp [continues, ← hs.token, ht]) hs
    extend G.tagged
  | TPLE =>
    have ht : l.token = .TemplateOpen := by simpa [nhSpec] using hsp
    unfold runNH
    refine .call hl (templateLiteral_sound hl ht) (fun r l' h1 h2 h3 => ?_) (fun _ => by mono)
    obtain ⟨loc, es, qs⟩ := r
    refine .pure (.operand hk fun j hs => ?_)
    unwind
    have hx := hL.tight (fun j hs k => by simp [continues, ← hs.token, ht]) hs
    extend G.tagged
  | «postfix» op =>
    simp only [nhSpec, Bool.and_eq_true, beq_iff_eq, bne_iff_ne] at hsp
    obtain ⟨hop, ha⟩ := hsp
    unfold runNH
    go
    rename_i hn ht
    refine .operand hk fun j hs => ?_
    obtain ⟨i, h1, -, rfl⟩ := hs.plain hn rfl (hspec.trans rfl)
    obtain ⟨i0, h2, h3, h4⟩ := hL.target (by simpa using ht) h1
    exact ⟨i0, h2, .postfix (Nat.le_refl _) h3 h4 hop ha⟩
  | assign op =>
    simp only [nhSpec, Bool.and_eq_true, beq_iff_eq, decide_eq_true_eq] at hsp
    obtain ⟨hop, hk1⟩ := hsp
    unfold runNH
    go
    rename_i hn ht _ hg
    refine ⟨1, hk1, fun j hs => ?_⟩
    obtain ⟨i1, g1, g2⟩ := hg j hs
    obtain ⟨i, h1, h1', -⟩ := g1.plain hn rfl (hspec.trans rfl)
    obtain ⟨i0, h2, h3, h4⟩ := hL.target (by simpa using ht) h1
    exact ⟨i0, h2, .assign (Nat.le_refl _) h3 h4 h1'.tk hop g2, .inr (.inl ⟨Nat.le_refl _, by cases g2; assumption⟩)⟩
  | binary L' op =>
    simp only [nhSpec] at hsp
    split at hsp
    · rename_i op' p hop
      simp only [Bool.and_eq_true, beq_iff_eq, decide_eq_true_eq] at hsp
      obtain ⟨⟨⟨⟨rfl, h2⟩, h3⟩, h4⟩, h5⟩ := hsp
      obtain ⟨q, q1, q2⟩ := hL
      unfold runNH
      go
      rename_i hn _ hg
      rw [h2] at hg
      refine ⟨p, h3, fun j hs => ?_⟩
      obtain ⟨i1, g1, g2⟩ := hg j hs
      obtain ⟨i, g3, g4, -⟩ := g1.plain hn rfl (hspec.trans rfl)
      obtain ⟨i0, g5, g6, g7⟩ := q2 i g3
      have hop' : binaryOp (look i) = some (op', p) := by rw [← g3.token]; exact hop
      exact ⟨i0, g5, .binary hop (Nat.le_refl _) (g6.mono (g7.binary hop' h4 h5)) g4.tk g2,
        .inr (.inr (.inl ⟨h4, h5, by cases g2; assumption⟩))⟩
    · cases hsp


theorem nested_sound {L : Lvl} (hl : At src l) (hL : Left S (minPower L) left l) :
    W (nestedExpression n R L left) l fun e l' => ∀ j, Str l' j → ∃ i, S i ∧ G i (.whole (minPower L) (bareExpr e)) j := by
  unfold nestedExpression
  refine W.loop (src := src) (fun e m => At src m ∧ Left S (minPower L) e m) (fun e m hm => ?_) (fun _ => by mono) ⟨hl, hL⟩
  obtain ⟨h1, h2⟩ := hm
  refine .asi (.tok ?_)
  split
  · rename_i h hh
    exact .call (src := src) h1 (nest_sound h1 hh h2) (fun e m hm _ hx => .pure ⟨hm, hx⟩) (fun _ => by mono)
  · rename_i hh
    refine .pure (h2.whole fun j hs => ?_)
    rw [continues_eq, ← hs.token, ← hs.asi, ← handler_iff, hh]
    rfl

theorem nested_idle {L : Lvl} (hl : At src l) (hh : nestedHandler L l.asi l.token = none) :
    W (nestedExpression n R L left) l fun e l' => e = left ∧ l' = l := by
  unfold nestedExpression
  refine W.loop (src := src) (fun e m => At src m ∧ e = left ∧ m = l) (fun e m hm => ?_) (fun _ => by mono) ⟨hl, rfl, rfl⟩
  obtain ⟨h1, rfl, rfl⟩ := hm
  refine .asi (.tok ?_)
  rw [hh]
  exact .pure ⟨rfl, rfl⟩

theorem nested_stop {L : Lvl} (hl : At src l) :
    W (nestedExpression n R L left) l fun _ l' => nestedHandler L l'.asi l'.token = none := by
  unfold nestedExpression
  refine W.loop (src := src) (fun e m => At src m) (fun e m hm => ?_) (fun _ => by mono) hl
  refine .asi (.tok ?_)
  split
  · rename_i h hh
    exact .call (src := src) (Q1 := fun _ _ => True) hm (fun _ _ _ => trivial) (fun e m hm _ hx => .pure hm) (fun _ => by mono)
  · rename_i hh
    exact .pure hh

theorem head_call {β : Type} {h : EH} {f : Expr → P β} {Q1 : Expr → Lex → Prop} {Q : β → Lex → Prop} (hl : At src l)
    (ht : ehSpec l.token h = true) (hw : W (runEH n R h) l Q1)
    (hf : ∀ e l', At src l' → Q1 e l' → W (f e) l' Q) (hm : ∀ a, Mono src (f a)) : W (runEH n R h >>= f) l Q := by
  refine .bind ?_ hm
  intro a l' hr
  have hpre : (h = .OP → Op.fromToken l.token ≠ none) ∧ (h = .REG → l.token = .OperatorDivision) := by
    refine ⟨fun e => ?_, fun e => ?_⟩
    · subst e
      intro h'
      simp [ehSpec, h'] at ht
      cases hp : prefixOp l.token <;> simp_all
    · subst e
      simpa [ehSpec] using ht
  exact hf a l' ((runEH_prog (src := src) h).proper hl.proper hpre hr).at (hw a l' hr)

theorem expression_sound {L : Lvl} (hl : At src l) :
    W (expression n R .DEF L) l fun e l' => Got l (.whole (minPower L) (bareExpr e)) l' := by
  unfold expression
  refine .tok ?_
  obtain ⟨h1, h2, h3⟩ := head_spec .DEF l.token
  refine head_call hl h1 (head_sound hl (minPower_le L) h1 (fun h => by cases h2 h) (fun h => h3 h rfl)) (fun e m hm hx => ?_)
    (fun _ => by mono)
  exact (nested_sound hm hx)

theorem expression_idle {L : Lvl} (hl : At src l) :
    W (expression n R .DEF L) l fun _ l' => nestedHandler L l'.asi l'.token = none := by
  unfold expression
  refine .tok ?_
  exact head_call (Q1 := fun _ _ => True) hl (head_spec .DEF l.token).1 (fun _ _ _ => trivial) (fun e m hm hx => nested_stop hm) (fun _ => by mono)

theorem W.and {α : Type} {m : P α} {Q Q' : α → Lex → Prop} (h : W m l Q) (h' : W m l Q') : W m l fun a l' => Q a l' ∧ Q' a l' :=
  fun a l' hr => ⟨h a l' hr, h' a l' hr⟩

theorem spread_sound (hl : At src l) (ht : l.token = .OperatorSpread) : W (runEH n R .SPRD) l fun e l' =>
    nestedHandler .B0 l'.asi l'.token = none ∧
    ∃ e', bareExpr e = .spread z e' ∧ Via l (fun i j => ∃ m, Tk .OperatorSpread i m ∧ G m (.whole 1 e') j) l' := by
  unfold runEH
  refine .startThenConsume (src := src) hl fun l1 h1 n1 => ?_
  refine .call (src := src) h1 ((hR.idle .B0 _ h1).and (Gs.is (src := src) _ h1)) (fun e m hm _ hx => .pure ?_) (fun _ => by mono)
  refine ⟨hx.1, _, rfl, ?_⟩
  back
  exact ⟨_, hs, _, Spec.Wd.tk (by assumption), by assumption⟩

theorem argument_sound (hl : At src l) : W (expression n R .CALL .B0) l fun e l' => Got l (.arg (bareExpr e)) l' := by
  unfold expression
  refine .tok ?_
  obtain ⟨h1, h2, h3⟩ := head_spec .CALL l.token
  by_cases hsp : exprHandler .CALL l.token = .SPRD
  · rw [hsp] at h1 ⊢
    refine head_call hl h1 (spread_sound hl (by simpa [ehSpec] using h1)) (fun e m hm hx => ?_) (fun _ => by mono)
    obtain ⟨g1, e', g2, g3⟩ := hx
    refine (nested_idle hm g1).weaken ?_
    rintro _ _ ⟨rfl, rfl⟩
    rw [g2]
    back
    obtain ⟨m, _, _⟩ := (by assumption : ∃ m, Tk .OperatorSpread _ m ∧ G m _ _)
    rule G.argSpread
  · refine head_call hl h1 (head_sound hl (minPower_le .B0) h1 (fun h => by cases h2 h) hsp) (fun e m hm hx => ?_)
      (fun _ => by mono)
    refine (nested_sound hm hx).weaken fun e l' h => fun j hs => ?_
    obtain ⟨i, h1, h2⟩ := h j hs
    exact ⟨i, h1, .arg h2⟩

theorem element_sound (hl : At src l) : W (expression n R .ARRAY .B0) l fun e l' => Got l (.elem (bareExpr e)) l' := by
  unfold expression
  refine .tok ?_
  obtain ⟨h1, h2, h3⟩ := head_spec .ARRAY l.token
  by_cases hv : exprHandler .ARRAY l.token = .VOID
  · rw [hv] at h1 ⊢
    have h1 : l.token = .Comma ∨ l.token = .BracketClose := by simpa [ehSpec] using h1
    unfold runEH
    go
    refine (nested_idle hl (nestedHandler_sep h1)).weaken ?_
    rintro _ _ ⟨rfl, rfl⟩
    intro j hs
    exact ⟨j, hs, .elemHole (by rw [← hs.token]; exact h1)⟩
  by_cases hsp : exprHandler .ARRAY l.token = .SPRD
  · rw [hsp] at h1 ⊢
    refine head_call hl h1 (spread_sound hl (by simpa [ehSpec] using h1)) (fun e m hm hx => ?_) (fun _ => by mono)
    obtain ⟨g1, e', g2, g3⟩ := hx
    refine (nested_idle hm g1).weaken ?_
    rintro _ _ ⟨rfl, rfl⟩
    rw [g2]
    back
    obtain ⟨m, _, _⟩ := (by assumption : ∃ m, Tk .OperatorSpread _ m ∧ G m _ _)
    rule G.elemSpread
  · refine head_call hl h1 (head_sound hl (minPower_le .B0) h1 hv hsp) (fun e m hm hx => ?_)
      (fun _ => by mono)
    refine (nested_sound hm hx).weaken fun e l' h => fun j hs => ?_
    obtain ⟨i, h1, h2⟩ := h j hs
    exact ⟨i, h1, .elem h2⟩

end Ratel
