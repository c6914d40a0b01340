import Verif.Lemmas.Join
/-! The items of a phrase are well formed; whether a semicolon may be inserted before its first item does not matter. -/
namespace Ratel
open Spec

/-- No item from `i` to `j` is a token that the end of the source has cut off. -/
def Good (i j : List Item) : Prop := ∀ x ∈ i, x.token = .UnexpectedEndOfProgram → x ∈ j

/-- The phrases that have a meaning. -/
def usable : Phrase → Bool
  | .optExpr .UnexpectedEndOfProgram _ => false
  | _ => true

/-- The phrases that have a first item. -/
def leads : Phrase → Bool
  | .expr _ _ | .whole _ _ | .template _ _ | .stmt _ | .block _ => true
  | _ => false

/-- The same item, but for the possibility of inserting a semicolon before it. -/
inductive SameItem : Item → Item → Prop where
  | tok {t : Token} {w : Bytes} {a b : Asi} : SameItem (.tok t w a) (.tok t w b)
  | regex {w : Bytes} {a b : Asi} : SameItem (.regex w a) (.regex w b)
  | resume {c : Bool} {w : Bytes} : SameItem (.resume c w) (.resume c w)

def Same (i y : List Item) : Prop := ∃ x x' r, SameItem x x' ∧ i = x :: r ∧ y = x' :: r

section
variable {i j m y : List Item}

namespace Good
theorem refl : Good j j := fun _ h _ => h
theorem trans (h : Good i m) (h' : Good m j) : Good i j := fun x hx ht => h' x (h x hx ht) ht
theorem cons {x : Item} (h : x.token ≠ .UnexpectedEndOfProgram) : Good (x :: j) j := fun y hy ht => by
  rcases List.mem_cons.1 hy with rfl | hy
  · exact absurd ht h
  · exact hy
theorem tok {t : Token} {w : Bytes} {a : Asi} (h : Good i (.tok t w a :: j)) (ht : t ≠ .UnexpectedEndOfProgram) : Good i j :=
  h.trans (cons ht)
theorem import_ {w : Bytes} {a : Asi} (h : Good (.tok .Identifier w a :: i) j) : Good (.tok .Import w a :: i) j := fun x hx ht => by
  rcases List.mem_cons.1 hx with rfl | hx
  · cases ht
  · exact h x (List.mem_cons_of_mem _ hx) ht
end Good

theorem Spec.Tk.good {t : Token} (h : Tk t i j) (ht : t ≠ .UnexpectedEndOfProgram) : Good i j := by
  obtain ⟨w, a, rfl⟩ := h; exact Good.cons ht
theorem Spec.Wd.good {t : Token} {w : Bytes} (h : Wd t w i j) (ht : t ≠ .UnexpectedEndOfProgram) : Good i j := by
  obtain ⟨a, rfl⟩ := h; exact Good.cons ht
theorem Spec.Semi.good (h : Semi i j) : Good i j := by
  cases h with
  | written => exact Good.cons (by simp [Item.token])
  | inserted => exact Good.refl
theorem Spec.OptSemi.good (h : OptSemi i j) : Good i j := by
  cases h with
  | written h => exact h.good (by decide)
  | absent => exact Good.refl
theorem Spec.NameAt.good {k : Naming} {x : Name} (h : NameAt k i x j) : Good i j := by
  cases h with
  | never => exact Good.refl
  | given h => exact h.good (by decide)
  | missing => exact Good.refl
  | always h => exact h.good (by decide)
theorem Spec.StarAt.good {b : Bool} (h : StarAt i b j) : Good i j := by
  cases h with
  | yes h => exact h.good (by decide)
  | no => exact Good.refl
theorem Spec.StaticAt.good {b : Bool} (h : StaticAt i b j) : Good i j := by
  cases h with
  | yes h => exact h.good (by decide)
  | no => exact Good.refl
theorem Spec.ImportName.good {s : ImportSpec} (h : ImportName i s j) : Good i j := by
  cases h with
  | plain h => exact h.good (by decide)
  | renamed h h1 h2 => exact (h.good (by decide)).trans ((h1.good (by decide)).trans (h2.good (by decide)))
theorem Spec.ImportNames.good {s : List ImportSpec} (h : ImportNames i s j) : Good i j := by
  induction h with
  | last h h1 => exact h.good.trans (h1.good (by decide))
  | more h h1 _ ih => exact h.good.trans ((h1.good (by decide)).trans ih)
theorem Spec.ImportGroup.good {s : List ImportSpec} (h : ImportGroup i s j) : Good i j := by
  cases h with
  | names h h1 => exact (h.good (by decide)).trans h1.good
  | all h h1 h2 => exact (h.good (by decide)).trans ((h1.good (by decide)).trans (h2.good (by decide)))
theorem Spec.ImportHead.good {s : List ImportSpec} (h : ImportHead i s j) : Good i j := by
  cases h with
  | one h => exact h.good (by decide)
  | both h h1 h2 => exact (h.good (by decide)).trans ((h1.good (by decide)).trans h2.good)
  | group h => exact h.good

section
variable {t : Token}
theorem literal_ok {w : Bytes} {v : Literal} (h : literalOf t w = some v) : t ≠ .UnexpectedEndOfProgram := by rintro rfl; cases h
theorem binary_ok {x : Op × Nat} (h : binaryOp t = some x) : t ≠ .UnexpectedEndOfProgram := by rintro rfl; cases h
theorem word_ok (h : t.isWord = true) : t ≠ .UnexpectedEndOfProgram := by rintro rfl; cases h
theorem two_ok (h : t = .LiteralString ∨ t = .LiteralNumber) : t ≠ .UnexpectedEndOfProgram := by rintro rfl; simp at h
theorem assign_ok {x : Op} (h : assignOp t = some x) : t ≠ .UnexpectedEndOfProgram := by rintro rfl; cases h
theorem prefix_ok {x : Op} (h : prefixOp t = some x) : t ≠ .UnexpectedEndOfProgram := by rintro rfl; cases h
theorem postfix_ok {x : Op} (h : postfixOp t = some x) : t ≠ .UnexpectedEndOfProgram := by rintro rfl; cases h
theorem decl_ok {x : DeclKind} (h : declKindOf t = some x) : t ≠ .UnexpectedEndOfProgram := by rintro rfl; cases h
theorem literal_else {w : Bytes} {v : Literal} (h : literalOf t w = some v) : t ≠ .Else := by rintro rfl; cases h
theorem prefix_else {x : Op} (h : prefixOp t = some x) : t ≠ .Else := by rintro rfl; cases h
theorem decl_else {x : DeclKind} (h : declKindOf t = some x) : t ≠ .Else := by rintro rfl; cases h
end

theorem Same.look (h : Same i y) : look y = look i := by
  obtain ⟨x, x', r, h, rfl, rfl⟩ := h
  cases h <;> rfl
theorem Same.tail (h : Same i y) : y.tail = i.tail := by obtain ⟨x, x', r, h, rfl, rfl⟩ := h; rfl
theorem Same.regex {w : Bytes} {a : Asi} (h : Same (.regex w a :: j) y) : ∃ b, y = .regex w b :: j := by
  obtain ⟨x, x', r, h, e, rfl⟩ := h
  obtain ⟨rfl, rfl⟩ := List.cons.inj e
  cases h; exact ⟨_, rfl⟩
theorem Same.tok {t : Token} {w : Bytes} {a : Asi} (h : Same (.tok t w a :: j) y) : ∃ b, y = .tok t w b :: j := by
  obtain ⟨x, x', r, h, e, rfl⟩ := h
  obtain ⟨rfl, rfl⟩ := List.cons.inj e
  cases h; exact ⟨_, rfl⟩
theorem Spec.Tk.head {t : Token} (h : Tk t i j) (hy : Same i y) : Tk t y j := by
  obtain ⟨w, a, rfl⟩ := h; obtain ⟨b, rfl⟩ := hy.tok; exact ⟨w, b, rfl⟩
theorem Spec.Wd.head {t : Token} {w : Bytes} (h : Wd t w i j) (hy : Same i y) : Wd t w y j := by
  obtain ⟨a, rfl⟩ := h; obtain ⟨b, rfl⟩ := hy.tok; exact ⟨b, rfl⟩
theorem Spec.Tk.look_ne {t u : Token} (h : Tk t i j) (ht : t ≠ u) : Spec.look i ≠ u := by obtain ⟨w, a, rfl⟩ := h; exact ht
theorem Spec.Wd.look_ne {t u : Token} {w : Bytes} (h : Wd t w i j) (ht : t ≠ u) : Spec.look i ≠ u := by obtain ⟨a, rfl⟩ := h; exact ht

end

theorem Spec.G.good {i j : List Item} {x : Phrase} (h : G i x j) : usable x = true → Good i j := by
  induction h with
  | @whole i j k e h h' ih_h =>
    intro hx
    exact (ih_h rfl)
  | @ident i j k w hk h  =>
    intro hx
    exact (h.good (by decide))
  | @this i j k hk h  =>
    intro hx
    exact (h.good (by decide))
  | @lit i j k t w v hk h hv  =>
    intro hx
    exact (h.good (literal_ok hv))
  | @regex j k w a hk  =>
    intro hx
    exact Good.cons (by simp [Item.token])
  | @array i m n j k es hk h h0 h1 h2 ih_h1 =>
    intro hx
    exact ((h.good (by decide)).trans ((ih_h1 rfl).trans (h2.good (by decide))))
  | @emptyArray i m j k hk h h2  =>
    intro hx
    exact ((h.good (by decide)).trans (h2.good (by decide)))
  | @object i m n j k ps hk h h1 h2 ih_h1 =>
    intro hx
    exact ((h.good (by decide)).trans ((ih_h1 rfl).trans (h2.good (by decide))))
  | @function i m j k f hk h h1 ih_h1 =>
    intro hx
    exact ((h.good (by decide)).trans (ih_h1 rfl))
  | @«class» i m j k c hk h h1 ih_h1 =>
    intro hx
    exact ((h.good (by decide)).trans (ih_h1 rfl))
  | @template i j k es qs hk h ih_h =>
    intro hx
    exact (ih_h rfl)
  | @paren i m n j k e hk h h1 h2 ih_h1 =>
    intro hx
    exact ((h.good (by decide)).trans ((ih_h1 rfl).trans (h2.good (by decide))))
  | @newTarget i m j k hk h h1  =>
    intro hx
    exact ((h.good (by decide)).trans (h1.good (by decide)))
  | @member i m j k e w hk h h1 ih_h =>
    intro hx
    exact ((ih_h rfl).trans (h1.good (by decide)))
  | @index i m n o j k e p hk h h1 h2 h3 ih_h ih_h2 =>
    intro hx
    exact ((ih_h rfl).trans ((h1.good (by decide)).trans ((ih_h2 rfl).trans (h3.good (by decide)))))
  | @call i m n o j k e es hk h h1 h2 h3 ih_h ih_h2 =>
    intro hx
    exact ((ih_h rfl).trans ((h1.good (by decide)).trans ((ih_h2 rfl).trans (h3.good (by decide)))))
  | @tagged i m j k e es qs hk h h1 ih_h ih_h1 =>
    intro hx
    exact ((ih_h rfl).trans (ih_h1 rfl))
  | @«postfix» i j k e t w a op hk h he hop ha ih_h =>
    intro hx
    exact (ih_h rfl).tok (postfix_ok hop)
  | @arrow i m n j k e ps b hk h hp h1 hb h2 ih_h ih_h2 =>
    intro hx
    exact ((ih_h rfl).trans ((h1.good (by decide)).trans (ih_h2 rfl)))
  | @arrowBlock i m n j k e ps b hk h hp h1 h2 ih_h ih_h2 =>
    intro hx
    exact ((ih_h rfl).trans ((h1.good (by decide)).trans (ih_h2 rfl)))
  | @arrow0 i m n o j k b hk h h0 h1 hb h2 ih_h2 =>
    intro hx
    exact ((h.good (by decide)).trans ((h0.good (by decide)).trans ((h1.good (by decide)).trans (ih_h2 rfl))))
  | @arrowBlock0 i m n o j k b hk h h0 h1 h2 ih_h2 =>
    intro hx
    exact ((h.good (by decide)).trans ((h0.good (by decide)).trans ((h1.good (by decide)).trans (ih_h2 rfl))))
  | @«prefix» i m j k t op e hk h hop h1 ih_h1 =>
    intro hx
    exact ((h.good (prefix_ok hop)).trans (ih_h1 rfl))
  | @new i m j k e hk h hm h1 ih_h1 =>
    intro hx
    exact ((h.good (by decide)).trans (ih_h1 rfl))
  | @binary i m n j k t op p a b hop hk h h1 h2 ih_h ih_h2 =>
    intro hx
    exact ((ih_h rfl).trans ((h1.good (binary_ok hop)).trans (ih_h2 rfl)))
  | @cond i m n o q j k a b c hk h h1 h2 h3 h4 ih_h ih_h2 ih_h4 =>
    intro hx
    exact ((ih_h rfl).trans ((h1.good (by decide)).trans ((ih_h2 rfl).trans ((h3.good (by decide)).trans (ih_h4 rfl)))))
  | @assign i m n j k t op a b hk h ha h1 hop h2 ih_h ih_h2 =>
    intro hx
    exact ((ih_h rfl).trans ((h1.good (assign_ok hop)).trans (ih_h2 rfl)))
  | @comma i m n j a es h h1 h2 ih_h ih_h2 =>
    intro hx
    exact ((ih_h rfl).trans ((h1.good (by decide)).trans (ih_h2 rfl)))
  | @commaLast i j e h h' ih_h =>
    intro hx
    exact (ih_h rfl)
  | @commaMore i m n j e es h h1 h2 ih_h ih_h2 =>
    intro hx
    exact ((ih_h rfl).trans ((h1.good (by decide)).trans (ih_h2 rfl)))
  | @arg i j e h ih_h =>
    intro hx
    exact (ih_h rfl)
  | @argSpread i m j e h h1 ih_h1 =>
    intro hx
    exact ((h.good (by decide)).trans (ih_h1 rfl))
  | @argsNone j h  =>
    intro hx
    exact Good.refl
  | @argsLast i j e h h' ih_h =>
    intro hx
    exact (ih_h rfl)
  | @argsMore i m n j e es h h1 h2 ih_h ih_h2 =>
    intro hx
    exact ((ih_h rfl).trans ((h1.good (by decide)).trans (ih_h2 rfl)))
  | @elem i j e h ih_h =>
    intro hx
    exact (ih_h rfl)
  | @elemSpread i m j e h h1 ih_h1 =>
    intro hx
    exact ((h.good (by decide)).trans (ih_h1 rfl))
  | @elemHole j h  =>
    intro hx
    exact Good.refl
  | @elemsLast i j e h h' ih_h =>
    intro hx
    exact (ih_h rfl)
  | @elemsMore i m n j e es h h1 h2 ih_h ih_h2 =>
    intro hx
    exact ((ih_h rfl).trans ((h1.good (by decide)).trans (ih_h2 rfl)))
  | @templateClosed i j w h  =>
    intro hx
    exact (h.good (by decide))
  | @templateOpen i m n j w e es qs h h1 h2 ih_h1 ih_h2 =>
    intro hx
    exact ((h.good (by decide)).trans ((ih_h1 rfl).trans (ih_h2 rfl)))
  | @templateEnd j w  =>
    intro hx
    exact Good.cons (by simp [Item.token])
  | @templateMore m n j w e es qs h1 h2 ih_h1 ih_h2 =>
    intro hx
    exact (Good.cons (by simp [Item.token])).trans ((ih_h1 rfl).trans (ih_h2 rfl))
  | @shorthand i j t w h ht h1 h2  =>
    intro hx
    exact (h.good (word_ok ht))
  | @propWord i m j t w p h ht h1 ih_h1 =>
    intro hx
    exact ((h.good (word_ok ht)).trans (ih_h1 rfl))
  | @propLiteral i m j t w p h ht h1 ih_h1 =>
    intro hx
    exact ((h.good (two_ok ht)).trans (ih_h1 rfl))
  | @propBinary i m j w p h h1 ih_h1 =>
    intro hx
    exact ((h.good (by decide)).trans (ih_h1 rfl))
  | @propComputed i m n o j e p h h1 h2 h3 ih_h1 ih_h3 =>
    intro hx
    exact ((h.good (by decide)).trans ((ih_h1 rfl).trans ((h2.good (by decide)).trans (ih_h3 rfl))))
  | @propSpread i m j e h h1 ih_h1 =>
    intro hx
    exact ((h.good (by decide)).trans (ih_h1 rfl))
  | @propField i m j k e h h1 ih_h1 =>
    intro hx
    exact ((h.good (by decide)).trans (ih_h1 rfl))
  | @propMethod i j k f h h1 ih_h1 =>
    intro hx
    exact (ih_h1 rfl)
  | @propsNone j h  =>
    intro hx
    exact Good.refl
  | @propsLast i j p h h' ih_h =>
    intro hx
    exact (ih_h rfl)
  | @propsMore i m n j p ps h h1 h2 ih_h ih_h2 =>
    intro hx
    exact ((ih_h rfl).trans ((h1.good (by decide)).trans (ih_h2 rfl)))
  | @patIdent i j w h  =>
    intro hx
    exact (h.good (by decide))
  | @patArray i m n j ps h h0 h1 h2 ih_h1 =>
    intro hx
    exact ((h.good (by decide)).trans ((ih_h1 rfl).trans (h2.good (by decide))))
  | @patEmptyArray i m j h h2  =>
    intro hx
    exact ((h.good (by decide)).trans (h2.good (by decide)))
  | @patObject i m n j ps h h1 h2 ih_h1 =>
    intro hx
    exact ((h.good (by decide)).trans ((ih_h1 rfl).trans (h2.good (by decide))))
  | @param i j p h h' ih_h =>
    intro hx
    exact (ih_h rfl)
  | @paramDefault i m n j p e h h1 h2 ih_h ih_h2 =>
    intro hx
    exact ((ih_h rfl).trans ((h1.good (by decide)).trans (ih_h2 rfl)))
  | @patElem i j p h ih_h =>
    intro hx
    exact (ih_h rfl)
  | @patHole j h  =>
    intro hx
    exact Good.refl
  | @patElemsLast i j p h h' ih_h =>
    intro hx
    exact (ih_h rfl)
  | @patElemsMore i m n j p ps h h1 h2 ih_h ih_h2 =>
    intro hx
    exact ((ih_h rfl).trans ((h1.good (by decide)).trans (ih_h2 rfl)))
  | @paramsNone i j h  =>
    intro hx
    exact (h.good (by decide))
  | @paramsRest i m n j w h h1 h2  =>
    intro hx
    exact ((h.good (by decide)).trans ((h1.good (by decide)).trans (h2.good (by decide))))
  | @paramsLast i m j p h h1 ih_h =>
    intro hx
    exact ((ih_h rfl).trans (h1.good (by decide)))
  | @paramsMore i m n j p ps h h1 h2 ih_h ih_h2 =>
    intro hx
    exact ((ih_h rfl).trans ((h1.good (by decide)).trans (ih_h2 rfl)))
  | @func i m n o q j nk g nm ps b h h1 h2 h3 h4 ih_h3 ih_h4 =>
    intro hx
    exact (h.good.trans (h1.good.trans ((h2.good (by decide)).trans ((ih_h3 rfl).trans (ih_h4 rfl)))))
  | @cls i m n j nk nm ms h h1 h2 h0 ih_h2 =>
    intro hx
    exact (h.good.trans ((h1.good (by decide)).trans (ih_h2 rfl)))
  | @clsExtends i m n o q j nk nm e ms h h1 h2 h3 h4 h0 ih_h2 ih_h4 =>
    intro hx
    exact (h.good.trans ((h1.good (by decide)).trans ((ih_h2 rfl).trans ((h3.good (by decide)).trans (ih_h4 rfl)))))
  | @memberWord i m n j s t w x h h1 ht hn h2 ih_h2 =>
    intro hx
    exact (h.good.trans ((h1.good (word_ok ht)).trans (ih_h2 rfl)))
  | @memberGet i m n o j s t t' w x h h1 ht h2 ht' h3 ih_h3 =>
    intro hx
    exact (h.good.trans ((h1.good (word_ok ht)).trans ((h2.good (word_ok ht')).trans (ih_h3 rfl))))
  | @memberSet i m n o j s t t' w x h h1 ht h2 ht' h3 ih_h3 =>
    intro hx
    exact (h.good.trans ((h1.good (word_ok ht)).trans ((h2.good (word_ok ht')).trans (ih_h3 rfl))))
  | @memberNumber i m n j s w x h h1 h2 ih_h2 =>
    intro hx
    exact (h.good.trans ((h1.good (by decide)).trans (ih_h2 rfl)))
  | @memberBinary i m n j s w x h h1 h2 ih_h2 =>
    intro hx
    exact (h.good.trans ((h1.good (by decide)).trans (ih_h2 rfl)))
  | @memberComputed i m n o q j s e x h h1 h2 h3 h4 ih_h2 ih_h4 =>
    intro hx
    exact (h.good.trans ((h1.good (by decide)).trans ((ih_h2 rfl).trans ((h3.good (by decide)).trans (ih_h4 rfl)))))
  | @memberMethod i m j s kd k f h h1 h2 ih_h1 =>
    intro hx
    exact ((ih_h1 rfl).trans h2.good)
  | @memberField i m n j s kd k e h h1 h2 ih_h1 =>
    intro hx
    exact ((h.good (by decide)).trans ((ih_h1 rfl).trans h2.good))
  | @membersClose i j h  =>
    intro hx
    exact (h.good (by decide))
  | @membersEnd   =>
    intro hx
    exact Good.refl
  | @membersMore i m j x xs h h1 ih_h ih_h1 =>
    intro hx
    exact ((ih_h rfl).trans (ih_h1 rfl))
  | @block i m j ss h h1 h0 ih_h1 =>
    intro hx
    exact ((h.good (by decide)).trans (ih_h1 rfl))
  | @stmtsClose i j h  =>
    intro hx
    exact (h.good (by decide))
  | @stmtsEnd   =>
    intro hx
    exact Good.refl
  | @stmtsMore i m j s ss h h1 ih_h ih_h1 =>
    intro hx
    exact ((ih_h rfl).trans (ih_h1 rfl))
  | @empty i j h  =>
    intro hx
    exact (h.good (by decide))
  | @debugger i j h  =>
    intro hx
    exact (h.good (by decide))
  | @blockStmt i j ss h ih_h =>
    intro hx
    exact (ih_h rfl)
  | @exprStmt i m j e h1 h2 h3 h4 h h5 ih_h =>
    intro hx
    exact ((ih_h rfl).trans h5.good)
  | @importExpr w a i m j e h1 h h5 ih_h =>
    intro hx
    exact (ih_h rfl).import_.trans h5.good
  | @declStmt i m n j t k ds h hk h1 h2 ih_h1 =>
    intro hx
    exact ((h.good (decl_ok hk)).trans ((ih_h1 rfl).trans h2.good))
  | @ret i m j h h1  =>
    intro hx
    exact ((h.good (by decide)).trans h1.good)
  | @retValue i m n j e h h0 h1 h2 ih_h1 =>
    intro hx
    exact ((h.good (by decide)).trans ((ih_h1 rfl).trans h2.good))
  | @brk i m j h h1  =>
    intro hx
    exact ((h.good (by decide)).trans h1.good)
  | @brkLabel i m n j w h h0 h1 h2  =>
    intro hx
    exact ((h.good (by decide)).trans ((h1.good (by decide)).trans h2.good))
  | @cont i m j h h1  =>
    intro hx
    exact ((h.good (by decide)).trans h1.good)
  | @contLabel i m n j w h h0 h1 h2  =>
    intro hx
    exact ((h.good (by decide)).trans ((h1.good (by decide)).trans h2.good))
  | @throw i m n j e h h1 h2 ih_h1 =>
    intro hx
    exact ((h.good (by decide)).trans ((ih_h1 rfl).trans h2.good))
  | @ifThen i m n o q j e s h h1 h2 h3 h4 h5 ih_h2 ih_h4 =>
    intro hx
    exact ((h.good (by decide)).trans ((h1.good (by decide)).trans ((ih_h2 rfl).trans ((h3.good (by decide)).trans (ih_h4 rfl)))))
  | @ifElse i m n o q r u j e s s' h h1 h2 h3 h4 h5 h6 ih_h2 ih_h4 ih_h6 =>
    intro hx
    exact ((h.good (by decide)).trans ((h1.good (by decide)).trans ((ih_h2 rfl).trans ((h3.good (by decide)).trans ((ih_h4 rfl).trans ((h5.good (by decide)).trans (ih_h6 rfl)))))))
  | @whileLoop i m n o q j e s h h1 h2 h3 h4 ih_h2 ih_h4 =>
    intro hx
    exact ((h.good (by decide)).trans ((h1.good (by decide)).trans ((ih_h2 rfl).trans ((h3.good (by decide)).trans (ih_h4 rfl)))))
  | @doLoop i m n o q r j e s h h1 h2 h3 h4 h5 ih_h1 ih_h4 =>
    intro hx
    exact ((h.good (by decide)).trans ((ih_h1 rfl).trans ((h2.good (by decide)).trans ((h3.good (by decide)).trans ((ih_h4 rfl).trans (h5.good (by decide)))))))
  | @forLoop i m n o q j t u s h h1 h2 h3 r h4 h5 ih_h3 ih_h4 ih_h5 =>
    intro hx
    exact ((h.good (by decide)).trans ((h1.good (by decide)).trans ((h2.good (by decide)).trans ((ih_h3 rfl).trans ((ih_h4 rfl).trans (ih_h5 rfl))))))
  | @forLoopInit i m n o q r v j x t u s h h1 h2 h2' h3 h4 h5 ih_h2 ih_h3 ih_h4 ih_h5 =>
    intro hx
    exact ((h.good (by decide)).trans ((h1.good (by decide)).trans ((ih_h2 rfl).trans ((h2'.good (by decide)).trans ((ih_h3 rfl).trans ((ih_h4 rfl).trans (ih_h5 rfl)))))))
  | @forInDecl i m n o q r v j k ds e s h h1 h2 h3 h4 h5 h6 ih_h2 ih_h4 ih_h6 =>
    intro hx
    exact ((h.good (by decide)).trans ((h1.good (by decide)).trans ((ih_h2 rfl).trans ((h3.good (by decide)).trans ((ih_h4 rfl).trans ((h5.good (by decide)).trans (ih_h6 rfl)))))))
  | @forInExpr i m n o q j a b s h h1 h2 h3 h4 ih_h2 ih_h4 =>
    intro hx
    exact ((h.good (by decide)).trans ((h1.good (by decide)).trans ((ih_h2 rfl).trans ((h3.good (by decide)).trans (ih_h4 rfl)))))
  | @forOf i m n o q r v j x e s h h1 h2 h3 h4 h5 h6 ih_h2 ih_h4 ih_h6 =>
    intro hx
    exact ((h.good (by decide)).trans ((h1.good (by decide)).trans ((ih_h2 rfl).trans ((h3.good (by decide)).trans ((ih_h4 rfl).trans ((h5.good (by decide)).trans (ih_h6 rfl)))))))
  | @forInitDecl i m j t k ds h hk h1 ih_h1 =>
    intro hx
    exact ((h.good (decl_ok hk)).trans (ih_h1 rfl))
  | @forInitExpr i j e h h1 ih_h =>
    intro hx
    exact (ih_h rfl)
  | @optExprNone i j t h  =>
    intro hx
    exact h.good (by rintro rfl; cases hx)
  | @optExprSome i m j t e h h1 ih_h =>
    intro hx
    exact (ih_h rfl).trans (h1.good (by rintro rfl; cases hx))
  | @tryCatch i m n j b c h h1 h2 h3 ih_h1 ih_h2 =>
    intro hx
    exact ((h.good (by decide)).trans ((ih_h1 rfl).trans (ih_h2 rfl)))
  | @tryCatchFinally i m n o q j b c f h h1 h2 h3 h4 ih_h1 ih_h2 ih_h4 =>
    intro hx
    exact ((h.good (by decide)).trans ((ih_h1 rfl).trans ((ih_h2 rfl).trans ((h3.good (by decide)).trans (ih_h4 rfl)))))
  | @tryFinally i m n o j b f h h1 h3 h4 ih_h1 ih_h4 =>
    intro hx
    exact ((h.good (by decide)).trans ((ih_h1 rfl).trans ((h3.good (by decide)).trans (ih_h4 rfl))))
  | @«catch» i m n o q j p b h h1 h2 h3 h4 ih_h2 ih_h4 =>
    intro hx
    exact ((h.good (by decide)).trans ((h1.good (by decide)).trans ((ih_h2 rfl).trans ((h3.good (by decide)).trans (ih_h4 rfl)))))
  | @switch i m n o q r j e cs h h1 h2 h3 h4 h5 ih_h2 ih_h5 =>
    intro hx
    exact ((h.good (by decide)).trans ((h1.good (by decide)).trans ((ih_h2 rfl).trans ((h3.good (by decide)).trans ((h4.good (by decide)).trans (ih_h5 rfl))))))
  | @casesClose i j h  =>
    intro hx
    exact (h.good (by decide))
  | @casesMore i m j c cs h h1 ih_h ih_h1 =>
    intro hx
    exact ((ih_h rfl).trans (ih_h1 rfl))
  | @case i m n o j e ss h h1 h2 h3 ih_h1 ih_h3 =>
    intro hx
    exact ((h.good (by decide)).trans ((ih_h1 rfl).trans ((h2.good (by decide)).trans (ih_h3 rfl))))
  | @default i m n j ss h h1 h2 ih_h2 =>
    intro hx
    exact ((h.good (by decide)).trans ((h1.good (by decide)).trans (ih_h2 rfl)))
  | @caseBodyEnd j h  =>
    intro hx
    exact Good.refl
  | @caseBodyMore i m j s ss h h1 ih_h ih_h1 =>
    intro hx
    exact ((ih_h rfl).trans (ih_h1 rfl))
  | @labeled i m n j w s h h1 h2 ih_h2 =>
    intro hx
    exact ((h.good (by decide)).trans ((h1.good (by decide)).trans (ih_h2 rfl)))
  | @functionStmt i m j f h h1 ih_h1 =>
    intro hx
    exact ((h.good (by decide)).trans (ih_h1 rfl))
  | @classStmt i m j c h h1 ih_h1 =>
    intro hx
    exact ((h.good (by decide)).trans (ih_h1 rfl))
  | @importBare i m j w h h1 hw  =>
    intro hx
    exact ((h.good (by decide)).trans (h1.good (by decide)))
  | @importFrom i m n o j w ss h h1 h2 h3 hw  =>
    intro hx
    exact ((h.good (by decide)).trans (h1.good.trans ((h2.good (by decide)).trans (h3.good (by decide)))))
  | @declarator i j p h h' ih_h =>
    intro hx
    exact (ih_h rfl)
  | @declaratorInit i m n j p e h h1 h2 ih_h ih_h2 =>
    intro hx
    exact ((ih_h rfl).trans ((h1.good (by decide)).trans (ih_h2 rfl)))
  | @declaratorsLast i j d h h' ih_h =>
    intro hx
    exact (ih_h rfl)
  | @declaratorsMore i m n j d ds h h1 h2 ih_h ih_h2 =>
    intro hx
    exact ((ih_h rfl).trans ((h1.good (by decide)).trans (ih_h2 rfl)))
  | @programEnd   =>
    intro hx
    exact Good.refl
  | @programMore i m j s ss h h1 ih_h ih_h1 =>
    intro hx
    exact ((ih_h rfl).trans (ih_h1 rfl))

theorem Spec.G.head {i j : List Item} {x : Phrase} (h : G i x j) : leads x = true → ∀ y, Same i y → G y x j := by
  induction h with
  | @whole i j k e h h' ih_h =>
    intro hx y hy
    exact .whole (ih_h rfl _ hy) h'
  | @ident i j k w hk h  =>
    intro hx y hy
    exact .ident hk (h.head hy)
  | @this i j k hk h  =>
    intro hx y hy
    exact .this hk (h.head hy)
  | @lit i j k t w v hk h hv  =>
    intro hx y hy
    exact .lit hk (h.head hy) hv
  | @regex j k w a hk  =>
    intro hx y hy
    obtain ⟨a, rfl⟩ := hy.regex
    exact .regex hk
  | @array i m n j k es hk h h0 h1 h2 ih_h1 =>
    intro hx y hy
    exact .array hk (h.head hy) h0 h1 h2
  | @emptyArray i m j k hk h h2  =>
    intro hx y hy
    exact .emptyArray hk (h.head hy) h2
  | @object i m n j k ps hk h h1 h2 ih_h1 =>
    intro hx y hy
    exact .object hk (h.head hy) h1 h2
  | @function i m j k f hk h h1 ih_h1 =>
    intro hx y hy
    exact .function hk (h.head hy) h1
  | @«class» i m j k c hk h h1 ih_h1 =>
    intro hx y hy
    exact .«class» hk (h.head hy) h1
  | @template i j k es qs hk h ih_h =>
    intro hx y hy
    exact .template hk (ih_h rfl _ hy)
  | @paren i m n j k e hk h h1 h2 ih_h1 =>
    intro hx y hy
    exact .paren hk (h.head hy) h1 h2
  | @newTarget i m j k hk h h1  =>
    intro hx y hy
    exact .newTarget hk (h.head hy) h1
  | @member i m j k e w hk h h1 ih_h =>
    intro hx y hy
    exact .member hk (ih_h rfl _ hy) h1
  | @index i m n o j k e p hk h h1 h2 h3 ih_h ih_h2 =>
    intro hx y hy
    exact .index hk (ih_h rfl _ hy) h1 h2 h3
  | @call i m n o j k e es hk h h1 h2 h3 ih_h ih_h2 =>
    intro hx y hy
    exact .call hk (ih_h rfl _ hy) h1 h2 h3
  | @tagged i m j k e es qs hk h h1 ih_h ih_h1 =>
    intro hx y hy
    exact .tagged hk (ih_h rfl _ hy) h1
  | @«postfix» i j k e t w a op hk h he hop ha ih_h =>
    intro hx y hy
    exact .«postfix» hk (ih_h rfl _ hy) he hop ha
  | @arrow i m n j k e ps b hk h hp h1 hb h2 ih_h ih_h2 =>
    intro hx y hy
    exact .arrow hk (ih_h rfl _ hy) hp h1 hb h2
  | @arrowBlock i m n j k e ps b hk h hp h1 h2 ih_h ih_h2 =>
    intro hx y hy
    exact .arrowBlock hk (ih_h rfl _ hy) hp h1 h2
  | @arrow0 i m n o j k b hk h h0 h1 hb h2 ih_h2 =>
    intro hx y hy
    exact .arrow0 hk (h.head hy) h0 h1 hb h2
  | @arrowBlock0 i m n o j k b hk h h0 h1 h2 ih_h2 =>
    intro hx y hy
    exact .arrowBlock0 hk (h.head hy) h0 h1 h2
  | @«prefix» i m j k t op e hk h hop h1 ih_h1 =>
    intro hx y hy
    exact .«prefix» hk (h.head hy) hop h1
  | @new i m j k e hk h hm h1 ih_h1 =>
    intro hx y hy
    exact .new hk (h.head hy) hm h1
  | @binary i m n j k t op p a b hop hk h h1 h2 ih_h ih_h2 =>
    intro hx y hy
    exact .binary hop hk (ih_h rfl _ hy) h1 h2
  | @cond i m n o q j k a b c hk h h1 h2 h3 h4 ih_h ih_h2 ih_h4 =>
    intro hx y hy
    exact .cond hk (ih_h rfl _ hy) h1 h2 h3 h4
  | @assign i m n j k t op a b hk h ha h1 hop h2 ih_h ih_h2 =>
    intro hx y hy
    exact .assign hk (ih_h rfl _ hy) ha h1 hop h2
  | @comma i m n j a es h h1 h2 ih_h ih_h2 =>
    intro hx y hy
    exact .comma (ih_h rfl _ hy) h1 h2
  | @commaLast i j e h h' ih_h =>
    intro hx y hy
    cases hx
  | @commaMore i m n j e es h h1 h2 ih_h ih_h2 =>
    intro hx y hy
    cases hx
  | @arg i j e h ih_h =>
    intro hx y hy
    cases hx
  | @argSpread i m j e h h1 ih_h1 =>
    intro hx y hy
    cases hx
  | @argsNone j h  =>
    intro hx y hy
    cases hx
  | @argsLast i j e h h' ih_h =>
    intro hx y hy
    cases hx
  | @argsMore i m n j e es h h1 h2 ih_h ih_h2 =>
    intro hx y hy
    cases hx
  | @elem i j e h ih_h =>
    intro hx y hy
    cases hx
  | @elemSpread i m j e h h1 ih_h1 =>
    intro hx y hy
    cases hx
  | @elemHole j h  =>
    intro hx y hy
    cases hx
  | @elemsLast i j e h h' ih_h =>
    intro hx y hy
    cases hx
  | @elemsMore i m n j e es h h1 h2 ih_h ih_h2 =>
    intro hx y hy
    cases hx
  | @templateClosed i j w h  =>
    intro hx y hy
    exact .templateClosed (h.head hy)
  | @templateOpen i m n j w e es qs h h1 h2 ih_h1 ih_h2 =>
    intro hx y hy
    exact .templateOpen (h.head hy) h1 h2
  | @templateEnd j w  =>
    intro hx y hy
    cases hx
  | @templateMore m n j w e es qs h1 h2 ih_h1 ih_h2 =>
    intro hx y hy
    cases hx
  | @shorthand i j t w h ht h1 h2  =>
    intro hx y hy
    cases hx
  | @propWord i m j t w p h ht h1 ih_h1 =>
    intro hx y hy
    cases hx
  | @propLiteral i m j t w p h ht h1 ih_h1 =>
    intro hx y hy
    cases hx
  | @propBinary i m j w p h h1 ih_h1 =>
    intro hx y hy
    cases hx
  | @propComputed i m n o j e p h h1 h2 h3 ih_h1 ih_h3 =>
    intro hx y hy
    cases hx
  | @propSpread i m j e h h1 ih_h1 =>
    intro hx y hy
    cases hx
  | @propField i m j k e h h1 ih_h1 =>
    intro hx y hy
    cases hx
  | @propMethod i j k f h h1 ih_h1 =>
    intro hx y hy
    cases hx
  | @propsNone j h  =>
    intro hx y hy
    cases hx
  | @propsLast i j p h h' ih_h =>
    intro hx y hy
    cases hx
  | @propsMore i m n j p ps h h1 h2 ih_h ih_h2 =>
    intro hx y hy
    cases hx
  | @patIdent i j w h  =>
    intro hx y hy
    cases hx
  | @patArray i m n j ps h h0 h1 h2 ih_h1 =>
    intro hx y hy
    cases hx
  | @patEmptyArray i m j h h2  =>
    intro hx y hy
    cases hx
  | @patObject i m n j ps h h1 h2 ih_h1 =>
    intro hx y hy
    cases hx
  | @param i j p h h' ih_h =>
    intro hx y hy
    cases hx
  | @paramDefault i m n j p e h h1 h2 ih_h ih_h2 =>
    intro hx y hy
    cases hx
  | @patElem i j p h ih_h =>
    intro hx y hy
    cases hx
  | @patHole j h  =>
    intro hx y hy
    cases hx
  | @patElemsLast i j p h h' ih_h =>
    intro hx y hy
    cases hx
  | @patElemsMore i m n j p ps h h1 h2 ih_h ih_h2 =>
    intro hx y hy
    cases hx
  | @paramsNone i j h  =>
    intro hx y hy
    cases hx
  | @paramsRest i m n j w h h1 h2  =>
    intro hx y hy
    cases hx
  | @paramsLast i m j p h h1 ih_h =>
    intro hx y hy
    cases hx
  | @paramsMore i m n j p ps h h1 h2 ih_h ih_h2 =>
    intro hx y hy
    cases hx
  | @func i m n o q j nk g nm ps b h h1 h2 h3 h4 ih_h3 ih_h4 =>
    intro hx y hy
    cases hx
  | @cls i m n j nk nm ms h h1 h2 h0 ih_h2 =>
    intro hx y hy
    cases hx
  | @clsExtends i m n o q j nk nm e ms h h1 h2 h3 h4 h0 ih_h2 ih_h4 =>
    intro hx y hy
    cases hx
  | @memberWord i m n j s t w x h h1 ht hn h2 ih_h2 =>
    intro hx y hy
    cases hx
  | @memberGet i m n o j s t t' w x h h1 ht h2 ht' h3 ih_h3 =>
    intro hx y hy
    cases hx
  | @memberSet i m n o j s t t' w x h h1 ht h2 ht' h3 ih_h3 =>
    intro hx y hy
    cases hx
  | @memberNumber i m n j s w x h h1 h2 ih_h2 =>
    intro hx y hy
    cases hx
  | @memberBinary i m n j s w x h h1 h2 ih_h2 =>
    intro hx y hy
    cases hx
  | @memberComputed i m n o q j s e x h h1 h2 h3 h4 ih_h2 ih_h4 =>
    intro hx y hy
    cases hx
  | @memberMethod i m j s kd k f h h1 h2 ih_h1 =>
    intro hx y hy
    cases hx
  | @memberField i m n j s kd k e h h1 h2 ih_h1 =>
    intro hx y hy
    cases hx
  | @membersClose i j h  =>
    intro hx y hy
    cases hx
  | @membersEnd   =>
    intro hx y hy
    cases hx
  | @membersMore i m j x xs h h1 ih_h ih_h1 =>
    intro hx y hy
    cases hx
  | @block i m j ss h h1 h0 ih_h1 =>
    intro hx y hy
    exact .block (h.head hy) h1 h0
  | @stmtsClose i j h  =>
    intro hx y hy
    cases hx
  | @stmtsEnd   =>
    intro hx y hy
    cases hx
  | @stmtsMore i m j s ss h h1 ih_h ih_h1 =>
    intro hx y hy
    cases hx
  | @empty i j h  =>
    intro hx y hy
    exact .empty (h.head hy)
  | @debugger i j h  =>
    intro hx y hy
    exact .debugger (h.head hy)
  | @blockStmt i j ss h ih_h =>
    intro hx y hy
    exact .blockStmt (ih_h rfl _ hy)
  | @exprStmt i m j e h1 h2 h3 h4 h h5 ih_h =>
    intro hx y hy
    exact .exprStmt (by rwa [hy.look]) (by rwa [hy.look]) (by rwa [hy.look]) (by rwa [hy.look, hy.tail]) (ih_h rfl _ hy) h5
  | @importExpr w a i m j e h1 h h5 ih_h =>
    intro hx y hy
    obtain ⟨a, rfl⟩ := hy.tok
    exact .importExpr h1 (ih_h rfl _ ⟨_, _, _, .tok, rfl, rfl⟩) h5
  | @declStmt i m n j t k ds h hk h1 h2 ih_h1 =>
    intro hx y hy
    exact .declStmt (h.head hy) hk h1 h2
  | @ret i m j h h1  =>
    intro hx y hy
    exact .ret (h.head hy) h1
  | @retValue i m n j e h h0 h1 h2 ih_h1 =>
    intro hx y hy
    exact .retValue (h.head hy) h0 h1 h2
  | @brk i m j h h1  =>
    intro hx y hy
    exact .brk (h.head hy) h1
  | @brkLabel i m n j w h h0 h1 h2  =>
    intro hx y hy
    exact .brkLabel (h.head hy) h0 h1 h2
  | @cont i m j h h1  =>
    intro hx y hy
    exact .cont (h.head hy) h1
  | @contLabel i m n j w h h0 h1 h2  =>
    intro hx y hy
    exact .contLabel (h.head hy) h0 h1 h2
  | @throw i m n j e h h1 h2 ih_h1 =>
    intro hx y hy
    exact .throw (h.head hy) h1 h2
  | @ifThen i m n o q j e s h h1 h2 h3 h4 h5 ih_h2 ih_h4 =>
    intro hx y hy
    exact .ifThen (h.head hy) h1 h2 h3 h4 h5
  | @ifElse i m n o q r u j e s s' h h1 h2 h3 h4 h5 h6 ih_h2 ih_h4 ih_h6 =>
    intro hx y hy
    exact .ifElse (h.head hy) h1 h2 h3 h4 h5 h6
  | @whileLoop i m n o q j e s h h1 h2 h3 h4 ih_h2 ih_h4 =>
    intro hx y hy
    exact .whileLoop (h.head hy) h1 h2 h3 h4
  | @doLoop i m n o q r j e s h h1 h2 h3 h4 h5 ih_h1 ih_h4 =>
    intro hx y hy
    exact .doLoop (h.head hy) h1 h2 h3 h4 h5
  | @forLoop i m n o q j t u s h h1 h2 h3 r h4 h5 ih_h3 ih_h4 ih_h5 =>
    intro hx y hy
    exact .forLoop (h.head hy) h1 h2 h3 h4 h5
  | @forLoopInit i m n o q r v j x t u s h h1 h2 h2' h3 h4 h5 ih_h2 ih_h3 ih_h4 ih_h5 =>
    intro hx y hy
    exact .forLoopInit (h.head hy) h1 h2 h2' h3 h4 h5
  | @forInDecl i m n o q r v j k ds e s h h1 h2 h3 h4 h5 h6 ih_h2 ih_h4 ih_h6 =>
    intro hx y hy
    exact .forInDecl (h.head hy) h1 h2 h3 h4 h5 h6
  | @forInExpr i m n o q j a b s h h1 h2 h3 h4 ih_h2 ih_h4 =>
    intro hx y hy
    exact .forInExpr (h.head hy) h1 h2 h3 h4
  | @forOf i m n o q r v j x e s h h1 h2 h3 h4 h5 h6 ih_h2 ih_h4 ih_h6 =>
    intro hx y hy
    exact .forOf (h.head hy) h1 h2 h3 h4 h5 h6
  | @forInitDecl i m j t k ds h hk h1 ih_h1 =>
    intro hx y hy
    cases hx
  | @forInitExpr i j e h h1 ih_h =>
    intro hx y hy
    cases hx
  | @optExprNone i j t h  =>
    intro hx y hy
    cases hx
  | @optExprSome i m j t e h h1 ih_h =>
    intro hx y hy
    cases hx
  | @tryCatch i m n j b c h h1 h2 h3 ih_h1 ih_h2 =>
    intro hx y hy
    exact .tryCatch (h.head hy) h1 h2 h3
  | @tryCatchFinally i m n o q j b c f h h1 h2 h3 h4 ih_h1 ih_h2 ih_h4 =>
    intro hx y hy
    exact .tryCatchFinally (h.head hy) h1 h2 h3 h4
  | @tryFinally i m n o j b f h h1 h3 h4 ih_h1 ih_h4 =>
    intro hx y hy
    exact .tryFinally (h.head hy) h1 h3 h4
  | @«catch» i m n o q j p b h h1 h2 h3 h4 ih_h2 ih_h4 =>
    intro hx y hy
    cases hx
  | @switch i m n o q r j e cs h h1 h2 h3 h4 h5 ih_h2 ih_h5 =>
    intro hx y hy
    exact .switch (h.head hy) h1 h2 h3 h4 h5
  | @casesClose i j h  =>
    intro hx y hy
    cases hx
  | @casesMore i m j c cs h h1 ih_h ih_h1 =>
    intro hx y hy
    cases hx
  | @case i m n o j e ss h h1 h2 h3 ih_h1 ih_h3 =>
    intro hx y hy
    cases hx
  | @default i m n j ss h h1 h2 ih_h2 =>
    intro hx y hy
    cases hx
  | @caseBodyEnd j h  =>
    intro hx y hy
    cases hx
  | @caseBodyMore i m j s ss h h1 ih_h ih_h1 =>
    intro hx y hy
    cases hx
  | @labeled i m n j w s h h1 h2 ih_h2 =>
    intro hx y hy
    exact .labeled (h.head hy) h1 h2
  | @functionStmt i m j f h h1 ih_h1 =>
    intro hx y hy
    exact .functionStmt (h.head hy) h1
  | @classStmt i m j c h h1 ih_h1 =>
    intro hx y hy
    exact .classStmt (h.head hy) h1
  | @importBare i m j w h h1 hw  =>
    intro hx y hy
    exact .importBare (h.head hy) h1 hw
  | @importFrom i m n o j w ss h h1 h2 h3 hw  =>
    intro hx y hy
    exact .importFrom (h.head hy) h1 h2 h3 hw
  | @declarator i j p h h' ih_h =>
    intro hx y hy
    cases hx
  | @declaratorInit i m n j p e h h1 h2 ih_h ih_h2 =>
    intro hx y hy
    cases hx
  | @declaratorsLast i j d h h' ih_h =>
    intro hx y hy
    cases hx
  | @declaratorsMore i m n j d ds h h1 h2 ih_h ih_h2 =>
    intro hx y hy
    cases hx
  | @programEnd   =>
    intro hx y hy
    cases hx
  | @programMore i m j s ss h h1 ih_h ih_h1 =>
    intro hx y hy
    cases hx

theorem Spec.G.notElse {i j : List Item} {x : Phrase} (h : G i x j) : leads x = true → look i ≠ .Else := by
  induction h with
  | @whole i j k e h h' ih_h =>
    intro hx
    exact ih_h rfl
  | @ident i j k w hk h  =>
    intro hx
    exact h.look_ne (by decide)
  | @this i j k hk h  =>
    intro hx
    exact h.look_ne (by decide)
  | @lit i j k t w v hk h hv  =>
    intro hx
    exact h.look_ne (literal_else hv)
  | @regex j k w a hk  =>
    intro hx
    simp [look, Item.token]
  | @array i m n j k es hk h h0 h1 h2 ih_h1 =>
    intro hx
    exact h.look_ne (by decide)
  | @emptyArray i m j k hk h h2  =>
    intro hx
    exact h.look_ne (by decide)
  | @object i m n j k ps hk h h1 h2 ih_h1 =>
    intro hx
    exact h.look_ne (by decide)
  | @function i m j k f hk h h1 ih_h1 =>
    intro hx
    exact h.look_ne (by decide)
  | @«class» i m j k c hk h h1 ih_h1 =>
    intro hx
    exact h.look_ne (by decide)
  | @template i j k es qs hk h ih_h =>
    intro hx
    exact ih_h rfl
  | @paren i m n j k e hk h h1 h2 ih_h1 =>
    intro hx
    exact h.look_ne (by decide)
  | @newTarget i m j k hk h h1  =>
    intro hx
    exact h.look_ne (by decide)
  | @member i m j k e w hk h h1 ih_h =>
    intro hx
    exact ih_h rfl
  | @index i m n o j k e p hk h h1 h2 h3 ih_h ih_h2 =>
    intro hx
    exact ih_h rfl
  | @call i m n o j k e es hk h h1 h2 h3 ih_h ih_h2 =>
    intro hx
    exact ih_h rfl
  | @tagged i m j k e es qs hk h h1 ih_h ih_h1 =>
    intro hx
    exact ih_h rfl
  | @«postfix» i j k e t w a op hk h he hop ha ih_h =>
    intro hx
    exact ih_h rfl
  | @arrow i m n j k e ps b hk h hp h1 hb h2 ih_h ih_h2 =>
    intro hx
    exact ih_h rfl
  | @arrowBlock i m n j k e ps b hk h hp h1 h2 ih_h ih_h2 =>
    intro hx
    exact ih_h rfl
  | @arrow0 i m n o j k b hk h h0 h1 hb h2 ih_h2 =>
    intro hx
    exact h.look_ne (by decide)
  | @arrowBlock0 i m n o j k b hk h h0 h1 h2 ih_h2 =>
    intro hx
    exact h.look_ne (by decide)
  | @«prefix» i m j k t op e hk h hop h1 ih_h1 =>
    intro hx
    exact h.look_ne (prefix_else hop)
  | @new i m j k e hk h hm h1 ih_h1 =>
    intro hx
    exact h.look_ne (by decide)
  | @binary i m n j k t op p a b hop hk h h1 h2 ih_h ih_h2 =>
    intro hx
    exact ih_h rfl
  | @cond i m n o q j k a b c hk h h1 h2 h3 h4 ih_h ih_h2 ih_h4 =>
    intro hx
    exact ih_h rfl
  | @assign i m n j k t op a b hk h ha h1 hop h2 ih_h ih_h2 =>
    intro hx
    exact ih_h rfl
  | @comma i m n j a es h h1 h2 ih_h ih_h2 =>
    intro hx
    exact ih_h rfl
  | @commaLast i j e h h' ih_h =>
    intro hx
    cases hx
  | @commaMore i m n j e es h h1 h2 ih_h ih_h2 =>
    intro hx
    cases hx
  | @arg i j e h ih_h =>
    intro hx
    cases hx
  | @argSpread i m j e h h1 ih_h1 =>
    intro hx
    cases hx
  | @argsNone j h  =>
    intro hx
    cases hx
  | @argsLast i j e h h' ih_h =>
    intro hx
    cases hx
  | @argsMore i m n j e es h h1 h2 ih_h ih_h2 =>
    intro hx
    cases hx
  | @elem i j e h ih_h =>
    intro hx
    cases hx
  | @elemSpread i m j e h h1 ih_h1 =>
    intro hx
    cases hx
  | @elemHole j h  =>
    intro hx
    cases hx
  | @elemsLast i j e h h' ih_h =>
    intro hx
    cases hx
  | @elemsMore i m n j e es h h1 h2 ih_h ih_h2 =>
    intro hx
    cases hx
  | @templateClosed i j w h  =>
    intro hx
    exact h.look_ne (by decide)
  | @templateOpen i m n j w e es qs h h1 h2 ih_h1 ih_h2 =>
    intro hx
    exact h.look_ne (by decide)
  | @templateEnd j w  =>
    intro hx
    cases hx
  | @templateMore m n j w e es qs h1 h2 ih_h1 ih_h2 =>
    intro hx
    cases hx
  | @shorthand i j t w h ht h1 h2  =>
    intro hx
    cases hx
  | @propWord i m j t w p h ht h1 ih_h1 =>
    intro hx
    cases hx
  | @propLiteral i m j t w p h ht h1 ih_h1 =>
    intro hx
    cases hx
  | @propBinary i m j w p h h1 ih_h1 =>
    intro hx
    cases hx
  | @propComputed i m n o j e p h h1 h2 h3 ih_h1 ih_h3 =>
    intro hx
    cases hx
  | @propSpread i m j e h h1 ih_h1 =>
    intro hx
    cases hx
  | @propField i m j k e h h1 ih_h1 =>
    intro hx
    cases hx
  | @propMethod i j k f h h1 ih_h1 =>
    intro hx
    cases hx
  | @propsNone j h  =>
    intro hx
    cases hx
  | @propsLast i j p h h' ih_h =>
    intro hx
    cases hx
  | @propsMore i m n j p ps h h1 h2 ih_h ih_h2 =>
    intro hx
    cases hx
  | @patIdent i j w h  =>
    intro hx
    cases hx
  | @patArray i m n j ps h h0 h1 h2 ih_h1 =>
    intro hx
    cases hx
  | @patEmptyArray i m j h h2  =>
    intro hx
    cases hx
  | @patObject i m n j ps h h1 h2 ih_h1 =>
    intro hx
    cases hx
  | @param i j p h h' ih_h =>
    intro hx
    cases hx
  | @paramDefault i m n j p e h h1 h2 ih_h ih_h2 =>
    intro hx
    cases hx
  | @patElem i j p h ih_h =>
    intro hx
    cases hx
  | @patHole j h  =>
    intro hx
    cases hx
  | @patElemsLast i j p h h' ih_h =>
    intro hx
    cases hx
  | @patElemsMore i m n j p ps h h1 h2 ih_h ih_h2 =>
    intro hx
    cases hx
  | @paramsNone i j h  =>
    intro hx
    cases hx
  | @paramsRest i m n j w h h1 h2  =>
    intro hx
    cases hx
  | @paramsLast i m j p h h1 ih_h =>
    intro hx
    cases hx
  | @paramsMore i m n j p ps h h1 h2 ih_h ih_h2 =>
    intro hx
    cases hx
  | @func i m n o q j nk g nm ps b h h1 h2 h3 h4 ih_h3 ih_h4 =>
    intro hx
    cases hx
  | @cls i m n j nk nm ms h h1 h2 h0 ih_h2 =>
    intro hx
    cases hx
  | @clsExtends i m n o q j nk nm e ms h h1 h2 h3 h4 h0 ih_h2 ih_h4 =>
    intro hx
    cases hx
  | @memberWord i m n j s t w x h h1 ht hn h2 ih_h2 =>
    intro hx
    cases hx
  | @memberGet i m n o j s t t' w x h h1 ht h2 ht' h3 ih_h3 =>
    intro hx
    cases hx
  | @memberSet i m n o j s t t' w x h h1 ht h2 ht' h3 ih_h3 =>
    intro hx
    cases hx
  | @memberNumber i m n j s w x h h1 h2 ih_h2 =>
    intro hx
    cases hx
  | @memberBinary i m n j s w x h h1 h2 ih_h2 =>
    intro hx
    cases hx
  | @memberComputed i m n o q j s e x h h1 h2 h3 h4 ih_h2 ih_h4 =>
    intro hx
    cases hx
  | @memberMethod i m j s kd k f h h1 h2 ih_h1 =>
    intro hx
    cases hx
  | @memberField i m n j s kd k e h h1 h2 ih_h1 =>
    intro hx
    cases hx
  | @membersClose i j h  =>
    intro hx
    cases hx
  | @membersEnd   =>
    intro hx
    cases hx
  | @membersMore i m j x xs h h1 ih_h ih_h1 =>
    intro hx
    cases hx
  | @block i m j ss h h1 h0 ih_h1 =>
    intro hx
    exact h.look_ne (by decide)
  | @stmtsClose i j h  =>
    intro hx
    cases hx
  | @stmtsEnd   =>
    intro hx
    cases hx
  | @stmtsMore i m j s ss h h1 ih_h ih_h1 =>
    intro hx
    cases hx
  | @empty i j h  =>
    intro hx
    exact h.look_ne (by decide)
  | @debugger i j h  =>
    intro hx
    exact h.look_ne (by decide)
  | @blockStmt i j ss h ih_h =>
    intro hx
    exact ih_h rfl
  | @exprStmt i m j e h1 h2 h3 h4 h h5 ih_h =>
    intro hx
    exact ih_h rfl
  | @importExpr w a i m j e h1 h h5 ih_h =>
    intro hx
    simp [look, Item.token]
  | @declStmt i m n j t k ds h hk h1 h2 ih_h1 =>
    intro hx
    exact h.look_ne (decl_else hk)
  | @ret i m j h h1  =>
    intro hx
    exact h.look_ne (by decide)
  | @retValue i m n j e h h0 h1 h2 ih_h1 =>
    intro hx
    exact h.look_ne (by decide)
  | @brk i m j h h1  =>
    intro hx
    exact h.look_ne (by decide)
  | @brkLabel i m n j w h h0 h1 h2  =>
    intro hx
    exact h.look_ne (by decide)
  | @cont i m j h h1  =>
    intro hx
    exact h.look_ne (by decide)
  | @contLabel i m n j w h h0 h1 h2  =>
    intro hx
    exact h.look_ne (by decide)
  | @throw i m n j e h h1 h2 ih_h1 =>
    intro hx
    exact h.look_ne (by decide)
  | @ifThen i m n o q j e s h h1 h2 h3 h4 h5 ih_h2 ih_h4 =>
    intro hx
    exact h.look_ne (by decide)
  | @ifElse i m n o q r u j e s s' h h1 h2 h3 h4 h5 h6 ih_h2 ih_h4 ih_h6 =>
    intro hx
    exact h.look_ne (by decide)
  | @whileLoop i m n o q j e s h h1 h2 h3 h4 ih_h2 ih_h4 =>
    intro hx
    exact h.look_ne (by decide)
  | @doLoop i m n o q r j e s h h1 h2 h3 h4 h5 ih_h1 ih_h4 =>
    intro hx
    exact h.look_ne (by decide)
  | @forLoop i m n o q j t u s h h1 h2 h3 r h4 h5 ih_h3 ih_h4 ih_h5 =>
    intro hx
    exact h.look_ne (by decide)
  | @forLoopInit i m n o q r v j x t u s h h1 h2 h2' h3 h4 h5 ih_h2 ih_h3 ih_h4 ih_h5 =>
    intro hx
    exact h.look_ne (by decide)
  | @forInDecl i m n o q r v j k ds e s h h1 h2 h3 h4 h5 h6 ih_h2 ih_h4 ih_h6 =>
    intro hx
    exact h.look_ne (by decide)
  | @forInExpr i m n o q j a b s h h1 h2 h3 h4 ih_h2 ih_h4 =>
    intro hx
    exact h.look_ne (by decide)
  | @forOf i m n o q r v j x e s h h1 h2 h3 h4 h5 h6 ih_h2 ih_h4 ih_h6 =>
    intro hx
    exact h.look_ne (by decide)
  | @forInitDecl i m j t k ds h hk h1 ih_h1 =>
    intro hx
    cases hx
  | @forInitExpr i j e h h1 ih_h =>
    intro hx
    cases hx
  | @optExprNone i j t h  =>
    intro hx
    cases hx
  | @optExprSome i m j t e h h1 ih_h =>
    intro hx
    cases hx
  | @tryCatch i m n j b c h h1 h2 h3 ih_h1 ih_h2 =>
    intro hx
    exact h.look_ne (by decide)
  | @tryCatchFinally i m n o q j b c f h h1 h2 h3 h4 ih_h1 ih_h2 ih_h4 =>
    intro hx
    exact h.look_ne (by decide)
  | @tryFinally i m n o j b f h h1 h3 h4 ih_h1 ih_h4 =>
    intro hx
    exact h.look_ne (by decide)
  | @«catch» i m n o q j p b h h1 h2 h3 h4 ih_h2 ih_h4 =>
    intro hx
    cases hx
  | @switch i m n o q r j e cs h h1 h2 h3 h4 h5 ih_h2 ih_h5 =>
    intro hx
    exact h.look_ne (by decide)
  | @casesClose i j h  =>
    intro hx
    cases hx
  | @casesMore i m j c cs h h1 ih_h ih_h1 =>
    intro hx
    cases hx
  | @case i m n o j e ss h h1 h2 h3 ih_h1 ih_h3 =>
    intro hx
    cases hx
  | @default i m n j ss h h1 h2 ih_h2 =>
    intro hx
    cases hx
  | @caseBodyEnd j h  =>
    intro hx
    cases hx
  | @caseBodyMore i m j s ss h h1 ih_h ih_h1 =>
    intro hx
    cases hx
  | @labeled i m n j w s h h1 h2 ih_h2 =>
    intro hx
    exact h.look_ne (by decide)
  | @functionStmt i m j f h h1 ih_h1 =>
    intro hx
    exact h.look_ne (by decide)
  | @classStmt i m j c h h1 ih_h1 =>
    intro hx
    exact h.look_ne (by decide)
  | @importBare i m j w h h1 hw  =>
    intro hx
    exact h.look_ne (by decide)
  | @importFrom i m n o j w ss h h1 h2 h3 hw  =>
    intro hx
    exact h.look_ne (by decide)
  | @declarator i j p h h' ih_h =>
    intro hx
    cases hx
  | @declaratorInit i m n j p e h h1 h2 ih_h ih_h2 =>
    intro hx
    cases hx
  | @declaratorsLast i j d h h' ih_h =>
    intro hx
    cases hx
  | @declaratorsMore i m n j d ds h h1 h2 ih_h ih_h2 =>
    intro hx
    cases hx
  | @programEnd   =>
    intro hx
    cases hx
  | @programMore i m j s ss h h1 ih_h ih_h1 =>
    intro hx
    cases hx

theorem Spec.G.program_head {i y : List Item} {ss : List Stmt} (h : G i (.program ss) []) (hy : Same i y) : G y (.program ss) [] := by
  cases h with
  | programEnd => obtain ⟨x, x', r, -, e, -⟩ := hy; cases e
  | programMore h h1 => exact .programMore (h.head rfl _ hy) h1

theorem Spec.G.program_notElse {i : List Item} {ss : List Stmt} (h : G i (.program ss) []) : look i ≠ .Else := by
  cases h with
  | programEnd => decide
  | programMore h h1 => exact h.notElse rfl

theorem Spec.G.program_good {i : List Item} {ss : List Stmt} (h : G i (.program ss) []) : ∀ x ∈ i, x.token ≠ .UnexpectedEndOfProgram :=
  fun x hx ht => by simpa using h.good rfl x hx ht

end Ratel
