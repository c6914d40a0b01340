import Verif.Lemmas.Lay
import Verif.Lemmas.SoundExpr
import Verif.Props.Grammar
/-! Reading back generated code: tokens. -/
namespace Ratel
open Spec

set_option linter.unusedSectionVars false
variable [Unicode]

/-! ### Gaps and tokens -/

theorem gap_blank {g r : Bytes} {a : Bool} (hg : Blank g) : Gap a g r (a || nl g) := by
  induction g generalizing a with
  | nil => simpa [nl] using Gap.nil
  | cons c g ih =>
    refine .space (hg c (by simp)) ?_
    have := ih (a := a || c == #b'\n') fun b hb => hg b (by simp [hb])
    simpa [nl, Bool.or_assoc] using this

theorem emit {g p r : Bytes} {t : Token} {j : List Item} (hp : Lexeme t p r) (ht : special t = false) (hg : Blank g)
    (h : Spells r j) : Spells (g ++ (p ++ r)) (.tok t p (asiBefore t (nl g)) :: j) :=
  .tok (by simpa using gap_blank (a := false) hg) hp ht h

/-- Punctuators that are no part of longer ones. -/
def isPlainPunct (p : Bytes) (t : Token) : Bool :=
  decide ((p, t) ∈ puncts) && (extensions p).isEmpty && p != bs!"/" && !special t

theorem emit_punct {g r : Bytes} {j : List Item} (p : Bytes) (t : Token) (hp : isPlainPunct p t = true) (hg : Blank g)
    (h : Spells r j) : Spells (g ++ (p ++ r)) (.tok t p (asiBefore t (nl g)) :: j) := by
  simp [isPlainPunct] at hp
  obtain ⟨⟨⟨h1, h2⟩, h3⟩, h4⟩ := hp
  exact emit (.punct h1 (punct_max (by simp [h2])) fun h => absurd h h3) h4 hg h

/-- A word of the language. -/
def isKeyword (p : Bytes) (t : Token) : Bool :=
  wordStart (next p) && p.tail.all wordByte && decide (wordToken p = t) && !special t && !p.isEmpty

theorem emit_keyword {g r : Bytes} {j : List Item} (p : Bytes) (t : Token) (hp : isKeyword p t = true) (hg : Blank g)
    (hr : wordByte (next r) = false)
    (h : Spells r j) : Spells (g ++ (p ++ r)) (.tok t p (asiBefore t (nl g)) :: j) := by
  simp [isKeyword] at hp
  obtain ⟨⟨⟨⟨h1, h2⟩, h3⟩, h4⟩, h5⟩ := hp
  cases p with
  | nil => simp at h5
  | cons c w =>
    refine emit ?_ h4 hg h
    rw [← h3]
    exact .word h1 h2 hr

theorem decodeFirst_append {v r : Bytes} {c : Nat} (h : Lex.decodeFirst v = some c) : Lex.decodeFirst (v ++ r) = some c := by
  rcases v with _ | ⟨x, _ | ⟨y, _ | ⟨z, _ | ⟨w, v⟩⟩⟩⟩ <;> simp only [Lex.decodeFirst, List.cons_append, List.nil_append] at h ⊢
  all_goals
    repeat' split at h
    all_goals first | cases h; done | skip
    all_goals
      repeat (first | rw [if_pos (by assumption)] | rw [if_neg (by assumption)])
      assumption

theorem Spec.Word.lexeme {t : Token} {v r : Bytes} (h : Word t v) (hr : wordByte (next r) = false) : Lexeme t v r := by
  rcases h with ⟨c, w, rfl, h1, h2, rfl⟩ | ⟨rfl, c, w, rfl, h1, h2, c', h3, h4⟩
  · exact .word h1 h2 hr
  · exact .unicodeWord h1 h2 ⟨c', decodeFirst_append h3, h4⟩ hr

theorem Spec.Word.plain {t : Token} {v : Bytes} (h : Word t v) : special t = false := by
  rcases h with ⟨c, w, rfl, h1, h2, rfl⟩ | ⟨rfl, _⟩
  · exact special_wordToken _
  · rfl

theorem Spec.Word.ne {t : Token} {v : Bytes} (h : Word t v) : v ≠ [] ∧ wordByte (next v) = true := by
  rcases h with ⟨c, w, rfl, h1, h2, rfl⟩ | ⟨rfl, c, w, rfl, h1, h2, c', h3, h4⟩
  · exact ⟨by simp, by simp [next, wordByte, h1]⟩
  · exact ⟨by simp, by simp [next, wordByte, h1]⟩

theorem emit_word {g v r : Bytes} {t : Token} {j : List Item} (hv : Word t v) (hg : Blank g) (hr : wordByte (next r) = false)
    (h : Spells r j) : Spells (g ++ (v ++ r)) (.tok t v (asiBefore t (nl g)) :: j) :=
  emit (hv.lexeme hr) hv.plain hg h

theorem emit_dot {v r : Bytes} {j : List Item} (hv : PropertyWord v) (hr : wordByte (next r) = false) (h : Spells r j) :
    Spells (bs!"." ++ (v ++ r)) (.tok .Accessor v .NoSemicolon :: j) := by
  obtain ⟨c, w, rfl, h1, h2⟩ := hv
  have := Spells.accessor (g := []) (s := []) (b := false) .nil (by simp) h1 h2 hr h
  exact this

theorem emit_string {g v r : Bytes} {j : List Item} (hv : StringText v) (hg : Blank g) (h : Spells r j) :
    Spells (g ++ (v ++ r)) (.tok .LiteralString v (asiBefore .LiteralString (nl g)) :: j) := by
  obtain ⟨q, s, rfl, h1, h2⟩ := hv
  exact emit (.string h1 h2) rfl hg h

theorem digit_word {c : Byte} (h : wordByte c = false) :
    isDigit c = false ∧ isHex c = false ∧ isOctal c = false ∧ isBinaryDigit c = false ∧ isFlag c = false ∧
    c ≠ #b'e' ∧ c ≠ #b'E' ∧ c ∉ bs!"bBoOxX" := by
  revert h
  exact byte_forall (P := fun c => wordByte c = false → isDigit c = false ∧ isHex c = false ∧ isOctal c = false ∧
    isBinaryDigit c = false ∧ isFlag c = false ∧ c ≠ #b'e' ∧ c ≠ #b'E' ∧ c ∉ bs!"bBoOxX") (by decide +kernel) c

theorem emit_binary {g v r : Bytes} {j : List Item} (hv : BinaryText v) (hg : Blank g) (hr : wordByte (next r) = false)
    (h : Spells r j) : Spells (g ++ (v ++ r)) (.tok .LiteralBinary v (asiBefore .LiteralBinary (nl g)) :: j) := by
  obtain ⟨x, ds, rfl, h1, h2⟩ := hv
  exact emit (.binary h1 h2 (digit_word hr).2.2.2.1) rfl hg h

theorem bareExponent_true {p : Bytes} {x : Byte} (hx : x = #b'e' ∨ x = #b'E')
    (h : (p ++ [x])[1]? ≠ some #b'x' ∧ (p ++ [x])[1]? ≠ some #b'X') : ¬ bareExponent (p ++ [x]) = false := by
  unfold bareExponent
  rw [List.getLast?_concat]
  generalize p ++ [x] = v at *
  rcases hx with rfl | rfl <;> simp [h]

theorem Spec.Number.follow {v r r' : Bytes} (h : Number v r') (hr : wordByte (next r) = false)
    (hd : next r = #b'.' → v.all isDigit = false) (hs : bareExponent v = true → next r ≠ #b'+' ∧ next r ≠ #b'-') : Number v r := by
  obtain ⟨w1, w2, w3, w4, w5, w6, w7, w8⟩ := digit_word hr
  have key : ∀ {p e : Bytes}, Exponent e r' → (bareExponent (p ++ e) = false → e ≠ bs!"e" ∧ e ≠ bs!"E") →
      (bareExponent (p ++ e) = true → next r ≠ #b'+' ∧ next r ≠ #b'-') → Exponent e r := by
    intro p e h1 h2 h3
    cases h1 with
    | none => exact .none w6 w7
    | @some e s ds _ he hs hd hr hn =>
      refine .some he hs hd w1 fun a b => ?_
      subst a b
      cases hb : bareExponent (p ++ (e :: [] ++ [])) with
      | false => rcases he with rfl | rfl <;> simp at h2 hb <;> simp [hb] at h2
      | true => exact h3 hb
  cases h with
  | @decimal ds f e _ h0 h1 hf he h2 hn hz =>
    have hx : bareExponent (ds ++ f ++ e) = false → e ≠ bs!"e" ∧ e ≠ bs!"E" := by
      intro hb
      obtain ⟨d, ds, rfl⟩ := List.exists_cons_of_ne_nil h0
      have hp : ∀ x : Byte, x = #b'e' ∨ x = #b'E' → (d :: ds ++ f ++ [x])[1]? ≠ some #b'x' ∧ (d :: ds ++ f ++ [x])[1]? ≠ some #b'X' := by
        intro x hx
        cases ds with
        | cons c ds =>
          have := h1 c (by simp)
          constructor <;> (simp; rintro rfl; revert this; decide)
        | nil =>
          cases hf with
          | none => rcases hx with rfl | rfl <;> simp
          | some => simp
      constructor
      · rintro rfl
        exact absurd hb (bareExponent_true (.inl rfl) (hp _ (.inl rfl)))
      · rintro rfl
        exact absurd hb (bareExponent_true (.inr rfl) (hp _ (.inr rfl)))
    refine .decimal h0 h1 hf (key he hx hs) (fun _ => w1) ?_ fun _ _ _ => w8
    intro a b
    subst a b
    intro hc
    have := hd hc
    simp at this
    obtain ⟨x, hx, h⟩ := this
    simp [h1 x hx] at h
  | @point d ds e _ h0 h1 he h2 =>
    refine .point h0 h1 (key (p := #b'.' :: d :: ds) he ?_ hs) fun _ => w1
    intro hb
    have hd' : d ≠ #b'x' ∧ d ≠ #b'X' := by
      constructor <;> (rintro rfl; revert h0; decide)
    constructor
    · rintro rfl
      exact absurd hb (bareExponent_true (.inl rfl) (by simpa using hd'))
    · rintro rfl
      exact absurd hb (bareExponent_true (.inr rfl) (by simpa using hd'))
  | octal h1 h2 h3 => exact .octal h1 h2 w3
  | hex h1 h2 h3 => exact .hex h1 h2 w2

theorem emit_number {g v r r' : Bytes} {j : List Item} (hv : Number v r') (hg : Blank g) (hr : wordByte (next r) = false)
    (hd : next r = #b'.' → v.all isDigit = false) (hs : bareExponent v = true → next r ≠ #b'+' ∧ next r ≠ #b'-')
    (h : Spells r j) : Spells (g ++ (v ++ r)) (.tok .LiteralNumber v (asiBefore .LiteralNumber (nl g)) :: j) :=
  emit (.number (hv.follow hr hd hs)) rfl hg h

theorem emit_regex {g v r : Bytes} {j : List Item} (hv : RegexText v) (hg : Blank g) (hr : wordByte (next r) = false)
    (h : Spells r j) : Spells (g ++ (v ++ r)) (.regex v (asiBefore .OperatorDivision (nl g)) :: j) := by
  obtain ⟨c, p, f, rfl, h1, h2, h3⟩ := hv
  exact .regex (by simpa using gap_blank (a := false) hg) h1 h2 h3 (digit_word hr).2.2.2.2.1 h

theorem emit_template {g s r : Bytes} {j : List Item} (closed : Bool) (hs : TplBody s) (hg : Blank g) (h : Spells r j) :
    Spells (g ++ (bs!"`" ++ (s ++ (tplEnd closed ++ r)))) (.tok (tplToken closed) s (asiBefore (tplToken closed) (nl g)) :: j) := by
  have := Spells.template (closed := closed) (b := nl g) (by simpa using gap_blank (a := false) hg) hs h
  simpa using this

theorem emit_resume {g s r : Bytes} {j : List Item} (closed : Bool) (hs : TplBody s) (hg : Blank g) (h : Spells r j) :
    Spells (g ++ (bs!"}" ++ (s ++ (tplEnd closed ++ r)))) (.resume closed s :: j) := by
  have := Spells.resume (closed := closed) (b := nl g) (by simpa using gap_blank (a := false) hg) hs h
  simpa using this

/-! ### Operators -/

/-- The first byte of an expression with the given first token. -/
def lead (t : Token) (b : Byte) : Bool :=
  match t with
  | .OperatorAddition | .OperatorIncrement => b == #b'+'
  | .OperatorSubtraction | .OperatorDecrement => b == #b'-'
  | .OperatorDivision => b == #b'/'
  | _ => wordByte b || b ∈ bs!".\"'([{`!~"

/-- An operator that does not run together with what follows. -/
theorem op_lexeme {op : Op} {t : Token} {r : Bytes} (h : (precedence op).isSome ∨ unaryOperator op = true ∨ assignOperator op = true)
    (hw : op.category ≠ .Word) (hr : lead t (next r) = true) (hg : glues op t = false) : Lexeme (opTok op) op.asStr r := by
  have h1 : ∀ op ∈ Op.all, ((precedence op).isSome ∨ unaryOperator op = true ∨ assignOperator op = true) → op.category ≠ .Word →
      (op.asStr, opTok op) ∈ puncts := by decide +kernel
  have h2 : ∀ op ∈ Op.all, op.category ≠ .Word → op ≠ .Spread → ∀ c ∈ extensions op.asStr, lead .Identifier c = false ∧ c ≠ #b'/' ∧
      (c = #b'+' → op = .Addition) ∧ (c = #b'-' → op = .Subtraction) := by decide +kernel
  have hsp : op ≠ .Spread := by
    rintro rfl
    revert h
    decide
  refine .punct (h1 op op.mem_all h hw) (punct_max fun hm => ?_) fun he => ?_
  · obtain ⟨e1, e2, e3, e4⟩ := h2 op op.mem_all hw hsp _ hm
    unfold lead at hr
    split at hr
    · simp at hr; rw [e3 hr] at hg; cases hg
    · simp at hr; rw [e3 hr] at hg; cases hg
    · simp at hr; rw [e4 hr] at hg; cases hg
    · simp at hr; rw [e4 hr] at hg; cases hg
    · simp at hr; exact e2 hr
    · rw [lead] at e1
      rw [e1] at hr
      cases hr
      all_goals nofun
  · have h3 : ∀ op ∈ Op.all, op.asStr = bs!"/" → op = .Division := by decide +kernel
    have := h3 op op.mem_all he
    subst this
    unfold lead at hr
    split at hr
    · simp at hr; rw [hr]; decide
    · simp at hr; rw [hr]; decide
    · simp at hr; rw [hr]; decide
    · simp at hr; rw [hr]; decide
    · cases hg
    · revert hr
      generalize next r = c
      exact byte_forall (P := fun c => (wordByte c || decide (c ∈ bs!".\"'([{`!~")) = true → c ≠ #b'/' ∧ c ≠ #b'*') (by decide +kernel) c

end Ratel
