import Verif.Lemmas.Brackets
/-! What may follow a phrase of the grammar: items can be appended behind it. -/
namespace Ratel
open Spec

/-! ### Depth -/

/-- How a token changes the number of open brackets. -/
def weight : Token → Int
  | .ParenOpen | .BracketOpen | .BraceOpen | .TemplateOpen => 1
  | .ParenClose | .BracketClose | .BraceClose => -1
  | _ => 0

def Item.weight : Item → Int
  | .tok t _ _ => Ratel.weight t
  | .regex _ _ => 0
  | .resume true _ => -1
  | .resume false _ => 0

/-- The number of brackets opened in the items, minus the number of those closed. -/
def level : List Item → Int
  | [] => 0
  | x :: r => Item.weight x + level r

/-- The number of brackets a phrase closes that have been opened before it. -/
def due : Phrase → Int
  | .params _ | .membersTail _ | .stmtsTail _ | .cases _ | .templateTail _ _ => 1
  | .optExpr t _ => -weight t
  | _ => 0

theorem weight_plain {t : Token} (h : plain t = true) : weight t = 0 := by cases t <;> first | rfl | cases h
theorem weight_semi : weight .Semicolon = 0 := rfl
theorem weight_close : weight .ParenClose = -1 := rfl

theorem depth_step {s s' : List Bracket} {x : Item} (h : bracketStep s x = some s') :
    (s'.length : Int) = s.length + Item.weight x := by
  revert h
  cases x with
  | regex => rintro ⟨⟩; simp [Item.weight]
  | resume c w =>
    simp only [bracketStep]
    split
    · rintro ⟨⟩; cases c <;> simp [Item.weight]; omega
    · simp
  | tok t w a =>
    cases t <;> simp only [bracketStep] <;> (try split) <;>
      (intro h; cases h; try (simp [Item.weight, weight]; done)) <;> (simp [Item.weight, weight]; omega)

theorem depth_open : ∀ {i : List Item} {s s' : List Bracket}, openAfter s i = some s' → (s'.length : Int) = s.length + level i
  | [], s, s', h => by cases h; simp [level]
  | x :: r, s, s', h => by
    rw [openAfter, Option.bind_eq_some_iff] at h
    obtain ⟨t, h1, h2⟩ := h
    have := depth_step h1
    have := depth_open h2
    simp only [level]; omega

theorem Spec.AllClosed.depth {i : List Item} (h : AllClosed i) : level i = 0 := by
  have := depth_open h; simp at this; omega

section
variable {i j m n : List Item}

theorem Spec.Tk.depth {t : Token} (h : Tk t i j) : level i = weight t + level j := by obtain ⟨w, a, rfl⟩ := h; rfl
theorem Spec.Wd.depth {t : Token} {w : Bytes} (h : Wd t w i j) : level i = weight t + level j := by obtain ⟨a, rfl⟩ := h; rfl
theorem Spec.Tk.depth_eq {t : Token} (h : Tk t i j) (k : Int) (e : weight t = k) : level i = k + level j := e ▸ h.depth
theorem Spec.Wd.depth_eq {t : Token} {w : Bytes} (h : Wd t w i j) (k : Int) (e : weight t = k) : level i = k + level j :=
  e ▸ h.depth
theorem Spec.Tk.depth_plain {t : Token} (h : Tk t i j) (e : plain t = true) : level i = level j := by
  rw [h.depth, weight_plain e]; simp
theorem Spec.Wd.depth_plain {t : Token} {w : Bytes} (h : Wd t w i j) (e : plain t = true) : level i = level j := by
  rw [h.depth, weight_plain e]; simp
theorem Spec.Semi.depth (h : Semi i j) : level i = level j := by
  cases h <;> simp [level, Item.weight, weight]
theorem Spec.OptSemi.depth (h : OptSemi i j) : level i = level j := by
  cases h with
  | written h => exact h.depth_plain rfl
  | absent h => rfl
theorem Spec.NameAt.depth {k : Naming} {x : Name} (h : NameAt k i x j) : level i = level j := by
  cases h with
  | never => rfl
  | given h => exact h.depth_plain rfl
  | missing h => rfl
  | always h => exact h.depth_plain rfl
theorem Spec.StarAt.depth {b : Bool} (h : StarAt i b j) : level i = level j := by
  cases h with
  | yes h => exact h.depth_plain rfl
  | no h => rfl
theorem Spec.StaticAt.depth {b : Bool} (h : StaticAt i b j) : level i = level j := by
  cases h with
  | yes h => exact h.depth_plain rfl
  | no h => rfl
theorem Spec.ImportName.depth {s : ImportSpec} (h : ImportName i s j) : level i = level j := by
  cases h with
  | plain h => exact h.depth_plain rfl
  | renamed h h1 h2 => exact (h.depth_plain rfl).trans ((h1.depth_plain rfl).trans (h2.depth_plain rfl))
theorem Spec.ImportNames.depth {s : List ImportSpec} (h : ImportNames i s j) : level i = level j - 1 := by
  induction h with
  | last h h1 => have := h.depth; have := h1.depth_eq (-1) rfl; omega
  | more h h1 _ ih => have := h.depth; have := h1.depth_eq 0 rfl; omega
theorem Spec.ImportGroup.depth {s : List ImportSpec} (h : ImportGroup i s j) : level i = level j := by
  cases h with
  | names h h1 => have := h.depth_eq 1 rfl; have := h1.depth; omega
  | all h h1 h2 => exact (h.depth_plain rfl).trans ((h1.depth_plain rfl).trans (h2.depth_plain rfl))
theorem Spec.ImportHead.depth {s : List ImportSpec} (h : ImportHead i s j) : level i = level j := by
  cases h with
  | one h => exact h.depth_plain rfl
  | both h h1 h2 => exact (h.depth_plain rfl).trans ((h1.depth_plain rfl).trans h2.depth)
  | group h => exact h.depth

/-! ### What is left is at the end -/

theorem Spec.Tk.suffix {t : Token} (h : Tk t i j) : j <:+ i := by obtain ⟨w, a, rfl⟩ := h; exact List.suffix_cons _ _
theorem Spec.Wd.suffix {t : Token} {w : Bytes} (h : Wd t w i j) : j <:+ i := by obtain ⟨a, rfl⟩ := h; exact List.suffix_cons _ _
theorem Closed.suffix' {p : List Bracket} (h : Closed p i j) : j <:+ i := by obtain ⟨c, rfl⟩ := h.suffix; exact ⟨c, rfl⟩
theorem Spec.Semi.suffix (h : Semi i j) : j <:+ i := h.closed.suffix'
theorem Spec.OptSemi.suffix (h : OptSemi i j) : j <:+ i := h.closed.suffix'
theorem Spec.NameAt.suffix {k : Naming} {x : Name} (h : NameAt k i x j) : j <:+ i := h.closed.suffix'
theorem Spec.StarAt.suffix {b : Bool} (h : StarAt i b j) : j <:+ i := h.closed.suffix'
theorem Spec.StaticAt.suffix {b : Bool} (h : StaticAt i b j) : j <:+ i := h.closed.suffix'
theorem Spec.ImportHead.suffix {s : List ImportSpec} (h : ImportHead i s j) : j <:+ i := h.closed.suffix'

theorem importExpr_suffix {x y : Item} {k : Nat} {e : Expr} (h : j <:+ x :: i) (h' : j <:+ m) (hg : G (x :: i) (.whole k e) m) :
    j <:+ y :: i := by
  rcases List.suffix_cons_iff.1 h with rfl | h
  · have h1 := hg.short
    have h2 := h'.length_le
    simp [Short, least] at h1 h2
    omega
  · exact h.trans (List.suffix_cons _ _)

theorem suffix_some (h : j <:+ i) (hj : j ≠ []) : i ≠ [] := by
  rintro rfl; exact hj (List.suffix_nil.1 h)

theorem look_any0 {t : Token} (h : look j = t) (ht : t ≠ .EndOfProgram := by decide) : j ≠ [] := look_some h ht
theorem look_any1 {t u : Token} (h : look j = t ∨ look j = u) (ht : t ≠ .EndOfProgram := by decide)
    (hu : u ≠ .EndOfProgram := by decide) : j ≠ [] := h.elim (look_some · ht) (look_some · hu)
theorem look_any2 {t u v : Token} (h : look j = t ∨ look j = u ∨ look j = v) (ht : t ≠ .EndOfProgram := by decide)
    (hu : u ≠ .EndOfProgram := by decide) (hv : v ≠ .EndOfProgram := by decide) : j ≠ [] :=
  h.elim (look_some · ht) (look_any1 · hu hv)

/-- The phrases that may be empty at the end of the program. -/
def mayEnd : Phrase → Bool
  | .stmtsTail _ | .membersTail _ | .program _ => true
  | _ => false

/-! ### Semicolons at the end -/

/-- The last item is a semicolon. -/
def EndsSemi (i : List Item) : Prop := ∃ c w a, i = c ++ [.tok .Semicolon w a]

theorem not_endsSemi_nil : ¬ EndsSemi [] := by rintro ⟨c, w, a, h⟩; simp at h

theorem EndsSemi.suffix (h : EndsSemi i) (hm : m <:+ i) (h0 : m ≠ []) : EndsSemi m := by
  obtain ⟨c, w, a, rfl⟩ := h
  obtain ⟨d, hd⟩ := hm
  rcases List.eq_nil_or_concat m with rfl | ⟨m', x, rfl⟩
  · exact absurd rfl h0
  · rw [List.concat_eq_append, ← List.append_assoc] at hd
    have := (List.append_inj' hd rfl).2
    exact ⟨m', w, a, by rw [List.concat_eq_append, this]⟩

theorem EndsSemi.not_of_suffix (hm : m <:+ i) (h0 : m ≠ []) (h : ¬ EndsSemi m) : ¬ EndsSemi i := fun hi => h (hi.suffix hm h0)

theorem not_endsSemi_of {x : Item} (hx : ∀ w a, x ≠ .tok .Semicolon w a) (hj : j = []) : ¬ EndsSemi (x :: j) := by
  subst hj
  rintro ⟨c, w, a, h⟩
  cases c with
  | nil => exact hx w a (List.cons.inj h).1
  | cons y c => simp at h

theorem Spec.Tk.last {t : Token} (h : Tk t i j) (ht : t ≠ .Semicolon) (hj : j = []) : ¬ EndsSemi i := by
  obtain ⟨w, a, rfl⟩ := h
  exact not_endsSemi_of (by rintro w a ⟨⟩; exact ht rfl) hj
theorem Spec.Wd.last {t : Token} {w : Bytes} (h : Wd t w i j) (ht : t ≠ .Semicolon) (hj : j = []) : ¬ EndsSemi i := by
  obtain ⟨a, rfl⟩ := h
  exact not_endsSemi_of (by rintro w a ⟨⟩; exact ht rfl) hj

theorem literal_semi {t : Token} {w : Bytes} {v : Literal} (h : literalOf t w = some v) : t ≠ .Semicolon := by rintro rfl; cases h
theorem binary_semi {t : Token} {x : Op × Nat} (h : binaryOp t = some x) : t ≠ .Semicolon := by rintro rfl; cases h
theorem word_semi {t : Token} (h : t.isWord = true) : t ≠ .Semicolon := by rintro rfl; cases h
theorem two_semi {t : Token} (h : t = .LiteralString ∨ t = .LiteralNumber) : t ≠ .Semicolon := by rintro rfl; simp at h

/-- The phrases that do not end with a semicolon. -/
def ends : Phrase → Bool
  | .stmt _ | .optExpr _ _ | .member _ | .memberValue .. | .switchCase _ | .caseBody _ | .program _ => false
  | _ => true

/-! ### What is appended -/

/-- The items do not continue what is in front of them, and a semicolon may be inserted. -/
structure Stop (rest : List Item) : Prop where
  continues : ∀ k, Spec.continues k rest = false
  semi : semicolon rest = .ImplicitSemicolon
  look : look rest ∉ [Token.Semicolon, .Else, .Finally, .Colon, .ParenOpen, .Comma, .OperatorAssign]

/-- `rest` may be appended behind the items from `i` to `j`. -/
def Room (rest i j : List Item) : Prop := j ≠ [] ∨ Stop rest ∨ EndsSemi i ∧ look rest ≠ .Else

theorem look_app (rest : List Item) (h : i ≠ []) : look (i ++ rest) = look i := by
  cases i with
  | nil => exact absurd rfl h
  | cons => rfl
theorem semicolon_app (rest : List Item) (h : i ≠ []) : semicolon (i ++ rest) = semicolon i := by
  rcases i with _ | ⟨x | x | x, i⟩ <;> first | rfl | exact absurd rfl h
theorem continues_app (rest : List Item) (k : Nat) (h : i ≠ []) : continues k (i ++ rest) = continues k i := by
  unfold continues
  rw [look_app rest h, semicolon_app rest h]
theorem look_pos0 (rest : List Item) {t : Token} (h : look j = t) (ht : t ≠ .EndOfProgram := by decide) :
    look (j ++ rest) = t := by rwa [look_app rest (look_any0 h ht)]
theorem look_pos1 (rest : List Item) {t u : Token} (h : look j = t ∨ look j = u) (ht : t ≠ .EndOfProgram := by decide)
    (hu : u ≠ .EndOfProgram := by decide) : look (j ++ rest) = t ∨ look (j ++ rest) = u := by rwa [look_app rest (look_any1 h ht hu)]
theorem look_pos2 (rest : List Item) {t u v : Token} (h : look j = t ∨ look j = u ∨ look j = v) (ht : t ≠ .EndOfProgram := by decide)
    (hu : u ≠ .EndOfProgram := by decide) (hv : v ≠ .EndOfProgram := by decide) :
    look (j ++ rest) = t ∨ look (j ++ rest) = u ∨ look (j ++ rest) = v := by rwa [look_app rest (look_any2 h ht hu hv)]

variable {rest : List Item}

theorem endsSemi_swap {x y : Item} (h : ¬ EndsSemi (x :: i)) (hi : i ≠ []) : ¬ EndsSemi (y :: i) := fun hy =>
  h (by
    obtain ⟨c, w, a, hc⟩ := hy.suffix (List.suffix_cons y i) hi
    exact ⟨x :: c, w, a, by rw [hc]; rfl⟩)

theorem Room.sub (hr : Room rest i j) (h : m <:+ i) (h' : j <:+ n) (hm : m ≠ []) : Room rest m n := by
  by_cases hn : n = []
  · rcases hr with hr | hr | hr
    · exact absurd hn (suffix_some h' hr)
    · exact .inr (.inl hr)
    · exact .inr (.inr ⟨hr.1.suffix h hm, hr.2⟩)
  · exact .inl hn
theorem Room.swap {x y : Item} (hr : Room rest (y :: i) j) (h' : j <:+ n) (hi : i ≠ []) : Room rest (x :: i) n := by
  by_cases hn : n = []
  · rcases hr with hr | hr | hr
    · exact absurd hn (suffix_some h' hr)
    · exact .inr (.inl hr)
    · refine .inr (.inr ⟨?_, hr.2⟩)
      obtain ⟨c, w, a, hc⟩ := hr.1.suffix (List.suffix_cons y i) hi
      exact ⟨x :: c, w, a, by rw [hc]; rfl⟩
  · exact .inl hn
theorem Room.continues {k : Nat} (hr : Room rest i j) (hl : j = [] → ¬ EndsSemi i) (h : continues k j = false) :
    Spec.continues k (j ++ rest) = false := by
  by_cases hj : j = []
  · rcases hr with hr | hr | hr
    · exact absurd hj hr
    · subst hj; exact hr.continues k
    · exact absurd hr.1 (hl hj)
  · rwa [continues_app rest k hj]
theorem Room.look {t : Token} (hr : Room rest i j) (hl : j = [] → ¬ EndsSemi i) (h : look j ≠ t) (h' : Stop rest → Spec.look rest ≠ t) :
    Spec.look (j ++ rest) ≠ t := by
  by_cases hj : j = []
  · rcases hr with hr | hr | hr
    · exact absurd hj hr
    · subst hj; exact h' hr
    · exact absurd hr.1 (hl hj)
  · rwa [look_app rest hj]
theorem Room.else_ (hr : Room rest i j) (h : Spec.look j ≠ .Else) : Spec.look (j ++ rest) ≠ .Else := by
  by_cases hj : j = []
  · subst hj
    rcases hr with hr | hr | hr
    · exact absurd rfl hr
    · have := hr.look; simp at this; exact this.2.1
    · exact hr.2
  · rwa [look_app rest hj]
theorem Stop.not (h : Stop rest) {t : Token} (ht : t ∈ [Token.Semicolon, .Else, .Finally, .Colon, .ParenOpen, .Comma, .OperatorAssign]) :
    Spec.look rest ≠ t := fun e => h.look (e ▸ ht)

theorem exprStmt_tail (hr : Room rest i j) (hs : i ≠ []) (hj : j.length < i.length)
    (h : Spec.look i = .Identifier → Spec.look i.tail ≠ .Colon) :
    Spec.look (i ++ rest) = .Identifier → Spec.look (i ++ rest).tail ≠ .Colon := by
  rw [look_app rest hs]
  intro hi
  have h := h hi
  rcases i with _ | ⟨x, _ | ⟨y, i⟩⟩
  · exact absurd rfl hs
  · have hj : j = [] := by cases j with
      | nil => rfl
      | cons => simp at hj
    rcases hr with hr | hr | hr
    · exact absurd hj hr
    · exact hr.not (by simp)
    · refine absurd hr.1 (not_endsSemi_of ?_ rfl)
      rintro w a rfl
      cases hi
  · exact h

theorem Spec.Tk.app {t : Token} (h : Tk t i j) (rest : List Item) : Tk t (i ++ rest) (j ++ rest) := by
  obtain ⟨w, a, rfl⟩ := h; exact ⟨w, a, rfl⟩
theorem Spec.Wd.app {t : Token} {w : Bytes} (h : Wd t w i j) (rest : List Item) : Wd t w (i ++ rest) (j ++ rest) := by
  obtain ⟨a, rfl⟩ := h; exact ⟨a, rfl⟩
theorem Spec.Semi.app (h : Semi m j) (hr : Room rest i j) (hl : m = [] → ¬ EndsSemi i) : Semi (m ++ rest) (j ++ rest) := by
  cases h with
  | written => exact .written
  | inserted h =>
    by_cases hj : j = []
    · rcases hr with hr | hr | hr
      · exact absurd hj hr
      · subst hj; exact .inserted hr.semi
      · exact absurd hr.1 (hl hj)
    · exact .inserted (by rwa [semicolon_app rest hj])
theorem Spec.OptSemi.app (h : OptSemi m j) (hr : Room rest i j) (hl : m = [] → ¬ EndsSemi i) : OptSemi (m ++ rest) (j ++ rest) := by
  cases h with
  | written h => exact .written (h.app rest)
  | absent h => exact .absent (hr.look hl h fun s => s.not (by simp))
theorem Spec.NameAt.app {k : Naming} {x : Name} (h : NameAt k i x j) (rest : List Item) (hj : j ≠ []) :
    NameAt k (i ++ rest) x (j ++ rest) := by
  cases h with
  | never => exact .never
  | given h => exact .given (h.app rest)
  | missing h => exact .missing (by rwa [look_app rest hj])
  | always h => exact .always (h.app rest)
theorem Spec.StarAt.app {b : Bool} (h : StarAt i b j) (rest : List Item) (hj : j ≠ []) : StarAt (i ++ rest) b (j ++ rest) := by
  cases h with
  | yes h => exact .yes (h.app rest)
  | no h => exact .no (by rwa [look_app rest hj])
theorem Spec.StaticAt.app {b : Bool} (h : StaticAt i b j) (rest : List Item) (hj : j ≠ []) : StaticAt (i ++ rest) b (j ++ rest) := by
  cases h with
  | yes h => exact .yes (h.app rest)
  | no h => exact .no (by rwa [look_app rest hj])
theorem Spec.ImportName.app {s : ImportSpec} (h : ImportName i s j) (rest : List Item) (hj : j ≠ []) :
    ImportName (i ++ rest) s (j ++ rest) := by
  cases h with
  | plain h h' =>
    refine .plain (h.app rest) fun n => ?_
    rintro ⟨a, ha⟩
    clear h
    rcases j with _ | ⟨x, j⟩
    · exact hj rfl
    · obtain ⟨rfl, -⟩ := List.cons.inj ha
      exact h' j ⟨a, rfl⟩
  | renamed h h1 h2 => exact .renamed (h.app rest) (h1.app rest) (h2.app rest)
theorem Spec.ImportNames.app {s : List ImportSpec} (h : ImportNames i s j) (rest : List Item) : ImportNames (i ++ rest) s (j ++ rest) := by
  induction h with
  | last h h1 => exact .last (h.app rest h1.some) (h1.app rest)
  | more h h1 _ ih => exact .more (h.app rest h1.some) (h1.app rest) ih
theorem Spec.ImportGroup.app {s : List ImportSpec} (h : ImportGroup i s j) (rest : List Item) : ImportGroup (i ++ rest) s (j ++ rest) := by
  cases h with
  | names h h1 => exact .names (h.app rest) (h1.app rest)
  | all h h1 h2 => exact .all (h.app rest) (h1.app rest) (h2.app rest)
theorem Spec.ImportHead.app {s : List ImportSpec} (h : ImportHead i s j) (rest : List Item) (hj : j ≠ []) :
    ImportHead (i ++ rest) s (j ++ rest) := by
  cases h with
  | one h h' => exact .one (h.app rest) (by rwa [look_app rest hj])
  | both h h1 h2 => exact .both (h.app rest) (h1.app rest) (h2.app rest)
  | group h => exact .group (h.app rest)

end

/-! ### The induction -/

set_option linter.unusedSimpArgs false
theorem Spec.G.depth {i j : List Item} {x : Phrase} (h : G i x j) : level j - due x ≤ level i := by
  induction h with
  | @whole i j k e h h' ih_h =>
    have := ih_h
    simp only [due, level, Item.weight, weight] at *
    omega
  | @ident i j k w hk h  =>
    have := h.depth_eq (0) rfl
    simp only [due, level, Item.weight, weight] at *
    omega
  | @this i j k hk h  =>
    have := h.depth_eq (0) rfl
    simp only [due, level, Item.weight, weight] at *
    omega
  | @lit i j k t w v hk h hv  =>
    have := h.depth_plain (plain_literal hv)
    simp only [due, level, Item.weight, weight] at *
    omega
  | @regex j k w a hk  =>
    simp only [due, level, Item.weight, weight] at *
    omega
  | @array i m n j k es hk h h0 h1 h2 ih_h1 =>
    have := h.depth_eq (1) rfl
    have := ih_h1
    have := h2.depth_eq (-1) rfl
    simp only [due, level, Item.weight, weight] at *
    omega
  | @emptyArray i m j k hk h h2  =>
    have := h.depth_eq (1) rfl
    have := h2.depth_eq (-1) rfl
    simp only [due, level, Item.weight, weight] at *
    omega
  | @object i m n j k ps hk h h1 h2 ih_h1 =>
    have := h.depth_eq (1) rfl
    have := ih_h1
    have := h2.depth_eq (-1) rfl
    simp only [due, level, Item.weight, weight] at *
    omega
  | @function i m j k f hk h h1 ih_h1 =>
    have := h.depth_eq (0) rfl
    have := ih_h1
    simp only [due, level, Item.weight, weight] at *
    omega
  | @«class» i m j k c hk h h1 ih_h1 =>
    have := h.depth_eq (0) rfl
    have := ih_h1
    simp only [due, level, Item.weight, weight] at *
    omega
  | @template i j k es qs hk h ih_h =>
    have := ih_h
    simp only [due, level, Item.weight, weight] at *
    omega
  | @paren i m n j k e hk h h1 h2 ih_h1 =>
    have := h.depth_eq (1) rfl
    have := ih_h1
    have := h2.depth_eq (-1) rfl
    simp only [due, level, Item.weight, weight] at *
    omega
  | @newTarget i m j k hk h h1  =>
    have := h.depth_eq (0) rfl
    have := h1.depth_eq (0) rfl
    simp only [due, level, Item.weight, weight] at *
    omega
  | @member i m j k e w hk h h1 ih_h =>
    have := ih_h
    have := h1.depth_eq (0) rfl
    simp only [due, level, Item.weight, weight] at *
    omega
  | @index i m n o j k e p hk h h1 h2 h3 ih_h ih_h2 =>
    have := ih_h
    have := h1.depth_eq (1) rfl
    have := ih_h2
    have := h3.depth_eq (-1) rfl
    simp only [due, level, Item.weight, weight] at *
    omega
  | @call i m n o j k e es hk h h1 h2 h3 ih_h ih_h2 =>
    have := ih_h
    have := h1.depth_eq (1) rfl
    have := ih_h2
    have := h3.depth_eq (-1) rfl
    simp only [due, level, Item.weight, weight] at *
    omega
  | @tagged i m j k e es qs hk h h1 ih_h ih_h1 =>
    have := ih_h
    have := ih_h1
    simp only [due, level, Item.weight, weight] at *
    omega
  | @«postfix» i j k e t w a op hk h he hop ha ih_h =>
    have := ih_h
    have := weight_plain (plain_postfix hop)
    simp only [due, level, Item.weight, weight] at *
    omega
  | @arrow i m n j k e ps b hk h hp h1 hb h2 ih_h ih_h2 =>
    have := ih_h
    have := h1.depth_eq (0) rfl
    have := ih_h2
    simp only [due, level, Item.weight, weight] at *
    omega
  | @arrowBlock i m n j k e ps b hk h hp h1 h2 ih_h ih_h2 =>
    have := ih_h
    have := h1.depth_eq (0) rfl
    have := ih_h2
    simp only [due, level, Item.weight, weight] at *
    omega
  | @arrow0 i m n o j k b hk h h0 h1 hb h2 ih_h2 =>
    have := h.depth_eq (1) rfl
    have := h0.depth_eq (-1) rfl
    have := h1.depth_eq (0) rfl
    have := ih_h2
    simp only [due, level, Item.weight, weight] at *
    omega
  | @arrowBlock0 i m n o j k b hk h h0 h1 h2 ih_h2 =>
    have := h.depth_eq (1) rfl
    have := h0.depth_eq (-1) rfl
    have := h1.depth_eq (0) rfl
    have := ih_h2
    simp only [due, level, Item.weight, weight] at *
    omega
  | @«prefix» i m j k t op e hk h hop h1 ih_h1 =>
    have := h.depth_plain (plain_prefix hop)
    have := ih_h1
    simp only [due, level, Item.weight, weight] at *
    omega
  | @new i m j k e hk h hm h1 ih_h1 =>
    have := h.depth_eq (0) rfl
    have := ih_h1
    simp only [due, level, Item.weight, weight] at *
    omega
  | @binary i m n j k t op p a b hop hk h h1 h2 ih_h ih_h2 =>
    have := ih_h
    have := h1.depth_plain (plain_binary hop)
    have := ih_h2
    simp only [due, level, Item.weight, weight] at *
    omega
  | @cond i m n o q j k a b c hk h h1 h2 h3 h4 ih_h ih_h2 ih_h4 =>
    have := ih_h
    have := h1.depth_eq (0) rfl
    have := ih_h2
    have := h3.depth_eq (0) rfl
    have := ih_h4
    simp only [due, level, Item.weight, weight] at *
    omega
  | @assign i m n j k t op a b hk h ha h1 hop h2 ih_h ih_h2 =>
    have := ih_h
    have := h1.depth_plain (plain_assign hop)
    have := ih_h2
    simp only [due, level, Item.weight, weight] at *
    omega
  | @comma i m n j a es h h1 h2 ih_h ih_h2 =>
    have := ih_h
    have := h1.depth_eq (0) rfl
    have := ih_h2
    simp only [due, level, Item.weight, weight] at *
    omega
  | @commaLast i j e h h' ih_h =>
    have := ih_h
    simp only [due, level, Item.weight, weight] at *
    omega
  | @commaMore i m n j e es h h1 h2 ih_h ih_h2 =>
    have := ih_h
    have := h1.depth_eq (0) rfl
    have := ih_h2
    simp only [due, level, Item.weight, weight] at *
    omega
  | @arg i j e h ih_h =>
    have := ih_h
    simp only [due, level, Item.weight, weight] at *
    omega
  | @argSpread i m j e h h1 ih_h1 =>
    have := h.depth_eq (0) rfl
    have := ih_h1
    simp only [due, level, Item.weight, weight] at *
    omega
  | @argsNone j h  =>
    simp only [due, level, Item.weight, weight] at *
    omega
  | @argsLast i j e h h' ih_h =>
    have := ih_h
    simp only [due, level, Item.weight, weight] at *
    omega
  | @argsMore i m n j e es h h1 h2 ih_h ih_h2 =>
    have := ih_h
    have := h1.depth_eq (0) rfl
    have := ih_h2
    simp only [due, level, Item.weight, weight] at *
    omega
  | @elem i j e h ih_h =>
    have := ih_h
    simp only [due, level, Item.weight, weight] at *
    omega
  | @elemSpread i m j e h h1 ih_h1 =>
    have := h.depth_eq (0) rfl
    have := ih_h1
    simp only [due, level, Item.weight, weight] at *
    omega
  | @elemHole j h  =>
    simp only [due, level, Item.weight, weight] at *
    omega
  | @elemsLast i j e h h' ih_h =>
    have := ih_h
    simp only [due, level, Item.weight, weight] at *
    omega
  | @elemsMore i m n j e es h h1 h2 ih_h ih_h2 =>
    have := ih_h
    have := h1.depth_eq (0) rfl
    have := ih_h2
    simp only [due, level, Item.weight, weight] at *
    omega
  | @templateClosed i j w h  =>
    have := h.depth_eq (0) rfl
    simp only [due, level, Item.weight, weight] at *
    omega
  | @templateOpen i m n j w e es qs h h1 h2 ih_h1 ih_h2 =>
    have := h.depth_eq (1) rfl
    have := ih_h1
    have := ih_h2
    simp only [due, level, Item.weight, weight] at *
    omega
  | @templateEnd j w  =>
    simp only [due, level, Item.weight, weight] at *
    omega
  | @templateMore m n j w e es qs h1 h2 ih_h1 ih_h2 =>
    have := ih_h1
    have := ih_h2
    simp only [due, level, Item.weight, weight] at *
    omega
  | @shorthand i j t w h ht h1 h2  =>
    have := h.depth_plain (plain_word ht)
    simp only [due, level, Item.weight, weight] at *
    omega
  | @propWord i m j t w p h ht h1 ih_h1 =>
    have := h.depth_plain (plain_word ht)
    have := ih_h1
    simp only [due, level, Item.weight, weight] at *
    omega
  | @propLiteral i m j t w p h ht h1 ih_h1 =>
    have := h.depth_plain (plain_two ht)
    have := ih_h1
    simp only [due, level, Item.weight, weight] at *
    omega
  | @propBinary i m j w p h h1 ih_h1 =>
    have := h.depth_eq (0) rfl
    have := ih_h1
    simp only [due, level, Item.weight, weight] at *
    omega
  | @propComputed i m n o j e p h h1 h2 h3 ih_h1 ih_h3 =>
    have := h.depth_eq (1) rfl
    have := ih_h1
    have := h2.depth_eq (-1) rfl
    have := ih_h3
    simp only [due, level, Item.weight, weight] at *
    omega
  | @propSpread i m j e h h1 ih_h1 =>
    have := h.depth_eq (0) rfl
    have := ih_h1
    simp only [due, level, Item.weight, weight] at *
    omega
  | @propField i m j k e h h1 ih_h1 =>
    have := h.depth_eq (0) rfl
    have := ih_h1
    simp only [due, level, Item.weight, weight] at *
    omega
  | @propMethod i j k f h h1 ih_h1 =>
    have := ih_h1
    simp only [due, level, Item.weight, weight] at *
    omega
  | @propsNone j h  =>
    simp only [due, level, Item.weight, weight] at *
    omega
  | @propsLast i j p h h' ih_h =>
    have := ih_h
    simp only [due, level, Item.weight, weight] at *
    omega
  | @propsMore i m n j p ps h h1 h2 ih_h ih_h2 =>
    have := ih_h
    have := h1.depth_eq (0) rfl
    have := ih_h2
    simp only [due, level, Item.weight, weight] at *
    omega
  | @patIdent i j w h  =>
    have := h.depth_eq (0) rfl
    simp only [due, level, Item.weight, weight] at *
    omega
  | @patArray i m n j ps h h0 h1 h2 ih_h1 =>
    have := h.depth_eq (1) rfl
    have := ih_h1
    have := h2.depth_eq (-1) rfl
    simp only [due, level, Item.weight, weight] at *
    omega
  | @patEmptyArray i m j h h2  =>
    have := h.depth_eq (1) rfl
    have := h2.depth_eq (-1) rfl
    simp only [due, level, Item.weight, weight] at *
    omega
  | @patObject i m n j ps h h1 h2 ih_h1 =>
    have := h.depth_eq (1) rfl
    have := ih_h1
    have := h2.depth_eq (-1) rfl
    simp only [due, level, Item.weight, weight] at *
    omega
  | @param i j p h h' ih_h =>
    have := ih_h
    simp only [due, level, Item.weight, weight] at *
    omega
  | @paramDefault i m n j p e h h1 h2 ih_h ih_h2 =>
    have := ih_h
    have := h1.depth_eq (0) rfl
    have := ih_h2
    simp only [due, level, Item.weight, weight] at *
    omega
  | @patElem i j p h ih_h =>
    have := ih_h
    simp only [due, level, Item.weight, weight] at *
    omega
  | @patHole j h  =>
    simp only [due, level, Item.weight, weight] at *
    omega
  | @patElemsLast i j p h h' ih_h =>
    have := ih_h
    simp only [due, level, Item.weight, weight] at *
    omega
  | @patElemsMore i m n j p ps h h1 h2 ih_h ih_h2 =>
    have := ih_h
    have := h1.depth_eq (0) rfl
    have := ih_h2
    simp only [due, level, Item.weight, weight] at *
    omega
  | @paramsNone i j h  =>
    have := h.depth_eq (-1) rfl
    simp only [due, level, Item.weight, weight] at *
    omega
  | @paramsRest i m n j w h h1 h2  =>
    have := h.depth_eq (0) rfl
    have := h1.depth_eq (0) rfl
    have := h2.depth_eq (-1) rfl
    simp only [due, level, Item.weight, weight] at *
    omega
  | @paramsLast i m j p h h1 ih_h =>
    have := ih_h
    have := h1.depth_eq (-1) rfl
    simp only [due, level, Item.weight, weight] at *
    omega
  | @paramsMore i m n j p ps h h1 h2 ih_h ih_h2 =>
    have := ih_h
    have := h1.depth_eq (0) rfl
    have := ih_h2
    simp only [due, level, Item.weight, weight] at *
    omega
  | @func i m n o q j nk g nm ps b h h1 h2 h3 h4 ih_h3 ih_h4 =>
    have := h.depth
    have := h1.depth
    have := h2.depth_eq (1) rfl
    have := ih_h3
    have := ih_h4
    simp only [due, level, Item.weight, weight] at *
    omega
  | @cls i m n j nk nm ms h h1 h2 h0 ih_h2 =>
    have := h.depth
    have := h1.depth_eq (1) rfl
    have := ih_h2
    simp only [due, level, Item.weight, weight] at *
    omega
  | @clsExtends i m n o q j nk nm e ms h h1 h2 h3 h4 h0 ih_h2 ih_h4 =>
    have := h.depth
    have := h1.depth_eq (0) rfl
    have := ih_h2
    have := h3.depth_eq (1) rfl
    have := ih_h4
    simp only [due, level, Item.weight, weight] at *
    omega
  | @memberWord i m n j s t w x h h1 ht hn h2 ih_h2 =>
    have := h.depth
    have := h1.depth_plain (plain_word ht)
    have := ih_h2
    simp only [due, level, Item.weight, weight] at *
    omega
  | @memberGet i m n o j s t t' w x h h1 ht h2 ht' h3 ih_h3 =>
    have := h.depth
    have := h1.depth_plain (plain_word ht)
    have := h2.depth_plain (plain_word ht')
    have := ih_h3
    simp only [due, level, Item.weight, weight] at *
    omega
  | @memberSet i m n o j s t t' w x h h1 ht h2 ht' h3 ih_h3 =>
    have := h.depth
    have := h1.depth_plain (plain_word ht)
    have := h2.depth_plain (plain_word ht')
    have := ih_h3
    simp only [due, level, Item.weight, weight] at *
    omega
  | @memberNumber i m n j s w x h h1 h2 ih_h2 =>
    have := h.depth
    have := h1.depth_eq (0) rfl
    have := ih_h2
    simp only [due, level, Item.weight, weight] at *
    omega
  | @memberBinary i m n j s w x h h1 h2 ih_h2 =>
    have := h.depth
    have := h1.depth_eq (0) rfl
    have := ih_h2
    simp only [due, level, Item.weight, weight] at *
    omega
  | @memberComputed i m n o q j s e x h h1 h2 h3 h4 ih_h2 ih_h4 =>
    have := h.depth
    have := h1.depth_eq (1) rfl
    have := ih_h2
    have := h3.depth_eq (-1) rfl
    have := ih_h4
    simp only [due, level, Item.weight, weight] at *
    omega
  | @memberMethod i m j s kd k f h h1 h2 ih_h1 =>
    have := ih_h1
    have := h2.depth
    simp only [due, level, Item.weight, weight] at *
    omega
  | @memberField i m n j s kd k e h h1 h2 ih_h1 =>
    have := h.depth_eq (0) rfl
    have := ih_h1
    have := h2.depth
    simp only [due, level, Item.weight, weight] at *
    omega
  | @membersClose i j h  =>
    have := h.depth_eq (-1) rfl
    simp only [due, level, Item.weight, weight] at *
    omega
  | @membersEnd   =>
    simp only [due, level, Item.weight, weight] at *
    omega
  | @membersMore i m j x xs h h1 ih_h ih_h1 =>
    have := ih_h
    have := ih_h1
    simp only [due, level, Item.weight, weight] at *
    omega
  | @block i m j ss h h1 h0 ih_h1 =>
    have := h.depth_eq (1) rfl
    have := ih_h1
    simp only [due, level, Item.weight, weight] at *
    omega
  | @stmtsClose i j h  =>
    have := h.depth_eq (-1) rfl
    simp only [due, level, Item.weight, weight] at *
    omega
  | @stmtsEnd   =>
    simp only [due, level, Item.weight, weight] at *
    omega
  | @stmtsMore i m j s ss h h1 ih_h ih_h1 =>
    have := ih_h
    have := ih_h1
    simp only [due, level, Item.weight, weight] at *
    omega
  | @empty i j h  =>
    have := h.depth_eq (0) rfl
    simp only [due, level, Item.weight, weight] at *
    omega
  | @debugger i j h  =>
    have := h.depth_eq (0) rfl
    simp only [due, level, Item.weight, weight] at *
    omega
  | @blockStmt i j ss h ih_h =>
    have := ih_h
    simp only [due, level, Item.weight, weight] at *
    omega
  | @exprStmt i m j e h1 h2 h3 h4 h h5 ih_h =>
    have := ih_h
    have := h5.depth
    simp only [due, level, Item.weight, weight] at *
    omega
  | @importExpr w a i m j e h1 h h5 ih_h =>
    have := ih_h
    have := h5.depth
    simp only [due, level, Item.weight, weight] at *
    omega
  | @declStmt i m n j t k ds h hk h1 h2 ih_h1 =>
    have := h.depth_plain (plain_decl hk)
    have := ih_h1
    have := h2.depth
    simp only [due, level, Item.weight, weight] at *
    omega
  | @ret i m j h h1  =>
    have := h.depth_eq (0) rfl
    have := h1.depth
    simp only [due, level, Item.weight, weight] at *
    omega
  | @retValue i m n j e h h0 h1 h2 ih_h1 =>
    have := h.depth_eq (0) rfl
    have := ih_h1
    have := h2.depth
    simp only [due, level, Item.weight, weight] at *
    omega
  | @brk i m j h h1  =>
    have := h.depth_eq (0) rfl
    have := h1.depth
    simp only [due, level, Item.weight, weight] at *
    omega
  | @brkLabel i m n j w h h0 h1 h2  =>
    have := h.depth_eq (0) rfl
    have := h1.depth_eq (0) rfl
    have := h2.depth
    simp only [due, level, Item.weight, weight] at *
    omega
  | @cont i m j h h1  =>
    have := h.depth_eq (0) rfl
    have := h1.depth
    simp only [due, level, Item.weight, weight] at *
    omega
  | @contLabel i m n j w h h0 h1 h2  =>
    have := h.depth_eq (0) rfl
    have := h1.depth_eq (0) rfl
    have := h2.depth
    simp only [due, level, Item.weight, weight] at *
    omega
  | @throw i m n j e h h1 h2 ih_h1 =>
    have := h.depth_eq (0) rfl
    have := ih_h1
    have := h2.depth
    simp only [due, level, Item.weight, weight] at *
    omega
  | @ifThen i m n o q j e s h h1 h2 h3 h4 h5 ih_h2 ih_h4 =>
    have := h.depth_eq (0) rfl
    have := h1.depth_eq (1) rfl
    have := ih_h2
    have := h3.depth_eq (-1) rfl
    have := ih_h4
    simp only [due, level, Item.weight, weight] at *
    omega
  | @ifElse i m n o q r u j e s s' h h1 h2 h3 h4 h5 h6 ih_h2 ih_h4 ih_h6 =>
    have := h.depth_eq (0) rfl
    have := h1.depth_eq (1) rfl
    have := ih_h2
    have := h3.depth_eq (-1) rfl
    have := ih_h4
    have := h5.depth_eq (0) rfl
    have := ih_h6
    simp only [due, level, Item.weight, weight] at *
    omega
  | @whileLoop i m n o q j e s h h1 h2 h3 h4 ih_h2 ih_h4 =>
    have := h.depth_eq (0) rfl
    have := h1.depth_eq (1) rfl
    have := ih_h2
    have := h3.depth_eq (-1) rfl
    have := ih_h4
    simp only [due, level, Item.weight, weight] at *
    omega
  | @doLoop i m n o q r j e s h h1 h2 h3 h4 h5 ih_h1 ih_h4 =>
    have := h.depth_eq (0) rfl
    have := ih_h1
    have := h2.depth_eq (0) rfl
    have := h3.depth_eq (1) rfl
    have := ih_h4
    have := h5.depth_eq (-1) rfl
    simp only [due, level, Item.weight, weight] at *
    omega
  | @forLoop i m n o q j t u s h h1 h2 h3 r h4 h5 ih_h3 ih_h4 ih_h5 =>
    have := h.depth_eq (0) rfl
    have := h1.depth_eq (1) rfl
    have := h2.depth_eq (0) rfl
    have := ih_h3
    have := ih_h4
    have := ih_h5
    have := weight_semi
    have := weight_close
    simp only [due, level, Item.weight, weight] at *
    omega
  | @forLoopInit i m n o q r v j x t u s h h1 h2 h2' h3 h4 h5 ih_h2 ih_h3 ih_h4 ih_h5 =>
    have := h.depth_eq (0) rfl
    have := h1.depth_eq (1) rfl
    have := ih_h2
    have := h2'.depth_eq (0) rfl
    have := ih_h3
    have := ih_h4
    have := ih_h5
    have := weight_semi
    have := weight_close
    simp only [due, level, Item.weight, weight] at *
    omega
  | @forInDecl i m n o q r v j k ds e s h h1 h2 h3 h4 h5 h6 ih_h2 ih_h4 ih_h6 =>
    have := h.depth_eq (0) rfl
    have := h1.depth_eq (1) rfl
    have := ih_h2
    have := h3.depth_eq (0) rfl
    have := ih_h4
    have := h5.depth_eq (-1) rfl
    have := ih_h6
    simp only [due, level, Item.weight, weight] at *
    omega
  | @forInExpr i m n o q j a b s h h1 h2 h3 h4 ih_h2 ih_h4 =>
    have := h.depth_eq (0) rfl
    have := h1.depth_eq (1) rfl
    have := ih_h2
    have := h3.depth_eq (-1) rfl
    have := ih_h4
    simp only [due, level, Item.weight, weight] at *
    omega
  | @forOf i m n o q r v j x e s h h1 h2 h3 h4 h5 h6 ih_h2 ih_h4 ih_h6 =>
    have := h.depth_eq (0) rfl
    have := h1.depth_eq (1) rfl
    have := ih_h2
    have := h3.depth_eq (0) rfl
    have := ih_h4
    have := h5.depth_eq (-1) rfl
    have := ih_h6
    simp only [due, level, Item.weight, weight] at *
    omega
  | @forInitDecl i m j t k ds h hk h1 ih_h1 =>
    have := h.depth_plain (plain_decl hk)
    have := ih_h1
    simp only [due, level, Item.weight, weight] at *
    omega
  | @forInitExpr i j e h h1 ih_h =>
    have := ih_h
    simp only [due, level, Item.weight, weight] at *
    omega
  | @optExprNone i j t h  =>
    have := h.depth
    simp only [due, level, Item.weight, weight] at *
    omega
  | @optExprSome i m j t e h h1 ih_h =>
    have := ih_h
    have := h1.depth
    simp only [due, level, Item.weight, weight] at *
    omega
  | @tryCatch i m n j b c h h1 h2 h3 ih_h1 ih_h2 =>
    have := h.depth_eq (0) rfl
    have := ih_h1
    have := ih_h2
    simp only [due, level, Item.weight, weight] at *
    omega
  | @tryCatchFinally i m n o q j b c f h h1 h2 h3 h4 ih_h1 ih_h2 ih_h4 =>
    have := h.depth_eq (0) rfl
    have := ih_h1
    have := ih_h2
    have := h3.depth_eq (0) rfl
    have := ih_h4
    simp only [due, level, Item.weight, weight] at *
    omega
  | @tryFinally i m n o j b f h h1 h3 h4 ih_h1 ih_h4 =>
    have := h.depth_eq (0) rfl
    have := ih_h1
    have := h3.depth_eq (0) rfl
    have := ih_h4
    simp only [due, level, Item.weight, weight] at *
    omega
  | @«catch» i m n o q j p b h h1 h2 h3 h4 ih_h2 ih_h4 =>
    have := h.depth_eq (0) rfl
    have := h1.depth_eq (1) rfl
    have := ih_h2
    have := h3.depth_eq (-1) rfl
    have := ih_h4
    simp only [due, level, Item.weight, weight] at *
    omega
  | @switch i m n o q r j e cs h h1 h2 h3 h4 h5 ih_h2 ih_h5 =>
    have := h.depth_eq (0) rfl
    have := h1.depth_eq (1) rfl
    have := ih_h2
    have := h3.depth_eq (-1) rfl
    have := h4.depth_eq (1) rfl
    have := ih_h5
    simp only [due, level, Item.weight, weight] at *
    omega
  | @casesClose i j h  =>
    have := h.depth_eq (-1) rfl
    simp only [due, level, Item.weight, weight] at *
    omega
  | @casesMore i m j c cs h h1 ih_h ih_h1 =>
    have := ih_h
    have := ih_h1
    simp only [due, level, Item.weight, weight] at *
    omega
  | @case i m n o j e ss h h1 h2 h3 ih_h1 ih_h3 =>
    have := h.depth_eq (0) rfl
    have := ih_h1
    have := h2.depth_eq (0) rfl
    have := ih_h3
    simp only [due, level, Item.weight, weight] at *
    omega
  | @default i m n j ss h h1 h2 ih_h2 =>
    have := h.depth_eq (0) rfl
    have := h1.depth_eq (0) rfl
    have := ih_h2
    simp only [due, level, Item.weight, weight] at *
    omega
  | @caseBodyEnd j h  =>
    simp only [due, level, Item.weight, weight] at *
    omega
  | @caseBodyMore i m j s ss h h1 ih_h ih_h1 =>
    have := ih_h
    have := ih_h1
    simp only [due, level, Item.weight, weight] at *
    omega
  | @labeled i m n j w s h h1 h2 ih_h2 =>
    have := h.depth_eq (0) rfl
    have := h1.depth_eq (0) rfl
    have := ih_h2
    simp only [due, level, Item.weight, weight] at *
    omega
  | @functionStmt i m j f h h1 ih_h1 =>
    have := h.depth_eq (0) rfl
    have := ih_h1
    simp only [due, level, Item.weight, weight] at *
    omega
  | @classStmt i m j c h h1 ih_h1 =>
    have := h.depth_eq (0) rfl
    have := ih_h1
    simp only [due, level, Item.weight, weight] at *
    omega
  | @importBare i m j w h h1 hw  =>
    have := h.depth_eq (0) rfl
    have := h1.depth_eq (0) rfl
    simp only [due, level, Item.weight, weight] at *
    omega
  | @importFrom i m n o j w ss h h1 h2 h3 hw  =>
    have := h.depth_eq (0) rfl
    have := h1.depth
    have := h2.depth_eq (0) rfl
    have := h3.depth_eq (0) rfl
    simp only [due, level, Item.weight, weight] at *
    omega
  | @declarator i j p h h' ih_h =>
    have := ih_h
    simp only [due, level, Item.weight, weight] at *
    omega
  | @declaratorInit i m n j p e h h1 h2 ih_h ih_h2 =>
    have := ih_h
    have := h1.depth_eq (0) rfl
    have := ih_h2
    simp only [due, level, Item.weight, weight] at *
    omega
  | @declaratorsLast i j d h h' ih_h =>
    have := ih_h
    simp only [due, level, Item.weight, weight] at *
    omega
  | @declaratorsMore i m n j d ds h h1 h2 ih_h ih_h2 =>
    have := ih_h
    have := h1.depth_eq (0) rfl
    have := ih_h2
    simp only [due, level, Item.weight, weight] at *
    omega
  | @programEnd   =>
    simp only [due, level, Item.weight, weight] at *
    omega
  | @programMore i m j s ss h h1 ih_h ih_h1 =>
    have := ih_h
    have := ih_h1
    simp only [due, level, Item.weight, weight] at *
    omega

theorem Spec.G.suffix {i j : List Item} {x : Phrase} (h : G i x j) : j <:+ i := by
  induction h with
  | @whole i j k e h h' ih_h =>
    exact ih_h
  | @ident i j k w hk h  =>
    exact h.suffix
  | @this i j k hk h  =>
    exact h.suffix
  | @lit i j k t w v hk h hv  =>
    exact h.suffix
  | @regex j k w a hk  =>
    exact List.suffix_cons _ _
  | @array i m n j k es hk h h0 h1 h2 ih_h1 =>
    exact ((h2.suffix).trans (ih_h1)).trans (h.suffix)
  | @emptyArray i m j k hk h h2  =>
    exact (h2.suffix).trans (h.suffix)
  | @object i m n j k ps hk h h1 h2 ih_h1 =>
    exact ((h2.suffix).trans (ih_h1)).trans (h.suffix)
  | @function i m j k f hk h h1 ih_h1 =>
    exact (ih_h1).trans (h.suffix)
  | @«class» i m j k c hk h h1 ih_h1 =>
    exact (ih_h1).trans (h.suffix)
  | @template i j k es qs hk h ih_h =>
    exact ih_h
  | @paren i m n j k e hk h h1 h2 ih_h1 =>
    exact ((h2.suffix).trans (ih_h1)).trans (h.suffix)
  | @newTarget i m j k hk h h1  =>
    exact (h1.suffix).trans (h.suffix)
  | @member i m j k e w hk h h1 ih_h =>
    exact (h1.suffix).trans (ih_h)
  | @index i m n o j k e p hk h h1 h2 h3 ih_h ih_h2 =>
    exact (((h3.suffix).trans (ih_h2)).trans (h1.suffix)).trans (ih_h)
  | @call i m n o j k e es hk h h1 h2 h3 ih_h ih_h2 =>
    exact (((h3.suffix).trans (ih_h2)).trans (h1.suffix)).trans (ih_h)
  | @tagged i m j k e es qs hk h h1 ih_h ih_h1 =>
    exact (ih_h1).trans (ih_h)
  | @«postfix» i j k e t w a op hk h he hop ha ih_h =>
    exact (List.suffix_cons _ _).trans ih_h
  | @arrow i m n j k e ps b hk h hp h1 hb h2 ih_h ih_h2 =>
    exact ((ih_h2).trans (h1.suffix)).trans (ih_h)
  | @arrowBlock i m n j k e ps b hk h hp h1 h2 ih_h ih_h2 =>
    exact ((ih_h2).trans (h1.suffix)).trans (ih_h)
  | @arrow0 i m n o j k b hk h h0 h1 hb h2 ih_h2 =>
    exact (((ih_h2).trans (h1.suffix)).trans (h0.suffix)).trans (h.suffix)
  | @arrowBlock0 i m n o j k b hk h h0 h1 h2 ih_h2 =>
    exact (((ih_h2).trans (h1.suffix)).trans (h0.suffix)).trans (h.suffix)
  | @«prefix» i m j k t op e hk h hop h1 ih_h1 =>
    exact (ih_h1).trans (h.suffix)
  | @new i m j k e hk h hm h1 ih_h1 =>
    exact (ih_h1).trans (h.suffix)
  | @binary i m n j k t op p a b hop hk h h1 h2 ih_h ih_h2 =>
    exact ((ih_h2).trans (h1.suffix)).trans (ih_h)
  | @cond i m n o q j k a b c hk h h1 h2 h3 h4 ih_h ih_h2 ih_h4 =>
    exact ((((ih_h4).trans (h3.suffix)).trans (ih_h2)).trans (h1.suffix)).trans (ih_h)
  | @assign i m n j k t op a b hk h ha h1 hop h2 ih_h ih_h2 =>
    exact ((ih_h2).trans (h1.suffix)).trans (ih_h)
  | @comma i m n j a es h h1 h2 ih_h ih_h2 =>
    exact ((ih_h2).trans (h1.suffix)).trans (ih_h)
  | @commaLast i j e h h' ih_h =>
    exact ih_h
  | @commaMore i m n j e es h h1 h2 ih_h ih_h2 =>
    exact ((ih_h2).trans (h1.suffix)).trans (ih_h)
  | @arg i j e h ih_h =>
    exact ih_h
  | @argSpread i m j e h h1 ih_h1 =>
    exact (ih_h1).trans (h.suffix)
  | @argsNone j h  =>
    exact List.suffix_refl _
  | @argsLast i j e h h' ih_h =>
    exact ih_h
  | @argsMore i m n j e es h h1 h2 ih_h ih_h2 =>
    exact ((ih_h2).trans (h1.suffix)).trans (ih_h)
  | @elem i j e h ih_h =>
    exact ih_h
  | @elemSpread i m j e h h1 ih_h1 =>
    exact (ih_h1).trans (h.suffix)
  | @elemHole j h  =>
    exact List.suffix_refl _
  | @elemsLast i j e h h' ih_h =>
    exact ih_h
  | @elemsMore i m n j e es h h1 h2 ih_h ih_h2 =>
    exact ((ih_h2).trans (h1.suffix)).trans (ih_h)
  | @templateClosed i j w h  =>
    exact h.suffix
  | @templateOpen i m n j w e es qs h h1 h2 ih_h1 ih_h2 =>
    exact ((ih_h2).trans (ih_h1)).trans (h.suffix)
  | @templateEnd j w  =>
    exact List.suffix_cons _ _
  | @templateMore m n j w e es qs h1 h2 ih_h1 ih_h2 =>
    exact (ih_h2.trans ih_h1).trans (List.suffix_cons _ _)
  | @shorthand i j t w h ht h1 h2  =>
    exact h.suffix
  | @propWord i m j t w p h ht h1 ih_h1 =>
    exact (ih_h1).trans (h.suffix)
  | @propLiteral i m j t w p h ht h1 ih_h1 =>
    exact (ih_h1).trans (h.suffix)
  | @propBinary i m j w p h h1 ih_h1 =>
    exact (ih_h1).trans (h.suffix)
  | @propComputed i m n o j e p h h1 h2 h3 ih_h1 ih_h3 =>
    exact (((ih_h3).trans (h2.suffix)).trans (ih_h1)).trans (h.suffix)
  | @propSpread i m j e h h1 ih_h1 =>
    exact (ih_h1).trans (h.suffix)
  | @propField i m j k e h h1 ih_h1 =>
    exact (ih_h1).trans (h.suffix)
  | @propMethod i j k f h h1 ih_h1 =>
    exact ih_h1
  | @propsNone j h  =>
    exact List.suffix_refl _
  | @propsLast i j p h h' ih_h =>
    exact ih_h
  | @propsMore i m n j p ps h h1 h2 ih_h ih_h2 =>
    exact ((ih_h2).trans (h1.suffix)).trans (ih_h)
  | @patIdent i j w h  =>
    exact h.suffix
  | @patArray i m n j ps h h0 h1 h2 ih_h1 =>
    exact ((h2.suffix).trans (ih_h1)).trans (h.suffix)
  | @patEmptyArray i m j h h2  =>
    exact (h2.suffix).trans (h.suffix)
  | @patObject i m n j ps h h1 h2 ih_h1 =>
    exact ((h2.suffix).trans (ih_h1)).trans (h.suffix)
  | @param i j p h h' ih_h =>
    exact ih_h
  | @paramDefault i m n j p e h h1 h2 ih_h ih_h2 =>
    exact ((ih_h2).trans (h1.suffix)).trans (ih_h)
  | @patElem i j p h ih_h =>
    exact ih_h
  | @patHole j h  =>
    exact List.suffix_refl _
  | @patElemsLast i j p h h' ih_h =>
    exact ih_h
  | @patElemsMore i m n j p ps h h1 h2 ih_h ih_h2 =>
    exact ((ih_h2).trans (h1.suffix)).trans (ih_h)
  | @paramsNone i j h  =>
    exact h.suffix
  | @paramsRest i m n j w h h1 h2  =>
    exact ((h2.suffix).trans (h1.suffix)).trans (h.suffix)
  | @paramsLast i m j p h h1 ih_h =>
    exact (h1.suffix).trans (ih_h)
  | @paramsMore i m n j p ps h h1 h2 ih_h ih_h2 =>
    exact ((ih_h2).trans (h1.suffix)).trans (ih_h)
  | @func i m n o q j nk g nm ps b h h1 h2 h3 h4 ih_h3 ih_h4 =>
    exact ((((ih_h4).trans (ih_h3)).trans (h2.suffix)).trans (h1.suffix)).trans (h.suffix)
  | @cls i m n j nk nm ms h h1 h2 h0 ih_h2 =>
    exact ((ih_h2).trans (h1.suffix)).trans (h.suffix)
  | @clsExtends i m n o q j nk nm e ms h h1 h2 h3 h4 h0 ih_h2 ih_h4 =>
    exact ((((ih_h4).trans (h3.suffix)).trans (ih_h2)).trans (h1.suffix)).trans (h.suffix)
  | @memberWord i m n j s t w x h h1 ht hn h2 ih_h2 =>
    exact ((ih_h2).trans (h1.suffix)).trans (h.suffix)
  | @memberGet i m n o j s t t' w x h h1 ht h2 ht' h3 ih_h3 =>
    exact (((ih_h3).trans (h2.suffix)).trans (h1.suffix)).trans (h.suffix)
  | @memberSet i m n o j s t t' w x h h1 ht h2 ht' h3 ih_h3 =>
    exact (((ih_h3).trans (h2.suffix)).trans (h1.suffix)).trans (h.suffix)
  | @memberNumber i m n j s w x h h1 h2 ih_h2 =>
    exact ((ih_h2).trans (h1.suffix)).trans (h.suffix)
  | @memberBinary i m n j s w x h h1 h2 ih_h2 =>
    exact ((ih_h2).trans (h1.suffix)).trans (h.suffix)
  | @memberComputed i m n o q j s e x h h1 h2 h3 h4 ih_h2 ih_h4 =>
    exact ((((ih_h4).trans (h3.suffix)).trans (ih_h2)).trans (h1.suffix)).trans (h.suffix)
  | @memberMethod i m j s kd k f h h1 h2 ih_h1 =>
    exact (h2.suffix).trans (ih_h1)
  | @memberField i m n j s kd k e h h1 h2 ih_h1 =>
    exact ((h2.suffix).trans (ih_h1)).trans (h.suffix)
  | @membersClose i j h  =>
    exact h.suffix
  | @membersEnd   =>
    exact List.suffix_refl _
  | @membersMore i m j x xs h h1 ih_h ih_h1 =>
    exact (ih_h1).trans (ih_h)
  | @block i m j ss h h1 h0 ih_h1 =>
    exact (ih_h1).trans (h.suffix)
  | @stmtsClose i j h  =>
    exact h.suffix
  | @stmtsEnd   =>
    exact List.suffix_refl _
  | @stmtsMore i m j s ss h h1 ih_h ih_h1 =>
    exact (ih_h1).trans (ih_h)
  | @empty i j h  =>
    exact h.suffix
  | @debugger i j h  =>
    exact h.suffix
  | @blockStmt i j ss h ih_h =>
    exact ih_h
  | @exprStmt i m j e h1 h2 h3 h4 h h5 ih_h =>
    exact (h5.suffix).trans (ih_h)
  | @importExpr w a i m j e h1 h h5 ih_h =>
    exact importExpr_suffix (h5.suffix.trans ih_h) h5.suffix h
  | @declStmt i m n j t k ds h hk h1 h2 ih_h1 =>
    exact ((h2.suffix).trans (ih_h1)).trans (h.suffix)
  | @ret i m j h h1  =>
    exact (h1.suffix).trans (h.suffix)
  | @retValue i m n j e h h0 h1 h2 ih_h1 =>
    exact ((h2.suffix).trans (ih_h1)).trans (h.suffix)
  | @brk i m j h h1  =>
    exact (h1.suffix).trans (h.suffix)
  | @brkLabel i m n j w h h0 h1 h2  =>
    exact ((h2.suffix).trans (h1.suffix)).trans (h.suffix)
  | @cont i m j h h1  =>
    exact (h1.suffix).trans (h.suffix)
  | @contLabel i m n j w h h0 h1 h2  =>
    exact ((h2.suffix).trans (h1.suffix)).trans (h.suffix)
  | @throw i m n j e h h1 h2 ih_h1 =>
    exact ((h2.suffix).trans (ih_h1)).trans (h.suffix)
  | @ifThen i m n o q j e s h h1 h2 h3 h4 h5 ih_h2 ih_h4 =>
    exact ((((ih_h4).trans (h3.suffix)).trans (ih_h2)).trans (h1.suffix)).trans (h.suffix)
  | @ifElse i m n o q r u j e s s' h h1 h2 h3 h4 h5 h6 ih_h2 ih_h4 ih_h6 =>
    exact ((((((ih_h6).trans (h5.suffix)).trans (ih_h4)).trans (h3.suffix)).trans (ih_h2)).trans (h1.suffix)).trans (h.suffix)
  | @whileLoop i m n o q j e s h h1 h2 h3 h4 ih_h2 ih_h4 =>
    exact ((((ih_h4).trans (h3.suffix)).trans (ih_h2)).trans (h1.suffix)).trans (h.suffix)
  | @doLoop i m n o q r j e s h h1 h2 h3 h4 h5 ih_h1 ih_h4 =>
    exact (((((h5.suffix).trans (ih_h4)).trans (h3.suffix)).trans (h2.suffix)).trans (ih_h1)).trans (h.suffix)
  | @forLoop i m n o q j t u s h h1 h2 h3 r h4 h5 ih_h3 ih_h4 ih_h5 =>
    exact (((((ih_h5).trans (ih_h4)).trans (ih_h3)).trans (h2.suffix)).trans (h1.suffix)).trans (h.suffix)
  | @forLoopInit i m n o q r v j x t u s h h1 h2 h2' h3 h4 h5 ih_h2 ih_h3 ih_h4 ih_h5 =>
    exact ((((((ih_h5).trans (ih_h4)).trans (ih_h3)).trans (h2'.suffix)).trans (ih_h2)).trans (h1.suffix)).trans (h.suffix)
  | @forInDecl i m n o q r v j k ds e s h h1 h2 h3 h4 h5 h6 ih_h2 ih_h4 ih_h6 =>
    exact ((((((ih_h6).trans (h5.suffix)).trans (ih_h4)).trans (h3.suffix)).trans (ih_h2)).trans (h1.suffix)).trans (h.suffix)
  | @forInExpr i m n o q j a b s h h1 h2 h3 h4 ih_h2 ih_h4 =>
    exact ((((ih_h4).trans (h3.suffix)).trans (ih_h2)).trans (h1.suffix)).trans (h.suffix)
  | @forOf i m n o q r v j x e s h h1 h2 h3 h4 h5 h6 ih_h2 ih_h4 ih_h6 =>
    exact ((((((ih_h6).trans (h5.suffix)).trans (ih_h4)).trans (h3.suffix)).trans (ih_h2)).trans (h1.suffix)).trans (h.suffix)
  | @forInitDecl i m j t k ds h hk h1 ih_h1 =>
    exact (ih_h1).trans (h.suffix)
  | @forInitExpr i j e h h1 ih_h =>
    exact ih_h
  | @optExprNone i j t h  =>
    exact h.suffix
  | @optExprSome i m j t e h h1 ih_h =>
    exact (h1.suffix).trans (ih_h)
  | @tryCatch i m n j b c h h1 h2 h3 ih_h1 ih_h2 =>
    exact ((ih_h2).trans (ih_h1)).trans (h.suffix)
  | @tryCatchFinally i m n o q j b c f h h1 h2 h3 h4 ih_h1 ih_h2 ih_h4 =>
    exact ((((ih_h4).trans (h3.suffix)).trans (ih_h2)).trans (ih_h1)).trans (h.suffix)
  | @tryFinally i m n o j b f h h1 h3 h4 ih_h1 ih_h4 =>
    exact (((ih_h4).trans (h3.suffix)).trans (ih_h1)).trans (h.suffix)
  | @«catch» i m n o q j p b h h1 h2 h3 h4 ih_h2 ih_h4 =>
    exact ((((ih_h4).trans (h3.suffix)).trans (ih_h2)).trans (h1.suffix)).trans (h.suffix)
  | @switch i m n o q r j e cs h h1 h2 h3 h4 h5 ih_h2 ih_h5 =>
    exact (((((ih_h5).trans (h4.suffix)).trans (h3.suffix)).trans (ih_h2)).trans (h1.suffix)).trans (h.suffix)
  | @casesClose i j h  =>
    exact h.suffix
  | @casesMore i m j c cs h h1 ih_h ih_h1 =>
    exact (ih_h1).trans (ih_h)
  | @case i m n o j e ss h h1 h2 h3 ih_h1 ih_h3 =>
    exact (((ih_h3).trans (h2.suffix)).trans (ih_h1)).trans (h.suffix)
  | @default i m n j ss h h1 h2 ih_h2 =>
    exact ((ih_h2).trans (h1.suffix)).trans (h.suffix)
  | @caseBodyEnd j h  =>
    exact List.suffix_refl _
  | @caseBodyMore i m j s ss h h1 ih_h ih_h1 =>
    exact (ih_h1).trans (ih_h)
  | @labeled i m n j w s h h1 h2 ih_h2 =>
    exact ((ih_h2).trans (h1.suffix)).trans (h.suffix)
  | @functionStmt i m j f h h1 ih_h1 =>
    exact (ih_h1).trans (h.suffix)
  | @classStmt i m j c h h1 ih_h1 =>
    exact (ih_h1).trans (h.suffix)
  | @importBare i m j w h h1 hw  =>
    exact (h1.suffix).trans (h.suffix)
  | @importFrom i m n o j w ss h h1 h2 h3 hw  =>
    exact (((h3.suffix).trans (h2.suffix)).trans (h1.suffix)).trans (h.suffix)
  | @declarator i j p h h' ih_h =>
    exact ih_h
  | @declaratorInit i m n j p e h h1 h2 ih_h ih_h2 =>
    exact ((ih_h2).trans (h1.suffix)).trans (ih_h)
  | @declaratorsLast i j d h h' ih_h =>
    exact ih_h
  | @declaratorsMore i m n j d ds h h1 h2 ih_h ih_h2 =>
    exact ((ih_h2).trans (h1.suffix)).trans (ih_h)
  | @programEnd   =>
    exact List.suffix_refl _
  | @programMore i m j s ss h h1 ih_h ih_h1 =>
    exact (ih_h1).trans (ih_h)

theorem Spec.G.some {i j : List Item} {x : Phrase} (h : G i x j) : mayEnd x = false → i ≠ [] := by
  induction h with
  | @whole i j k e h h' ih_h =>
    intro hx
    exact suffix_some (List.suffix_refl _) (ih_h rfl)
  | @ident i j k w hk h  =>
    intro hx
    exact suffix_some (List.suffix_refl _) h.some
  | @this i j k hk h  =>
    intro hx
    exact suffix_some (List.suffix_refl _) h.some
  | @lit i j k t w v hk h hv  =>
    intro hx
    exact suffix_some (List.suffix_refl _) h.some
  | @regex j k w a hk  =>
    intro hx
    simp
  | @array i m n j k es hk h h0 h1 h2 ih_h1 =>
    intro hx
    exact suffix_some (List.suffix_refl _) h.some
  | @emptyArray i m j k hk h h2  =>
    intro hx
    exact suffix_some (List.suffix_refl _) h.some
  | @object i m n j k ps hk h h1 h2 ih_h1 =>
    intro hx
    exact suffix_some (List.suffix_refl _) h.some
  | @function i m j k f hk h h1 ih_h1 =>
    intro hx
    exact suffix_some (List.suffix_refl _) h.some
  | @«class» i m j k c hk h h1 ih_h1 =>
    intro hx
    exact suffix_some (List.suffix_refl _) h.some
  | @template i j k es qs hk h ih_h =>
    intro hx
    exact suffix_some (List.suffix_refl _) (ih_h rfl)
  | @paren i m n j k e hk h h1 h2 ih_h1 =>
    intro hx
    exact suffix_some (List.suffix_refl _) h.some
  | @newTarget i m j k hk h h1  =>
    intro hx
    exact suffix_some (List.suffix_refl _) h.some
  | @member i m j k e w hk h h1 ih_h =>
    intro hx
    exact suffix_some (List.suffix_refl _) (ih_h rfl)
  | @index i m n o j k e p hk h h1 h2 h3 ih_h ih_h2 =>
    intro hx
    exact suffix_some (List.suffix_refl _) (ih_h rfl)
  | @call i m n o j k e es hk h h1 h2 h3 ih_h ih_h2 =>
    intro hx
    exact suffix_some (List.suffix_refl _) (ih_h rfl)
  | @tagged i m j k e es qs hk h h1 ih_h ih_h1 =>
    intro hx
    exact suffix_some (List.suffix_refl _) (ih_h rfl)
  | @«postfix» i j k e t w a op hk h he hop ha ih_h =>
    intro hx
    exact suffix_some (List.suffix_refl _) (ih_h rfl)
  | @arrow i m n j k e ps b hk h hp h1 hb h2 ih_h ih_h2 =>
    intro hx
    exact suffix_some (List.suffix_refl _) (ih_h rfl)
  | @arrowBlock i m n j k e ps b hk h hp h1 h2 ih_h ih_h2 =>
    intro hx
    exact suffix_some (List.suffix_refl _) (ih_h rfl)
  | @arrow0 i m n o j k b hk h h0 h1 hb h2 ih_h2 =>
    intro hx
    exact suffix_some (List.suffix_refl _) h.some
  | @arrowBlock0 i m n o j k b hk h h0 h1 h2 ih_h2 =>
    intro hx
    exact suffix_some (List.suffix_refl _) h.some
  | @«prefix» i m j k t op e hk h hop h1 ih_h1 =>
    intro hx
    exact suffix_some (List.suffix_refl _) h.some
  | @new i m j k e hk h hm h1 ih_h1 =>
    intro hx
    exact suffix_some (List.suffix_refl _) h.some
  | @binary i m n j k t op p a b hop hk h h1 h2 ih_h ih_h2 =>
    intro hx
    exact suffix_some (List.suffix_refl _) (ih_h rfl)
  | @cond i m n o q j k a b c hk h h1 h2 h3 h4 ih_h ih_h2 ih_h4 =>
    intro hx
    exact suffix_some (List.suffix_refl _) (ih_h rfl)
  | @assign i m n j k t op a b hk h ha h1 hop h2 ih_h ih_h2 =>
    intro hx
    exact suffix_some (List.suffix_refl _) (ih_h rfl)
  | @comma i m n j a es h h1 h2 ih_h ih_h2 =>
    intro hx
    exact suffix_some (List.suffix_refl _) (ih_h rfl)
  | @commaLast i j e h h' ih_h =>
    intro hx
    exact suffix_some (List.suffix_refl _) (ih_h rfl)
  | @commaMore i m n j e es h h1 h2 ih_h ih_h2 =>
    intro hx
    exact suffix_some (List.suffix_refl _) (ih_h rfl)
  | @arg i j e h ih_h =>
    intro hx
    exact suffix_some (List.suffix_refl _) (ih_h rfl)
  | @argSpread i m j e h h1 ih_h1 =>
    intro hx
    exact suffix_some (List.suffix_refl _) h.some
  | @argsNone j h  =>
    intro hx
    exact look_any0 h
  | @argsLast i j e h h' ih_h =>
    intro hx
    exact suffix_some (List.suffix_refl _) (ih_h rfl)
  | @argsMore i m n j e es h h1 h2 ih_h ih_h2 =>
    intro hx
    exact suffix_some (List.suffix_refl _) (ih_h rfl)
  | @elem i j e h ih_h =>
    intro hx
    exact suffix_some (List.suffix_refl _) (ih_h rfl)
  | @elemSpread i m j e h h1 ih_h1 =>
    intro hx
    exact suffix_some (List.suffix_refl _) h.some
  | @elemHole j h  =>
    intro hx
    exact look_any1 h
  | @elemsLast i j e h h' ih_h =>
    intro hx
    exact suffix_some (List.suffix_refl _) (ih_h rfl)
  | @elemsMore i m n j e es h h1 h2 ih_h ih_h2 =>
    intro hx
    exact suffix_some (List.suffix_refl _) (ih_h rfl)
  | @templateClosed i j w h  =>
    intro hx
    exact suffix_some (List.suffix_refl _) h.some
  | @templateOpen i m n j w e es qs h h1 h2 ih_h1 ih_h2 =>
    intro hx
    exact suffix_some (List.suffix_refl _) h.some
  | @templateEnd j w  =>
    intro hx
    simp
  | @templateMore m n j w e es qs h1 h2 ih_h1 ih_h2 =>
    intro hx
    simp
  | @shorthand i j t w h ht h1 h2  =>
    intro hx
    exact suffix_some (List.suffix_refl _) h.some
  | @propWord i m j t w p h ht h1 ih_h1 =>
    intro hx
    exact suffix_some (List.suffix_refl _) h.some
  | @propLiteral i m j t w p h ht h1 ih_h1 =>
    intro hx
    exact suffix_some (List.suffix_refl _) h.some
  | @propBinary i m j w p h h1 ih_h1 =>
    intro hx
    exact suffix_some (List.suffix_refl _) h.some
  | @propComputed i m n o j e p h h1 h2 h3 ih_h1 ih_h3 =>
    intro hx
    exact suffix_some (List.suffix_refl _) h.some
  | @propSpread i m j e h h1 ih_h1 =>
    intro hx
    exact suffix_some (List.suffix_refl _) h.some
  | @propField i m j k e h h1 ih_h1 =>
    intro hx
    exact suffix_some (List.suffix_refl _) h.some
  | @propMethod i j k f h h1 ih_h1 =>
    intro hx
    exact suffix_some (List.suffix_refl _) (ih_h1 rfl)
  | @propsNone j h  =>
    intro hx
    exact look_any0 h
  | @propsLast i j p h h' ih_h =>
    intro hx
    exact suffix_some (List.suffix_refl _) (ih_h rfl)
  | @propsMore i m n j p ps h h1 h2 ih_h ih_h2 =>
    intro hx
    exact suffix_some (List.suffix_refl _) (ih_h rfl)
  | @patIdent i j w h  =>
    intro hx
    exact suffix_some (List.suffix_refl _) h.some
  | @patArray i m n j ps h h0 h1 h2 ih_h1 =>
    intro hx
    exact suffix_some (List.suffix_refl _) h.some
  | @patEmptyArray i m j h h2  =>
    intro hx
    exact suffix_some (List.suffix_refl _) h.some
  | @patObject i m n j ps h h1 h2 ih_h1 =>
    intro hx
    exact suffix_some (List.suffix_refl _) h.some
  | @param i j p h h' ih_h =>
    intro hx
    exact suffix_some (List.suffix_refl _) (ih_h rfl)
  | @paramDefault i m n j p e h h1 h2 ih_h ih_h2 =>
    intro hx
    exact suffix_some (List.suffix_refl _) (ih_h rfl)
  | @patElem i j p h ih_h =>
    intro hx
    exact suffix_some (List.suffix_refl _) (ih_h rfl)
  | @patHole j h  =>
    intro hx
    exact look_any1 h
  | @patElemsLast i j p h h' ih_h =>
    intro hx
    exact suffix_some (List.suffix_refl _) (ih_h rfl)
  | @patElemsMore i m n j p ps h h1 h2 ih_h ih_h2 =>
    intro hx
    exact suffix_some (List.suffix_refl _) (ih_h rfl)
  | @paramsNone i j h  =>
    intro hx
    exact suffix_some (List.suffix_refl _) h.some
  | @paramsRest i m n j w h h1 h2  =>
    intro hx
    exact suffix_some (List.suffix_refl _) h.some
  | @paramsLast i m j p h h1 ih_h =>
    intro hx
    exact suffix_some (List.suffix_refl _) (ih_h rfl)
  | @paramsMore i m n j p ps h h1 h2 ih_h ih_h2 =>
    intro hx
    exact suffix_some (List.suffix_refl _) (ih_h rfl)
  | @func i m n o q j nk g nm ps b h h1 h2 h3 h4 ih_h3 ih_h4 =>
    intro hx
    exact suffix_some ((h1.suffix).trans (h.suffix)) h2.some
  | @cls i m n j nk nm ms h h1 h2 h0 ih_h2 =>
    intro hx
    exact suffix_some (h.suffix) h1.some
  | @clsExtends i m n o q j nk nm e ms h h1 h2 h3 h4 h0 ih_h2 ih_h4 =>
    intro hx
    exact suffix_some (h.suffix) h1.some
  | @memberWord i m n j s t w x h h1 ht hn h2 ih_h2 =>
    intro hx
    exact suffix_some (h.suffix) h1.some
  | @memberGet i m n o j s t t' w x h h1 ht h2 ht' h3 ih_h3 =>
    intro hx
    exact suffix_some (h.suffix) h1.some
  | @memberSet i m n o j s t t' w x h h1 ht h2 ht' h3 ih_h3 =>
    intro hx
    exact suffix_some (h.suffix) h1.some
  | @memberNumber i m n j s w x h h1 h2 ih_h2 =>
    intro hx
    exact suffix_some (h.suffix) h1.some
  | @memberBinary i m n j s w x h h1 h2 ih_h2 =>
    intro hx
    exact suffix_some (h.suffix) h1.some
  | @memberComputed i m n o q j s e x h h1 h2 h3 h4 ih_h2 ih_h4 =>
    intro hx
    exact suffix_some (h.suffix) h1.some
  | @memberMethod i m j s kd k f h h1 h2 ih_h1 =>
    intro hx
    exact suffix_some (List.suffix_refl _) (ih_h1 rfl)
  | @memberField i m n j s kd k e h h1 h2 ih_h1 =>
    intro hx
    exact suffix_some (List.suffix_refl _) h.some
  | @membersClose i j h  =>
    intro hx
    cases hx
  | @membersEnd   =>
    intro hx
    cases hx
  | @membersMore i m j x xs h h1 ih_h ih_h1 =>
    intro hx
    cases hx
  | @block i m j ss h h1 h0 ih_h1 =>
    intro hx
    exact suffix_some (List.suffix_refl _) h.some
  | @stmtsClose i j h  =>
    intro hx
    cases hx
  | @stmtsEnd   =>
    intro hx
    cases hx
  | @stmtsMore i m j s ss h h1 ih_h ih_h1 =>
    intro hx
    cases hx
  | @empty i j h  =>
    intro hx
    exact suffix_some (List.suffix_refl _) h.some
  | @debugger i j h  =>
    intro hx
    exact suffix_some (List.suffix_refl _) h.some
  | @blockStmt i j ss h ih_h =>
    intro hx
    exact suffix_some (List.suffix_refl _) (ih_h rfl)
  | @exprStmt i m j e h1 h2 h3 h4 h h5 ih_h =>
    intro hx
    exact suffix_some (List.suffix_refl _) (ih_h rfl)
  | @importExpr w a i m j e h1 h h5 ih_h =>
    intro hx
    simp
  | @declStmt i m n j t k ds h hk h1 h2 ih_h1 =>
    intro hx
    exact suffix_some (List.suffix_refl _) h.some
  | @ret i m j h h1  =>
    intro hx
    exact suffix_some (List.suffix_refl _) h.some
  | @retValue i m n j e h h0 h1 h2 ih_h1 =>
    intro hx
    exact suffix_some (List.suffix_refl _) h.some
  | @brk i m j h h1  =>
    intro hx
    exact suffix_some (List.suffix_refl _) h.some
  | @brkLabel i m n j w h h0 h1 h2  =>
    intro hx
    exact suffix_some (List.suffix_refl _) h.some
  | @cont i m j h h1  =>
    intro hx
    exact suffix_some (List.suffix_refl _) h.some
  | @contLabel i m n j w h h0 h1 h2  =>
    intro hx
    exact suffix_some (List.suffix_refl _) h.some
  | @throw i m n j e h h1 h2 ih_h1 =>
    intro hx
    exact suffix_some (List.suffix_refl _) h.some
  | @ifThen i m n o q j e s h h1 h2 h3 h4 h5 ih_h2 ih_h4 =>
    intro hx
    exact suffix_some (List.suffix_refl _) h.some
  | @ifElse i m n o q r u j e s s' h h1 h2 h3 h4 h5 h6 ih_h2 ih_h4 ih_h6 =>
    intro hx
    exact suffix_some (List.suffix_refl _) h.some
  | @whileLoop i m n o q j e s h h1 h2 h3 h4 ih_h2 ih_h4 =>
    intro hx
    exact suffix_some (List.suffix_refl _) h.some
  | @doLoop i m n o q r j e s h h1 h2 h3 h4 h5 ih_h1 ih_h4 =>
    intro hx
    exact suffix_some (List.suffix_refl _) h.some
  | @forLoop i m n o q j t u s h h1 h2 h3 r h4 h5 ih_h3 ih_h4 ih_h5 =>
    intro hx
    exact suffix_some (List.suffix_refl _) h.some
  | @forLoopInit i m n o q r v j x t u s h h1 h2 h2' h3 h4 h5 ih_h2 ih_h3 ih_h4 ih_h5 =>
    intro hx
    exact suffix_some (List.suffix_refl _) h.some
  | @forInDecl i m n o q r v j k ds e s h h1 h2 h3 h4 h5 h6 ih_h2 ih_h4 ih_h6 =>
    intro hx
    exact suffix_some (List.suffix_refl _) h.some
  | @forInExpr i m n o q j a b s h h1 h2 h3 h4 ih_h2 ih_h4 =>
    intro hx
    exact suffix_some (List.suffix_refl _) h.some
  | @forOf i m n o q r v j x e s h h1 h2 h3 h4 h5 h6 ih_h2 ih_h4 ih_h6 =>
    intro hx
    exact suffix_some (List.suffix_refl _) h.some
  | @forInitDecl i m j t k ds h hk h1 ih_h1 =>
    intro hx
    exact suffix_some (List.suffix_refl _) h.some
  | @forInitExpr i j e h h1 ih_h =>
    intro hx
    exact suffix_some (List.suffix_refl _) (ih_h rfl)
  | @optExprNone i j t h  =>
    intro hx
    exact suffix_some (List.suffix_refl _) h.some
  | @optExprSome i m j t e h h1 ih_h =>
    intro hx
    exact suffix_some (List.suffix_refl _) (ih_h rfl)
  | @tryCatch i m n j b c h h1 h2 h3 ih_h1 ih_h2 =>
    intro hx
    exact suffix_some (List.suffix_refl _) h.some
  | @tryCatchFinally i m n o q j b c f h h1 h2 h3 h4 ih_h1 ih_h2 ih_h4 =>
    intro hx
    exact suffix_some (List.suffix_refl _) h.some
  | @tryFinally i m n o j b f h h1 h3 h4 ih_h1 ih_h4 =>
    intro hx
    exact suffix_some (List.suffix_refl _) h.some
  | @«catch» i m n o q j p b h h1 h2 h3 h4 ih_h2 ih_h4 =>
    intro hx
    exact suffix_some (List.suffix_refl _) h.some
  | @switch i m n o q r j e cs h h1 h2 h3 h4 h5 ih_h2 ih_h5 =>
    intro hx
    exact suffix_some (List.suffix_refl _) h.some
  | @casesClose i j h  =>
    intro hx
    exact suffix_some (List.suffix_refl _) h.some
  | @casesMore i m j c cs h h1 ih_h ih_h1 =>
    intro hx
    exact suffix_some (List.suffix_refl _) (ih_h rfl)
  | @case i m n o j e ss h h1 h2 h3 ih_h1 ih_h3 =>
    intro hx
    exact suffix_some (List.suffix_refl _) h.some
  | @default i m n j ss h h1 h2 ih_h2 =>
    intro hx
    exact suffix_some (List.suffix_refl _) h.some
  | @caseBodyEnd j h  =>
    intro hx
    exact look_any2 h
  | @caseBodyMore i m j s ss h h1 ih_h ih_h1 =>
    intro hx
    exact suffix_some (List.suffix_refl _) (ih_h rfl)
  | @labeled i m n j w s h h1 h2 ih_h2 =>
    intro hx
    exact suffix_some (List.suffix_refl _) h.some
  | @functionStmt i m j f h h1 ih_h1 =>
    intro hx
    exact suffix_some (List.suffix_refl _) h.some
  | @classStmt i m j c h h1 ih_h1 =>
    intro hx
    exact suffix_some (List.suffix_refl _) h.some
  | @importBare i m j w h h1 hw  =>
    intro hx
    exact suffix_some (List.suffix_refl _) h.some
  | @importFrom i m n o j w ss h h1 h2 h3 hw  =>
    intro hx
    exact suffix_some (List.suffix_refl _) h.some
  | @declarator i j p h h' ih_h =>
    intro hx
    exact suffix_some (List.suffix_refl _) (ih_h rfl)
  | @declaratorInit i m n j p e h h1 h2 ih_h ih_h2 =>
    intro hx
    exact suffix_some (List.suffix_refl _) (ih_h rfl)
  | @declaratorsLast i j d h h' ih_h =>
    intro hx
    exact suffix_some (List.suffix_refl _) (ih_h rfl)
  | @declaratorsMore i m n j d ds h h1 h2 ih_h ih_h2 =>
    intro hx
    exact suffix_some (List.suffix_refl _) (ih_h rfl)
  | @programEnd   =>
    intro hx
    cases hx
  | @programMore i m j s ss h h1 ih_h ih_h1 =>
    intro hx
    cases hx

theorem Spec.G.some' {i j : List Item} {x : Phrase} (h : G i x j) (hx : ∀ ss, x ≠ .program ss)
    (hc : level i + due x = level j) : i ≠ [] := by
  cases hm : mayEnd x with
  | false => exact h.some hm
  | true =>
    rintro rfl
    have h1 := h.suffix
    rw [List.suffix_nil] at h1
    subst h1
    cases x <;> first | (simp [mayEnd] at hm; done) | (simp [due, level] at hc; done) | exact hx _ rfl

theorem Spec.G.last {i j : List Item} {x : Phrase} (h : G i x j) :
    ends x = true → j = [] → level i + due x = level j → ¬ EndsSemi i := by
  induction h with
  | @whole i j k e h h' ih_h =>
    intro hx hj hc
    have := h.depth
    simp only [due, level, Item.weight, weight] at *
    have hc' : level i + due (.expr k e) = level j := by simp only [due]; omega
    exact EndsSemi.not_of_suffix (List.suffix_refl _) (h.some' (by simp) hc') (ih_h rfl hj (by simpa only [due] using hc'))
  | @ident i j k w hk h  =>
    intro hx hj hc
    exact EndsSemi.not_of_suffix (List.suffix_refl _) h.some (h.last (by decide) hj)
  | @this i j k hk h  =>
    intro hx hj hc
    exact EndsSemi.not_of_suffix (List.suffix_refl _) h.some (h.last (by decide) hj)
  | @lit i j k t w v hk h hv  =>
    intro hx hj hc
    exact EndsSemi.not_of_suffix (List.suffix_refl _) h.some (h.last (literal_semi hv) hj)
  | @regex j k w a hk  =>
    intro hx hj hc
    exact not_endsSemi_of (by simp) hj
  | @array i m n j k es hk h h0 h1 h2 ih_h1 =>
    intro hx hj hc
    exact EndsSemi.not_of_suffix ((h1.suffix).trans (h.suffix)) h2.some (h2.last (by decide) hj)
  | @emptyArray i m j k hk h h2  =>
    intro hx hj hc
    exact EndsSemi.not_of_suffix (h.suffix) h2.some (h2.last (by decide) hj)
  | @object i m n j k ps hk h h1 h2 ih_h1 =>
    intro hx hj hc
    exact EndsSemi.not_of_suffix ((h1.suffix).trans (h.suffix)) h2.some (h2.last (by decide) hj)
  | @function i m j k f hk h h1 ih_h1 =>
    intro hx hj hc
    have := h.depth_eq (0) rfl
    have := h1.depth
    simp only [due, level, Item.weight, weight] at *
    have hc' : level m + due (.func .optional f) = level j := by simp only [due]; omega
    exact EndsSemi.not_of_suffix (h.suffix) (h1.some' (by simp) hc') (ih_h1 rfl hj (by simpa only [due] using hc'))
  | @«class» i m j k c hk h h1 ih_h1 =>
    intro hx hj hc
    have := h.depth_eq (0) rfl
    have := h1.depth
    simp only [due, level, Item.weight, weight] at *
    have hc' : level m + due (.cls .optional c) = level j := by simp only [due]; omega
    exact EndsSemi.not_of_suffix (h.suffix) (h1.some' (by simp) hc') (ih_h1 rfl hj (by simpa only [due] using hc'))
  | @template i j k es qs hk h ih_h =>
    intro hx hj hc
    have := h.depth
    simp only [due, level, Item.weight, weight] at *
    have hc' : level i + due (.template es qs) = level j := by simp only [due]; omega
    exact EndsSemi.not_of_suffix (List.suffix_refl _) (h.some' (by simp) hc') (ih_h rfl hj (by simpa only [due] using hc'))
  | @paren i m n j k e hk h h1 h2 ih_h1 =>
    intro hx hj hc
    exact EndsSemi.not_of_suffix ((h1.suffix).trans (h.suffix)) h2.some (h2.last (by decide) hj)
  | @newTarget i m j k hk h h1  =>
    intro hx hj hc
    exact EndsSemi.not_of_suffix (h.suffix) h1.some (h1.last (by decide) hj)
  | @member i m j k e w hk h h1 ih_h =>
    intro hx hj hc
    exact EndsSemi.not_of_suffix (h.suffix) h1.some (h1.last (by decide) hj)
  | @index i m n o j k e p hk h h1 h2 h3 ih_h ih_h2 =>
    intro hx hj hc
    exact EndsSemi.not_of_suffix (((h2.suffix).trans (h1.suffix)).trans (h.suffix)) h3.some (h3.last (by decide) hj)
  | @call i m n o j k e es hk h h1 h2 h3 ih_h ih_h2 =>
    intro hx hj hc
    exact EndsSemi.not_of_suffix (((h2.suffix).trans (h1.suffix)).trans (h.suffix)) h3.some (h3.last (by decide) hj)
  | @tagged i m j k e es qs hk h h1 ih_h ih_h1 =>
    intro hx hj hc
    have := h.depth
    have := h1.depth
    simp only [due, level, Item.weight, weight] at *
    have hc' : level m + due (.template es qs) = level j := by simp only [due]; omega
    exact EndsSemi.not_of_suffix (h.suffix) (h1.some' (by simp) hc') (ih_h1 rfl hj (by simpa only [due] using hc'))
  | @«postfix» i j k e t w a op hk h he hop ha ih_h =>
    intro hx hj hc
    subst hj
    exact EndsSemi.not_of_suffix h.suffix (by simp) (not_endsSemi_of (by rintro w a ⟨⟩; cases hop) rfl)
  | @arrow i m n j k e ps b hk h hp h1 hb h2 ih_h ih_h2 =>
    intro hx hj hc
    have := h.depth
    have := h1.depth_eq (0) rfl
    have := h2.depth
    simp only [due, level, Item.weight, weight] at *
    have hc' : level n + due (.whole 1 b) = level j := by simp only [due]; omega
    exact EndsSemi.not_of_suffix ((h1.suffix).trans (h.suffix)) (h2.some' (by simp) hc') (ih_h2 rfl hj (by simpa only [due] using hc'))
  | @arrowBlock i m n j k e ps b hk h hp h1 h2 ih_h ih_h2 =>
    intro hx hj hc
    have := h.depth
    have := h1.depth_eq (0) rfl
    have := h2.depth
    simp only [due, level, Item.weight, weight] at *
    have hc' : level n + due (.block b) = level j := by simp only [due]; omega
    exact EndsSemi.not_of_suffix ((h1.suffix).trans (h.suffix)) (h2.some' (by simp) hc') (ih_h2 rfl hj (by simpa only [due] using hc'))
  | @arrow0 i m n o j k b hk h h0 h1 hb h2 ih_h2 =>
    intro hx hj hc
    have := h.depth_eq (1) rfl
    have := h0.depth_eq (-1) rfl
    have := h1.depth_eq (0) rfl
    have := h2.depth
    simp only [due, level, Item.weight, weight] at *
    have hc' : level o + due (.whole 1 b) = level j := by simp only [due]; omega
    exact EndsSemi.not_of_suffix (((h1.suffix).trans (h0.suffix)).trans (h.suffix)) (h2.some' (by simp) hc') (ih_h2 rfl hj (by simpa only [due] using hc'))
  | @arrowBlock0 i m n o j k b hk h h0 h1 h2 ih_h2 =>
    intro hx hj hc
    have := h.depth_eq (1) rfl
    have := h0.depth_eq (-1) rfl
    have := h1.depth_eq (0) rfl
    have := h2.depth
    simp only [due, level, Item.weight, weight] at *
    have hc' : level o + due (.block b) = level j := by simp only [due]; omega
    exact EndsSemi.not_of_suffix (((h1.suffix).trans (h0.suffix)).trans (h.suffix)) (h2.some' (by simp) hc') (ih_h2 rfl hj (by simpa only [due] using hc'))
  | @«prefix» i m j k t op e hk h hop h1 ih_h1 =>
    intro hx hj hc
    have := h.depth_plain (plain_prefix hop)
    have := h1.depth
    simp only [due, level, Item.weight, weight] at *
    have hc' : level m + due (.whole 16 e) = level j := by simp only [due]; omega
    exact EndsSemi.not_of_suffix (h.suffix) (h1.some' (by simp) hc') (ih_h1 rfl hj (by simpa only [due] using hc'))
  | @new i m j k e hk h hm h1 ih_h1 =>
    intro hx hj hc
    have := h.depth_eq (0) rfl
    have := h1.depth
    simp only [due, level, Item.weight, weight] at *
    have hc' : level m + due (.whole 16 e) = level j := by simp only [due]; omega
    exact EndsSemi.not_of_suffix (h.suffix) (h1.some' (by simp) hc') (ih_h1 rfl hj (by simpa only [due] using hc'))
  | @binary i m n j k t op p a b hop hk h h1 h2 ih_h ih_h2 =>
    intro hx hj hc
    have := h.depth
    have := h1.depth_plain (plain_binary hop)
    have := h2.depth
    simp only [due, level, Item.weight, weight] at *
    have hc' : level n + due (.whole (p + 1) b) = level j := by simp only [due]; omega
    exact EndsSemi.not_of_suffix ((h1.suffix).trans (h.suffix)) (h2.some' (by simp) hc') (ih_h2 rfl hj (by simpa only [due] using hc'))
  | @cond i m n o q j k a b c hk h h1 h2 h3 h4 ih_h ih_h2 ih_h4 =>
    intro hx hj hc
    have := h.depth
    have := h1.depth_eq (0) rfl
    have := h2.depth
    have := h3.depth_eq (0) rfl
    have := h4.depth
    simp only [due, level, Item.weight, weight] at *
    have hc' : level q + due (.whole 1 c) = level j := by simp only [due]; omega
    exact EndsSemi.not_of_suffix ((((h3.suffix).trans (h2.suffix)).trans (h1.suffix)).trans (h.suffix)) (h4.some' (by simp) hc') (ih_h4 rfl hj (by simpa only [due] using hc'))
  | @assign i m n j k t op a b hk h ha h1 hop h2 ih_h ih_h2 =>
    intro hx hj hc
    have := h.depth
    have := h1.depth_plain (plain_assign hop)
    have := h2.depth
    simp only [due, level, Item.weight, weight] at *
    have hc' : level n + due (.whole 1 b) = level j := by simp only [due]; omega
    exact EndsSemi.not_of_suffix ((h1.suffix).trans (h.suffix)) (h2.some' (by simp) hc') (ih_h2 rfl hj (by simpa only [due] using hc'))
  | @comma i m n j a es h h1 h2 ih_h ih_h2 =>
    intro hx hj hc
    have := h.depth
    have := h1.depth_eq (0) rfl
    have := h2.depth
    simp only [due, level, Item.weight, weight] at *
    have hc' : level n + due (.commaTail es) = level j := by simp only [due]; omega
    exact EndsSemi.not_of_suffix ((h1.suffix).trans (h.suffix)) (h2.some' (by simp) hc') (ih_h2 rfl hj (by simpa only [due] using hc'))
  | @commaLast i j e h h' ih_h =>
    intro hx hj hc
    have := h.depth
    simp only [due, level, Item.weight, weight] at *
    have hc' : level i + due (.whole 1 e) = level j := by simp only [due]; omega
    exact EndsSemi.not_of_suffix (List.suffix_refl _) (h.some' (by simp) hc') (ih_h rfl hj (by simpa only [due] using hc'))
  | @commaMore i m n j e es h h1 h2 ih_h ih_h2 =>
    intro hx hj hc
    have := h.depth
    have := h1.depth_eq (0) rfl
    have := h2.depth
    simp only [due, level, Item.weight, weight] at *
    have hc' : level n + due (.commaTail es) = level j := by simp only [due]; omega
    exact EndsSemi.not_of_suffix ((h1.suffix).trans (h.suffix)) (h2.some' (by simp) hc') (ih_h2 rfl hj (by simpa only [due] using hc'))
  | @arg i j e h ih_h =>
    intro hx hj hc
    have := h.depth
    simp only [due, level, Item.weight, weight] at *
    have hc' : level i + due (.whole 1 e) = level j := by simp only [due]; omega
    exact EndsSemi.not_of_suffix (List.suffix_refl _) (h.some' (by simp) hc') (ih_h rfl hj (by simpa only [due] using hc'))
  | @argSpread i m j e h h1 ih_h1 =>
    intro hx hj hc
    have := h.depth_eq (0) rfl
    have := h1.depth
    simp only [due, level, Item.weight, weight] at *
    have hc' : level m + due (.whole 1 e) = level j := by simp only [due]; omega
    exact EndsSemi.not_of_suffix (h.suffix) (h1.some' (by simp) hc') (ih_h1 rfl hj (by simpa only [due] using hc'))
  | @argsNone j h  =>
    intro hx hj hc
    exact absurd hj (look_any0 h)
  | @argsLast i j e h h' ih_h =>
    intro hx hj hc
    exact absurd hj (look_any0 h')
  | @argsMore i m n j e es h h1 h2 ih_h ih_h2 =>
    intro hx hj hc
    have := h.depth
    have := h1.depth_eq (0) rfl
    have := h2.depth
    simp only [due, level, Item.weight, weight] at *
    have hc' : level n + due (.args es) = level j := by simp only [due]; omega
    exact EndsSemi.not_of_suffix ((h1.suffix).trans (h.suffix)) (h2.some' (by simp) hc') (ih_h2 rfl hj (by simpa only [due] using hc'))
  | @elem i j e h ih_h =>
    intro hx hj hc
    have := h.depth
    simp only [due, level, Item.weight, weight] at *
    have hc' : level i + due (.whole 1 e) = level j := by simp only [due]; omega
    exact EndsSemi.not_of_suffix (List.suffix_refl _) (h.some' (by simp) hc') (ih_h rfl hj (by simpa only [due] using hc'))
  | @elemSpread i m j e h h1 ih_h1 =>
    intro hx hj hc
    have := h.depth_eq (0) rfl
    have := h1.depth
    simp only [due, level, Item.weight, weight] at *
    have hc' : level m + due (.whole 1 e) = level j := by simp only [due]; omega
    exact EndsSemi.not_of_suffix (h.suffix) (h1.some' (by simp) hc') (ih_h1 rfl hj (by simpa only [due] using hc'))
  | @elemHole j h  =>
    intro hx hj hc
    exact absurd hj (look_any1 h)
  | @elemsLast i j e h h' ih_h =>
    intro hx hj hc
    exact absurd hj (look_any0 h')
  | @elemsMore i m n j e es h h1 h2 ih_h ih_h2 =>
    intro hx hj hc
    have := h.depth
    have := h1.depth_eq (0) rfl
    have := h2.depth
    simp only [due, level, Item.weight, weight] at *
    have hc' : level n + due (.elems es) = level j := by simp only [due]; omega
    exact EndsSemi.not_of_suffix ((h1.suffix).trans (h.suffix)) (h2.some' (by simp) hc') (ih_h2 rfl hj (by simpa only [due] using hc'))
  | @templateClosed i j w h  =>
    intro hx hj hc
    exact EndsSemi.not_of_suffix (List.suffix_refl _) h.some (h.last (by decide) hj)
  | @templateOpen i m n j w e es qs h h1 h2 ih_h1 ih_h2 =>
    intro hx hj hc
    have := h.depth_eq (1) rfl
    have := h1.depth
    have := h2.depth
    simp only [due, level, Item.weight, weight] at *
    have hc' : level n + due (.templateTail es qs) = level j := by simp only [due]; omega
    exact EndsSemi.not_of_suffix ((h1.suffix).trans (h.suffix)) (h2.some' (by simp) hc') (ih_h2 rfl hj (by simpa only [due] using hc'))
  | @templateEnd j w  =>
    intro hx hj hc
    exact not_endsSemi_of (by simp) hj
  | @templateMore m n j w e es qs h1 h2 ih_h1 ih_h2 =>
    intro hx hj hc
    have := h1.depth
    have := h2.depth
    simp only [due, level, Item.weight, weight] at *
    have hc' : level n + due (.templateTail es qs) = level j := by simp only [due]; omega
    exact EndsSemi.not_of_suffix ((h1.suffix).trans ((List.suffix_cons _ _))) (h2.some' (by simp) hc') (ih_h2 rfl hj (by simpa only [due] using hc'))
  | @shorthand i j t w h ht h1 h2  =>
    intro hx hj hc
    exact EndsSemi.not_of_suffix (List.suffix_refl _) h.some (h.last (word_semi ht) hj)
  | @propWord i m j t w p h ht h1 ih_h1 =>
    intro hx hj hc
    have := h.depth_plain (plain_word ht)
    have := h1.depth
    simp only [due, level, Item.weight, weight] at *
    have hc' : level m + due (.propValue (.literal z w) p) = level j := by simp only [due]; omega
    exact EndsSemi.not_of_suffix (h.suffix) (h1.some' (by simp) hc') (ih_h1 rfl hj (by simpa only [due] using hc'))
  | @propLiteral i m j t w p h ht h1 ih_h1 =>
    intro hx hj hc
    have := h.depth_plain (plain_two ht)
    have := h1.depth
    simp only [due, level, Item.weight, weight] at *
    have hc' : level m + due (.propValue (.literal z w) p) = level j := by simp only [due]; omega
    exact EndsSemi.not_of_suffix (h.suffix) (h1.some' (by simp) hc') (ih_h1 rfl hj (by simpa only [due] using hc'))
  | @propBinary i m j w p h h1 ih_h1 =>
    intro hx hj hc
    have := h.depth_eq (0) rfl
    have := h1.depth
    simp only [due, level, Item.weight, weight] at *
    have hc' : level m + due (.propValue (.binary z w) p) = level j := by simp only [due]; omega
    exact EndsSemi.not_of_suffix (h.suffix) (h1.some' (by simp) hc') (ih_h1 rfl hj (by simpa only [due] using hc'))
  | @propComputed i m n o j e p h h1 h2 h3 ih_h1 ih_h3 =>
    intro hx hj hc
    have := h.depth_eq (1) rfl
    have := h1.depth
    have := h2.depth_eq (-1) rfl
    have := h3.depth
    simp only [due, level, Item.weight, weight] at *
    have hc' : level o + due (.propValue (.computed z e) p) = level j := by simp only [due]; omega
    exact EndsSemi.not_of_suffix (((h2.suffix).trans (h1.suffix)).trans (h.suffix)) (h3.some' (by simp) hc') (ih_h3 rfl hj (by simpa only [due] using hc'))
  | @propSpread i m j e h h1 ih_h1 =>
    intro hx hj hc
    have := h.depth_eq (0) rfl
    have := h1.depth
    simp only [due, level, Item.weight, weight] at *
    have hc' : level m + due (.whole 1 e) = level j := by simp only [due]; omega
    exact EndsSemi.not_of_suffix (h.suffix) (h1.some' (by simp) hc') (ih_h1 rfl hj (by simpa only [due] using hc'))
  | @propField i m j k e h h1 ih_h1 =>
    intro hx hj hc
    have := h.depth_eq (0) rfl
    have := h1.depth
    simp only [due, level, Item.weight, weight] at *
    have hc' : level m + due (.whole 1 e) = level j := by simp only [due]; omega
    exact EndsSemi.not_of_suffix (h.suffix) (h1.some' (by simp) hc') (ih_h1 rfl hj (by simpa only [due] using hc'))
  | @propMethod i j k f h h1 ih_h1 =>
    intro hx hj hc
    have := h1.depth
    simp only [due, level, Item.weight, weight] at *
    have hc' : level i + due (.func .never f) = level j := by simp only [due]; omega
    exact EndsSemi.not_of_suffix (List.suffix_refl _) (h1.some' (by simp) hc') (ih_h1 rfl hj (by simpa only [due] using hc'))
  | @propsNone j h  =>
    intro hx hj hc
    exact absurd hj (look_any0 h)
  | @propsLast i j p h h' ih_h =>
    intro hx hj hc
    exact absurd hj (look_any0 h')
  | @propsMore i m n j p ps h h1 h2 ih_h ih_h2 =>
    intro hx hj hc
    have := h.depth
    have := h1.depth_eq (0) rfl
    have := h2.depth
    simp only [due, level, Item.weight, weight] at *
    have hc' : level n + due (.props ps) = level j := by simp only [due]; omega
    exact EndsSemi.not_of_suffix ((h1.suffix).trans (h.suffix)) (h2.some' (by simp) hc') (ih_h2 rfl hj (by simpa only [due] using hc'))
  | @patIdent i j w h  =>
    intro hx hj hc
    exact EndsSemi.not_of_suffix (List.suffix_refl _) h.some (h.last (by decide) hj)
  | @patArray i m n j ps h h0 h1 h2 ih_h1 =>
    intro hx hj hc
    exact EndsSemi.not_of_suffix ((h1.suffix).trans (h.suffix)) h2.some (h2.last (by decide) hj)
  | @patEmptyArray i m j h h2  =>
    intro hx hj hc
    exact EndsSemi.not_of_suffix (h.suffix) h2.some (h2.last (by decide) hj)
  | @patObject i m n j ps h h1 h2 ih_h1 =>
    intro hx hj hc
    exact EndsSemi.not_of_suffix ((h1.suffix).trans (h.suffix)) h2.some (h2.last (by decide) hj)
  | @param i j p h h' ih_h =>
    intro hx hj hc
    have := h.depth
    simp only [due, level, Item.weight, weight] at *
    have hc' : level i + due (.pat p) = level j := by simp only [due]; omega
    exact EndsSemi.not_of_suffix (List.suffix_refl _) (h.some' (by simp) hc') (ih_h rfl hj (by simpa only [due] using hc'))
  | @paramDefault i m n j p e h h1 h2 ih_h ih_h2 =>
    intro hx hj hc
    have := h.depth
    have := h1.depth_eq (0) rfl
    have := h2.depth
    simp only [due, level, Item.weight, weight] at *
    have hc' : level n + due (.whole 1 e) = level j := by simp only [due]; omega
    exact EndsSemi.not_of_suffix ((h1.suffix).trans (h.suffix)) (h2.some' (by simp) hc') (ih_h2 rfl hj (by simpa only [due] using hc'))
  | @patElem i j p h ih_h =>
    intro hx hj hc
    have := h.depth
    simp only [due, level, Item.weight, weight] at *
    have hc' : level i + due (.param p) = level j := by simp only [due]; omega
    exact EndsSemi.not_of_suffix (List.suffix_refl _) (h.some' (by simp) hc') (ih_h rfl hj (by simpa only [due] using hc'))
  | @patHole j h  =>
    intro hx hj hc
    exact absurd hj (look_any1 h)
  | @patElemsLast i j p h h' ih_h =>
    intro hx hj hc
    exact absurd hj (look_any0 h')
  | @patElemsMore i m n j p ps h h1 h2 ih_h ih_h2 =>
    intro hx hj hc
    have := h.depth
    have := h1.depth_eq (0) rfl
    have := h2.depth
    simp only [due, level, Item.weight, weight] at *
    have hc' : level n + due (.patElems ps) = level j := by simp only [due]; omega
    exact EndsSemi.not_of_suffix ((h1.suffix).trans (h.suffix)) (h2.some' (by simp) hc') (ih_h2 rfl hj (by simpa only [due] using hc'))
  | @paramsNone i j h  =>
    intro hx hj hc
    exact EndsSemi.not_of_suffix (List.suffix_refl _) h.some (h.last (by decide) hj)
  | @paramsRest i m n j w h h1 h2  =>
    intro hx hj hc
    exact EndsSemi.not_of_suffix ((h1.suffix).trans (h.suffix)) h2.some (h2.last (by decide) hj)
  | @paramsLast i m j p h h1 ih_h =>
    intro hx hj hc
    exact EndsSemi.not_of_suffix (h.suffix) h1.some (h1.last (by decide) hj)
  | @paramsMore i m n j p ps h h1 h2 ih_h ih_h2 =>
    intro hx hj hc
    have := h.depth
    have := h1.depth_eq (0) rfl
    have := h2.depth
    simp only [due, level, Item.weight, weight] at *
    have hc' : level n + due (.params ps) = level j := by simp only [due]; omega
    exact EndsSemi.not_of_suffix ((h1.suffix).trans (h.suffix)) (h2.some' (by simp) hc') (ih_h2 rfl hj (by simpa only [due] using hc'))
  | @func i m n o q j nk g nm ps b h h1 h2 h3 h4 ih_h3 ih_h4 =>
    intro hx hj hc
    have := h.depth
    have := h1.depth
    have := h2.depth_eq (1) rfl
    have := h3.depth
    have := h4.depth
    simp only [due, level, Item.weight, weight] at *
    have hc' : level q + due (.block b) = level j := by simp only [due]; omega
    exact EndsSemi.not_of_suffix ((((h3.suffix).trans (h2.suffix)).trans (h1.suffix)).trans (h.suffix)) (h4.some' (by simp) hc') (ih_h4 rfl hj (by simpa only [due] using hc'))
  | @cls i m n j nk nm ms h h1 h2 h0 ih_h2 =>
    intro hx hj hc
    have := h.depth
    have := h1.depth_eq (1) rfl
    have := h2.depth
    simp only [due, level, Item.weight, weight] at *
    have hc' : level n + due (.membersTail ms) = level j := by simp only [due]; omega
    exact EndsSemi.not_of_suffix ((h1.suffix).trans (h.suffix)) (h2.some' (by simp) hc') (ih_h2 rfl hj (by simpa only [due] using hc'))
  | @clsExtends i m n o q j nk nm e ms h h1 h2 h3 h4 h0 ih_h2 ih_h4 =>
    intro hx hj hc
    have := h.depth
    have := h1.depth_eq (0) rfl
    have := h2.depth
    have := h3.depth_eq (1) rfl
    have := h4.depth
    simp only [due, level, Item.weight, weight] at *
    have hc' : level q + due (.membersTail ms) = level j := by simp only [due]; omega
    exact EndsSemi.not_of_suffix ((((h3.suffix).trans (h2.suffix)).trans (h1.suffix)).trans (h.suffix)) (h4.some' (by simp) hc') (ih_h4 rfl hj (by simpa only [due] using hc'))
  | @memberWord i m n j s t w x h h1 ht hn h2 ih_h2 =>
    intro hx hj hc
    cases hx
  | @memberGet i m n o j s t t' w x h h1 ht h2 ht' h3 ih_h3 =>
    intro hx hj hc
    cases hx
  | @memberSet i m n o j s t t' w x h h1 ht h2 ht' h3 ih_h3 =>
    intro hx hj hc
    cases hx
  | @memberNumber i m n j s w x h h1 h2 ih_h2 =>
    intro hx hj hc
    cases hx
  | @memberBinary i m n j s w x h h1 h2 ih_h2 =>
    intro hx hj hc
    cases hx
  | @memberComputed i m n o q j s e x h h1 h2 h3 h4 ih_h2 ih_h4 =>
    intro hx hj hc
    cases hx
  | @memberMethod i m j s kd k f h h1 h2 ih_h1 =>
    intro hx hj hc
    cases hx
  | @memberField i m n j s kd k e h h1 h2 ih_h1 =>
    intro hx hj hc
    cases hx
  | @membersClose i j h  =>
    intro hx hj hc
    exact EndsSemi.not_of_suffix (List.suffix_refl _) h.some (h.last (by decide) hj)
  | @membersEnd   =>
    intro hx hj hc
    exact not_endsSemi_nil
  | @membersMore i m j x xs h h1 ih_h ih_h1 =>
    intro hx hj hc
    have := h.depth
    have := h1.depth
    simp only [due, level, Item.weight, weight] at *
    have hc' : level m + due (.membersTail xs) = level j := by simp only [due]; omega
    exact EndsSemi.not_of_suffix (h.suffix) (h1.some' (by simp) hc') (ih_h1 rfl hj (by simpa only [due] using hc'))
  | @block i m j ss h h1 h0 ih_h1 =>
    intro hx hj hc
    have := h.depth_eq (1) rfl
    have := h1.depth
    simp only [due, level, Item.weight, weight] at *
    have hc' : level m + due (.stmtsTail ss) = level j := by simp only [due]; omega
    exact EndsSemi.not_of_suffix (h.suffix) (h1.some' (by simp) hc') (ih_h1 rfl hj (by simpa only [due] using hc'))
  | @stmtsClose i j h  =>
    intro hx hj hc
    exact EndsSemi.not_of_suffix (List.suffix_refl _) h.some (h.last (by decide) hj)
  | @stmtsEnd   =>
    intro hx hj hc
    exact not_endsSemi_nil
  | @stmtsMore i m j s ss h h1 ih_h ih_h1 =>
    intro hx hj hc
    have := h.depth
    have := h1.depth
    simp only [due, level, Item.weight, weight] at *
    have hc' : level m + due (.stmtsTail ss) = level j := by simp only [due]; omega
    exact EndsSemi.not_of_suffix (h.suffix) (h1.some' (by simp) hc') (ih_h1 rfl hj (by simpa only [due] using hc'))
  | @empty i j h  =>
    intro hx hj hc
    cases hx
  | @debugger i j h  =>
    intro hx hj hc
    cases hx
  | @blockStmt i j ss h ih_h =>
    intro hx hj hc
    cases hx
  | @exprStmt i m j e h1 h2 h3 h4 h h5 ih_h =>
    intro hx hj hc
    cases hx
  | @importExpr w a i m j e h1 h h5 ih_h =>
    intro hx hj hc
    cases hx
  | @declStmt i m n j t k ds h hk h1 h2 ih_h1 =>
    intro hx hj hc
    cases hx
  | @ret i m j h h1  =>
    intro hx hj hc
    cases hx
  | @retValue i m n j e h h0 h1 h2 ih_h1 =>
    intro hx hj hc
    cases hx
  | @brk i m j h h1  =>
    intro hx hj hc
    cases hx
  | @brkLabel i m n j w h h0 h1 h2  =>
    intro hx hj hc
    cases hx
  | @cont i m j h h1  =>
    intro hx hj hc
    cases hx
  | @contLabel i m n j w h h0 h1 h2  =>
    intro hx hj hc
    cases hx
  | @throw i m n j e h h1 h2 ih_h1 =>
    intro hx hj hc
    cases hx
  | @ifThen i m n o q j e s h h1 h2 h3 h4 h5 ih_h2 ih_h4 =>
    intro hx hj hc
    cases hx
  | @ifElse i m n o q r u j e s s' h h1 h2 h3 h4 h5 h6 ih_h2 ih_h4 ih_h6 =>
    intro hx hj hc
    cases hx
  | @whileLoop i m n o q j e s h h1 h2 h3 h4 ih_h2 ih_h4 =>
    intro hx hj hc
    cases hx
  | @doLoop i m n o q r j e s h h1 h2 h3 h4 h5 ih_h1 ih_h4 =>
    intro hx hj hc
    cases hx
  | @forLoop i m n o q j t u s h h1 h2 h3 r h4 h5 ih_h3 ih_h4 ih_h5 =>
    intro hx hj hc
    cases hx
  | @forLoopInit i m n o q r v j x t u s h h1 h2 h2' h3 h4 h5 ih_h2 ih_h3 ih_h4 ih_h5 =>
    intro hx hj hc
    cases hx
  | @forInDecl i m n o q r v j k ds e s h h1 h2 h3 h4 h5 h6 ih_h2 ih_h4 ih_h6 =>
    intro hx hj hc
    cases hx
  | @forInExpr i m n o q j a b s h h1 h2 h3 h4 ih_h2 ih_h4 =>
    intro hx hj hc
    cases hx
  | @forOf i m n o q r v j x e s h h1 h2 h3 h4 h5 h6 ih_h2 ih_h4 ih_h6 =>
    intro hx hj hc
    cases hx
  | @forInitDecl i m j t k ds h hk h1 ih_h1 =>
    intro hx hj hc
    have := h.depth_plain (plain_decl hk)
    have := h1.depth
    simp only [due, level, Item.weight, weight] at *
    have hc' : level m + due (.declarators ds) = level j := by simp only [due]; omega
    exact EndsSemi.not_of_suffix (h.suffix) (h1.some' (by simp) hc') (ih_h1 rfl hj (by simpa only [due] using hc'))
  | @forInitExpr i j e h h1 ih_h =>
    intro hx hj hc
    have := h.depth
    simp only [due, level, Item.weight, weight] at *
    have hc' : level i + due (.whole 0 e) = level j := by simp only [due]; omega
    exact EndsSemi.not_of_suffix (List.suffix_refl _) (h.some' (by simp) hc') (ih_h rfl hj (by simpa only [due] using hc'))
  | @optExprNone i j t h  =>
    intro hx hj hc
    cases hx
  | @optExprSome i m j t e h h1 ih_h =>
    intro hx hj hc
    cases hx
  | @tryCatch i m n j b c h h1 h2 h3 ih_h1 ih_h2 =>
    intro hx hj hc
    cases hx
  | @tryCatchFinally i m n o q j b c f h h1 h2 h3 h4 ih_h1 ih_h2 ih_h4 =>
    intro hx hj hc
    cases hx
  | @tryFinally i m n o j b f h h1 h3 h4 ih_h1 ih_h4 =>
    intro hx hj hc
    cases hx
  | @«catch» i m n o q j p b h h1 h2 h3 h4 ih_h2 ih_h4 =>
    intro hx hj hc
    have := h.depth_eq (0) rfl
    have := h1.depth_eq (1) rfl
    have := h2.depth
    have := h3.depth_eq (-1) rfl
    have := h4.depth
    simp only [due, level, Item.weight, weight] at *
    have hc' : level q + due (.block b) = level j := by simp only [due]; omega
    exact EndsSemi.not_of_suffix ((((h3.suffix).trans (h2.suffix)).trans (h1.suffix)).trans (h.suffix)) (h4.some' (by simp) hc') (ih_h4 rfl hj (by simpa only [due] using hc'))
  | @switch i m n o q r j e cs h h1 h2 h3 h4 h5 ih_h2 ih_h5 =>
    intro hx hj hc
    cases hx
  | @casesClose i j h  =>
    intro hx hj hc
    exact EndsSemi.not_of_suffix (List.suffix_refl _) h.some (h.last (by decide) hj)
  | @casesMore i m j c cs h h1 ih_h ih_h1 =>
    intro hx hj hc
    have := h.depth
    have := h1.depth
    simp only [due, level, Item.weight, weight] at *
    have hc' : level m + due (.cases cs) = level j := by simp only [due]; omega
    exact EndsSemi.not_of_suffix (h.suffix) (h1.some' (by simp) hc') (ih_h1 rfl hj (by simpa only [due] using hc'))
  | @case i m n o j e ss h h1 h2 h3 ih_h1 ih_h3 =>
    intro hx hj hc
    cases hx
  | @default i m n j ss h h1 h2 ih_h2 =>
    intro hx hj hc
    cases hx
  | @caseBodyEnd j h  =>
    intro hx hj hc
    cases hx
  | @caseBodyMore i m j s ss h h1 ih_h ih_h1 =>
    intro hx hj hc
    cases hx
  | @labeled i m n j w s h h1 h2 ih_h2 =>
    intro hx hj hc
    cases hx
  | @functionStmt i m j f h h1 ih_h1 =>
    intro hx hj hc
    cases hx
  | @classStmt i m j c h h1 ih_h1 =>
    intro hx hj hc
    cases hx
  | @importBare i m j w h h1 hw  =>
    intro hx hj hc
    cases hx
  | @importFrom i m n o j w ss h h1 h2 h3 hw  =>
    intro hx hj hc
    cases hx
  | @declarator i j p h h' ih_h =>
    intro hx hj hc
    have := h.depth
    simp only [due, level, Item.weight, weight] at *
    have hc' : level i + due (.pat p) = level j := by simp only [due]; omega
    exact EndsSemi.not_of_suffix (List.suffix_refl _) (h.some' (by simp) hc') (ih_h rfl hj (by simpa only [due] using hc'))
  | @declaratorInit i m n j p e h h1 h2 ih_h ih_h2 =>
    intro hx hj hc
    have := h.depth
    have := h1.depth_eq (0) rfl
    have := h2.depth
    simp only [due, level, Item.weight, weight] at *
    have hc' : level n + due (.whole 1 e) = level j := by simp only [due]; omega
    exact EndsSemi.not_of_suffix ((h1.suffix).trans (h.suffix)) (h2.some' (by simp) hc') (ih_h2 rfl hj (by simpa only [due] using hc'))
  | @declaratorsLast i j d h h' ih_h =>
    intro hx hj hc
    have := h.depth
    simp only [due, level, Item.weight, weight] at *
    have hc' : level i + due (.declarator d) = level j := by simp only [due]; omega
    exact EndsSemi.not_of_suffix (List.suffix_refl _) (h.some' (by simp) hc') (ih_h rfl hj (by simpa only [due] using hc'))
  | @declaratorsMore i m n j d ds h h1 h2 ih_h ih_h2 =>
    intro hx hj hc
    have := h.depth
    have := h1.depth_eq (0) rfl
    have := h2.depth
    simp only [due, level, Item.weight, weight] at *
    have hc' : level n + due (.declarators ds) = level j := by simp only [due]; omega
    exact EndsSemi.not_of_suffix ((h1.suffix).trans (h.suffix)) (h2.some' (by simp) hc') (ih_h2 rfl hj (by simpa only [due] using hc'))
  | @programEnd   =>
    intro hx hj hc
    cases hx
  | @programMore i m j s ss h h1 ih_h ih_h1 =>
    intro hx hj hc
    cases hx

theorem Spec.G.append {rest i j : List Item} {x : Phrase} (h : G i x j) :
    (∀ ss, x ≠ .program ss) → level i + due x = level j → Room rest i j → G (i ++ rest) x (j ++ rest) := by
  induction h with
  | @whole i j k e h h' ih_h =>
    intro hx hc hr
    have := h.depth
    simp only [due, level, Item.weight, weight] at *
    have hc_h : level i + due (.expr k e) = level j := by simp only [due, level, Item.weight, weight]; omega
    have hs_h := h.some' (by simp) hc_h
    have g_h := ih_h (by simp) (by simpa only [due, level, Item.weight, weight] using hc_h) (hr.sub (List.suffix_refl _) (List.suffix_refl _) hs_h)
    exact .whole g_h (hr.continues (fun e => EndsSemi.not_of_suffix (List.suffix_refl _) hs_h (h.last rfl e hc_h)) h')
  | @ident i j k w hk h  =>
    intro hx hc hr
    have := h.depth_eq (0) rfl
    simp only [due, level, Item.weight, weight] at *
    exact .ident hk (h.app rest)
  | @this i j k hk h  =>
    intro hx hc hr
    have := h.depth_eq (0) rfl
    simp only [due, level, Item.weight, weight] at *
    exact .this hk (h.app rest)
  | @lit i j k t w v hk h hv  =>
    intro hx hc hr
    have := h.depth_plain (plain_literal hv)
    simp only [due, level, Item.weight, weight] at *
    exact .lit hk (h.app rest) hv
  | @regex j k w a hk  =>
    intro hx hc hr
    simp only [due, level, Item.weight, weight] at *
    exact .regex hk
  | @array i m n j k es hk h h0 h1 h2 ih_h1 =>
    intro hx hc hr
    have := h.depth_eq (1) rfl
    have := h1.depth
    have := h2.depth_eq (-1) rfl
    simp only [due, level, Item.weight, weight] at *
    have hc_h1 : level m + due (.elems es) = level n := by simp only [due, level, Item.weight, weight]; omega
    have hs_h1 := h1.some' (by simp) hc_h1
    have g_h1 := ih_h1 (by simp) (by simpa only [due, level, Item.weight, weight] using hc_h1) (hr.sub (h.suffix) (h2.suffix) hs_h1)
    exact .array hk (h.app rest) (by rwa [look_app rest hs_h1]) g_h1 (h2.app rest)
  | @emptyArray i m j k hk h h2  =>
    intro hx hc hr
    have := h.depth_eq (1) rfl
    have := h2.depth_eq (-1) rfl
    simp only [due, level, Item.weight, weight] at *
    exact .emptyArray hk (h.app rest) (h2.app rest)
  | @object i m n j k ps hk h h1 h2 ih_h1 =>
    intro hx hc hr
    have := h.depth_eq (1) rfl
    have := h1.depth
    have := h2.depth_eq (-1) rfl
    simp only [due, level, Item.weight, weight] at *
    have hc_h1 : level m + due (.props ps) = level n := by simp only [due, level, Item.weight, weight]; omega
    have hs_h1 := h1.some' (by simp) hc_h1
    have g_h1 := ih_h1 (by simp) (by simpa only [due, level, Item.weight, weight] using hc_h1) (hr.sub (h.suffix) (h2.suffix) hs_h1)
    exact .object hk (h.app rest) g_h1 (h2.app rest)
  | @function i m j k f hk h h1 ih_h1 =>
    intro hx hc hr
    have := h.depth_eq (0) rfl
    have := h1.depth
    simp only [due, level, Item.weight, weight] at *
    have hc_h1 : level m + due (.func .optional f) = level j := by simp only [due, level, Item.weight, weight]; omega
    have hs_h1 := h1.some' (by simp) hc_h1
    have g_h1 := ih_h1 (by simp) (by simpa only [due, level, Item.weight, weight] using hc_h1) (hr.sub (h.suffix) (List.suffix_refl _) hs_h1)
    exact .function hk (h.app rest) g_h1
  | @«class» i m j k c hk h h1 ih_h1 =>
    intro hx hc hr
    have := h.depth_eq (0) rfl
    have := h1.depth
    simp only [due, level, Item.weight, weight] at *
    have hc_h1 : level m + due (.cls .optional c) = level j := by simp only [due, level, Item.weight, weight]; omega
    have hs_h1 := h1.some' (by simp) hc_h1
    have g_h1 := ih_h1 (by simp) (by simpa only [due, level, Item.weight, weight] using hc_h1) (hr.sub (h.suffix) (List.suffix_refl _) hs_h1)
    exact .«class» hk (h.app rest) g_h1
  | @template i j k es qs hk h ih_h =>
    intro hx hc hr
    have := h.depth
    simp only [due, level, Item.weight, weight] at *
    have hc_h : level i + due (.template es qs) = level j := by simp only [due, level, Item.weight, weight]; omega
    have hs_h := h.some' (by simp) hc_h
    have g_h := ih_h (by simp) (by simpa only [due, level, Item.weight, weight] using hc_h) (hr.sub (List.suffix_refl _) (List.suffix_refl _) hs_h)
    exact .template hk g_h
  | @paren i m n j k e hk h h1 h2 ih_h1 =>
    intro hx hc hr
    have := h.depth_eq (1) rfl
    have := h1.depth
    have := h2.depth_eq (-1) rfl
    simp only [due, level, Item.weight, weight] at *
    have hc_h1 : level m + due (.whole 0 e) = level n := by simp only [due, level, Item.weight, weight]; omega
    have hs_h1 := h1.some' (by simp) hc_h1
    have g_h1 := ih_h1 (by simp) (by simpa only [due, level, Item.weight, weight] using hc_h1) (hr.sub (h.suffix) (h2.suffix) hs_h1)
    exact .paren hk (h.app rest) g_h1 (h2.app rest)
  | @newTarget i m j k hk h h1  =>
    intro hx hc hr
    have := h.depth_eq (0) rfl
    have := h1.depth_eq (0) rfl
    simp only [due, level, Item.weight, weight] at *
    exact .newTarget hk (h.app rest) (h1.app rest)
  | @member i m j k e w hk h h1 ih_h =>
    intro hx hc hr
    have := h.depth
    have := h1.depth_eq (0) rfl
    simp only [due, level, Item.weight, weight] at *
    have hc_h : level i + due (.expr 17 e) = level m := by simp only [due, level, Item.weight, weight]; omega
    have hs_h := h.some' (by simp) hc_h
    have g_h := ih_h (by simp) (by simpa only [due, level, Item.weight, weight] using hc_h) (hr.sub (List.suffix_refl _) (h1.suffix) hs_h)
    exact .member hk g_h (h1.app rest)
  | @index i m n o j k e p hk h h1 h2 h3 ih_h ih_h2 =>
    intro hx hc hr
    have := h.depth
    have := h1.depth_eq (1) rfl
    have := h2.depth
    have := h3.depth_eq (-1) rfl
    simp only [due, level, Item.weight, weight] at *
    have hc_h : level i + due (.expr 17 e) = level m := by simp only [due, level, Item.weight, weight]; omega
    have hs_h := h.some' (by simp) hc_h
    have hc_h2 : level n + due (.whole 0 p) = level o := by simp only [due, level, Item.weight, weight]; omega
    have hs_h2 := h2.some' (by simp) hc_h2
    have g_h := ih_h (by simp) (by simpa only [due, level, Item.weight, weight] using hc_h) (hr.sub (List.suffix_refl _) (((h3.suffix).trans (h2.suffix)).trans (h1.suffix)) hs_h)
    have g_h2 := ih_h2 (by simp) (by simpa only [due, level, Item.weight, weight] using hc_h2) (hr.sub ((h1.suffix).trans (h.suffix)) (h3.suffix) hs_h2)
    exact .index hk g_h (h1.app rest) g_h2 (h3.app rest)
  | @call i m n o j k e es hk h h1 h2 h3 ih_h ih_h2 =>
    intro hx hc hr
    have := h.depth
    have := h1.depth_eq (1) rfl
    have := h2.depth
    have := h3.depth_eq (-1) rfl
    simp only [due, level, Item.weight, weight] at *
    have hc_h : level i + due (.expr 17 e) = level m := by simp only [due, level, Item.weight, weight]; omega
    have hs_h := h.some' (by simp) hc_h
    have hc_h2 : level n + due (.args es) = level o := by simp only [due, level, Item.weight, weight]; omega
    have hs_h2 := h2.some' (by simp) hc_h2
    have g_h := ih_h (by simp) (by simpa only [due, level, Item.weight, weight] using hc_h) (hr.sub (List.suffix_refl _) (((h3.suffix).trans (h2.suffix)).trans (h1.suffix)) hs_h)
    have g_h2 := ih_h2 (by simp) (by simpa only [due, level, Item.weight, weight] using hc_h2) (hr.sub ((h1.suffix).trans (h.suffix)) (h3.suffix) hs_h2)
    exact .call hk g_h (h1.app rest) g_h2 (h3.app rest)
  | @tagged i m j k e es qs hk h h1 ih_h ih_h1 =>
    intro hx hc hr
    have := h.depth
    have := h1.depth
    simp only [due, level, Item.weight, weight] at *
    have hc_h : level i + due (.expr 17 e) = level m := by simp only [due, level, Item.weight, weight]; omega
    have hs_h := h.some' (by simp) hc_h
    have hc_h1 : level m + due (.template es qs) = level j := by simp only [due, level, Item.weight, weight]; omega
    have hs_h1 := h1.some' (by simp) hc_h1
    have g_h := ih_h (by simp) (by simpa only [due, level, Item.weight, weight] using hc_h) (hr.sub (List.suffix_refl _) (h1.suffix) hs_h)
    have g_h1 := ih_h1 (by simp) (by simpa only [due, level, Item.weight, weight] using hc_h1) (hr.sub (h.suffix) (List.suffix_refl _) hs_h1)
    exact .tagged hk g_h g_h1
  | @«postfix» i j k e t w a op hk h he hop ha ih_h =>
    intro hx hc hr
    have := h.depth
    have := weight_plain (plain_postfix hop)
    simp only [due, level, Item.weight, weight] at *
    have hc_h : level i + due (.expr 17 e) = level (.tok t w a :: j) := by simp only [due, level, Item.weight, weight]; omega
    have hs_h := h.some' (by simp) hc_h
    have g_h := ih_h (by simp) (by simpa only [due, level, Item.weight, weight] using hc_h) (hr.sub (List.suffix_refl _) ((List.suffix_cons _ _)) hs_h)
    exact .«postfix» hk g_h he hop ha
  | @arrow i m n j k e ps b hk h hp h1 hb h2 ih_h ih_h2 =>
    intro hx hc hr
    have := h.depth
    have := h1.depth_eq (0) rfl
    have := h2.depth
    simp only [due, level, Item.weight, weight] at *
    have hc_h : level i + due (.expr 17 e) = level m := by simp only [due, level, Item.weight, weight]; omega
    have hs_h := h.some' (by simp) hc_h
    have hc_h2 : level n + due (.whole 1 b) = level j := by simp only [due, level, Item.weight, weight]; omega
    have hs_h2 := h2.some' (by simp) hc_h2
    have g_h := ih_h (by simp) (by simpa only [due, level, Item.weight, weight] using hc_h) (hr.sub (List.suffix_refl _) ((h2.suffix).trans (h1.suffix)) hs_h)
    have g_h2 := ih_h2 (by simp) (by simpa only [due, level, Item.weight, weight] using hc_h2) (hr.sub ((h1.suffix).trans (h.suffix)) (List.suffix_refl _) hs_h2)
    exact .arrow hk g_h hp (h1.app rest) (by rwa [look_app rest hs_h2]) g_h2
  | @arrowBlock i m n j k e ps b hk h hp h1 h2 ih_h ih_h2 =>
    intro hx hc hr
    have := h.depth
    have := h1.depth_eq (0) rfl
    have := h2.depth
    simp only [due, level, Item.weight, weight] at *
    have hc_h : level i + due (.expr 17 e) = level m := by simp only [due, level, Item.weight, weight]; omega
    have hs_h := h.some' (by simp) hc_h
    have hc_h2 : level n + due (.block b) = level j := by simp only [due, level, Item.weight, weight]; omega
    have hs_h2 := h2.some' (by simp) hc_h2
    have g_h := ih_h (by simp) (by simpa only [due, level, Item.weight, weight] using hc_h) (hr.sub (List.suffix_refl _) ((h2.suffix).trans (h1.suffix)) hs_h)
    have g_h2 := ih_h2 (by simp) (by simpa only [due, level, Item.weight, weight] using hc_h2) (hr.sub ((h1.suffix).trans (h.suffix)) (List.suffix_refl _) hs_h2)
    exact .arrowBlock hk g_h hp (h1.app rest) g_h2
  | @arrow0 i m n o j k b hk h h0 h1 hb h2 ih_h2 =>
    intro hx hc hr
    have := h.depth_eq (1) rfl
    have := h0.depth_eq (-1) rfl
    have := h1.depth_eq (0) rfl
    have := h2.depth
    simp only [due, level, Item.weight, weight] at *
    have hc_h2 : level o + due (.whole 1 b) = level j := by simp only [due, level, Item.weight, weight]; omega
    have hs_h2 := h2.some' (by simp) hc_h2
    have g_h2 := ih_h2 (by simp) (by simpa only [due, level, Item.weight, weight] using hc_h2) (hr.sub (((h1.suffix).trans (h0.suffix)).trans (h.suffix)) (List.suffix_refl _) hs_h2)
    exact .arrow0 hk (h.app rest) (h0.app rest) (h1.app rest) (by rwa [look_app rest hs_h2]) g_h2
  | @arrowBlock0 i m n o j k b hk h h0 h1 h2 ih_h2 =>
    intro hx hc hr
    have := h.depth_eq (1) rfl
    have := h0.depth_eq (-1) rfl
    have := h1.depth_eq (0) rfl
    have := h2.depth
    simp only [due, level, Item.weight, weight] at *
    have hc_h2 : level o + due (.block b) = level j := by simp only [due, level, Item.weight, weight]; omega
    have hs_h2 := h2.some' (by simp) hc_h2
    have g_h2 := ih_h2 (by simp) (by simpa only [due, level, Item.weight, weight] using hc_h2) (hr.sub (((h1.suffix).trans (h0.suffix)).trans (h.suffix)) (List.suffix_refl _) hs_h2)
    exact .arrowBlock0 hk (h.app rest) (h0.app rest) (h1.app rest) g_h2
  | @«prefix» i m j k t op e hk h hop h1 ih_h1 =>
    intro hx hc hr
    have := h.depth_plain (plain_prefix hop)
    have := h1.depth
    simp only [due, level, Item.weight, weight] at *
    have hc_h1 : level m + due (.whole 16 e) = level j := by simp only [due, level, Item.weight, weight]; omega
    have hs_h1 := h1.some' (by simp) hc_h1
    have g_h1 := ih_h1 (by simp) (by simpa only [due, level, Item.weight, weight] using hc_h1) (hr.sub (h.suffix) (List.suffix_refl _) hs_h1)
    exact .«prefix» hk (h.app rest) hop g_h1
  | @new i m j k e hk h hm h1 ih_h1 =>
    intro hx hc hr
    have := h.depth_eq (0) rfl
    have := h1.depth
    simp only [due, level, Item.weight, weight] at *
    have hc_h1 : level m + due (.whole 16 e) = level j := by simp only [due, level, Item.weight, weight]; omega
    have hs_h1 := h1.some' (by simp) hc_h1
    have g_h1 := ih_h1 (by simp) (by simpa only [due, level, Item.weight, weight] using hc_h1) (hr.sub (h.suffix) (List.suffix_refl _) hs_h1)
    exact .new hk (h.app rest) (by rwa [look_app rest hs_h1]) g_h1
  | @binary i m n j k t op p a b hop hk h h1 h2 ih_h ih_h2 =>
    intro hx hc hr
    have := h.depth
    have := h1.depth_plain (plain_binary hop)
    have := h2.depth
    simp only [due, level, Item.weight, weight] at *
    have hc_h : level i + due (.expr p a) = level m := by simp only [due, level, Item.weight, weight]; omega
    have hs_h := h.some' (by simp) hc_h
    have hc_h2 : level n + due (.whole (p + 1) b) = level j := by simp only [due, level, Item.weight, weight]; omega
    have hs_h2 := h2.some' (by simp) hc_h2
    have g_h := ih_h (by simp) (by simpa only [due, level, Item.weight, weight] using hc_h) (hr.sub (List.suffix_refl _) ((h2.suffix).trans (h1.suffix)) hs_h)
    have g_h2 := ih_h2 (by simp) (by simpa only [due, level, Item.weight, weight] using hc_h2) (hr.sub ((h1.suffix).trans (h.suffix)) (List.suffix_refl _) hs_h2)
    exact .binary hop hk g_h (h1.app rest) g_h2
  | @cond i m n o q j k a b c hk h h1 h2 h3 h4 ih_h ih_h2 ih_h4 =>
    intro hx hc hr
    have := h.depth
    have := h1.depth_eq (0) rfl
    have := h2.depth
    have := h3.depth_eq (0) rfl
    have := h4.depth
    simp only [due, level, Item.weight, weight] at *
    have hc_h : level i + due (.expr 5 a) = level m := by simp only [due, level, Item.weight, weight]; omega
    have hs_h := h.some' (by simp) hc_h
    have hc_h2 : level n + due (.whole 1 b) = level o := by simp only [due, level, Item.weight, weight]; omega
    have hs_h2 := h2.some' (by simp) hc_h2
    have hc_h4 : level q + due (.whole 1 c) = level j := by simp only [due, level, Item.weight, weight]; omega
    have hs_h4 := h4.some' (by simp) hc_h4
    have g_h := ih_h (by simp) (by simpa only [due, level, Item.weight, weight] using hc_h) (hr.sub (List.suffix_refl _) ((((h4.suffix).trans (h3.suffix)).trans (h2.suffix)).trans (h1.suffix)) hs_h)
    have g_h2 := ih_h2 (by simp) (by simpa only [due, level, Item.weight, weight] using hc_h2) (hr.sub ((h1.suffix).trans (h.suffix)) ((h4.suffix).trans (h3.suffix)) hs_h2)
    have g_h4 := ih_h4 (by simp) (by simpa only [due, level, Item.weight, weight] using hc_h4) (hr.sub ((((h3.suffix).trans (h2.suffix)).trans (h1.suffix)).trans (h.suffix)) (List.suffix_refl _) hs_h4)
    exact .cond hk g_h (h1.app rest) g_h2 (h3.app rest) g_h4
  | @assign i m n j k t op a b hk h ha h1 hop h2 ih_h ih_h2 =>
    intro hx hc hr
    have := h.depth
    have := h1.depth_plain (plain_assign hop)
    have := h2.depth
    simp only [due, level, Item.weight, weight] at *
    have hc_h : level i + due (.expr 17 a) = level m := by simp only [due, level, Item.weight, weight]; omega
    have hs_h := h.some' (by simp) hc_h
    have hc_h2 : level n + due (.whole 1 b) = level j := by simp only [due, level, Item.weight, weight]; omega
    have hs_h2 := h2.some' (by simp) hc_h2
    have g_h := ih_h (by simp) (by simpa only [due, level, Item.weight, weight] using hc_h) (hr.sub (List.suffix_refl _) ((h2.suffix).trans (h1.suffix)) hs_h)
    have g_h2 := ih_h2 (by simp) (by simpa only [due, level, Item.weight, weight] using hc_h2) (hr.sub ((h1.suffix).trans (h.suffix)) (List.suffix_refl _) hs_h2)
    exact .assign hk g_h ha (h1.app rest) hop g_h2
  | @comma i m n j a es h h1 h2 ih_h ih_h2 =>
    intro hx hc hr
    have := h.depth
    have := h1.depth_eq (0) rfl
    have := h2.depth
    simp only [due, level, Item.weight, weight] at *
    have hc_h : level i + due (.expr 1 a) = level m := by simp only [due, level, Item.weight, weight]; omega
    have hs_h := h.some' (by simp) hc_h
    have hc_h2 : level n + due (.commaTail es) = level j := by simp only [due, level, Item.weight, weight]; omega
    have hs_h2 := h2.some' (by simp) hc_h2
    have g_h := ih_h (by simp) (by simpa only [due, level, Item.weight, weight] using hc_h) (hr.sub (List.suffix_refl _) ((h2.suffix).trans (h1.suffix)) hs_h)
    have g_h2 := ih_h2 (by simp) (by simpa only [due, level, Item.weight, weight] using hc_h2) (hr.sub ((h1.suffix).trans (h.suffix)) (List.suffix_refl _) hs_h2)
    exact .comma g_h (h1.app rest) g_h2
  | @commaLast i j e h h' ih_h =>
    intro hx hc hr
    have := h.depth
    simp only [due, level, Item.weight, weight] at *
    have hc_h : level i + due (.whole 1 e) = level j := by simp only [due, level, Item.weight, weight]; omega
    have hs_h := h.some' (by simp) hc_h
    have g_h := ih_h (by simp) (by simpa only [due, level, Item.weight, weight] using hc_h) (hr.sub (List.suffix_refl _) (List.suffix_refl _) hs_h)
    exact .commaLast g_h (hr.look (fun e => EndsSemi.not_of_suffix (List.suffix_refl _) hs_h (h.last rfl e hc_h)) h' (fun s => s.not (by simp)))
  | @commaMore i m n j e es h h1 h2 ih_h ih_h2 =>
    intro hx hc hr
    have := h.depth
    have := h1.depth_eq (0) rfl
    have := h2.depth
    simp only [due, level, Item.weight, weight] at *
    have hc_h : level i + due (.whole 1 e) = level m := by simp only [due, level, Item.weight, weight]; omega
    have hs_h := h.some' (by simp) hc_h
    have hc_h2 : level n + due (.commaTail es) = level j := by simp only [due, level, Item.weight, weight]; omega
    have hs_h2 := h2.some' (by simp) hc_h2
    have g_h := ih_h (by simp) (by simpa only [due, level, Item.weight, weight] using hc_h) (hr.sub (List.suffix_refl _) ((h2.suffix).trans (h1.suffix)) hs_h)
    have g_h2 := ih_h2 (by simp) (by simpa only [due, level, Item.weight, weight] using hc_h2) (hr.sub ((h1.suffix).trans (h.suffix)) (List.suffix_refl _) hs_h2)
    exact .commaMore g_h (h1.app rest) g_h2
  | @arg i j e h ih_h =>
    intro hx hc hr
    have := h.depth
    simp only [due, level, Item.weight, weight] at *
    have hc_h : level i + due (.whole 1 e) = level j := by simp only [due, level, Item.weight, weight]; omega
    have hs_h := h.some' (by simp) hc_h
    have g_h := ih_h (by simp) (by simpa only [due, level, Item.weight, weight] using hc_h) (hr.sub (List.suffix_refl _) (List.suffix_refl _) hs_h)
    exact .arg g_h
  | @argSpread i m j e h h1 ih_h1 =>
    intro hx hc hr
    have := h.depth_eq (0) rfl
    have := h1.depth
    simp only [due, level, Item.weight, weight] at *
    have hc_h1 : level m + due (.whole 1 e) = level j := by simp only [due, level, Item.weight, weight]; omega
    have hs_h1 := h1.some' (by simp) hc_h1
    have g_h1 := ih_h1 (by simp) (by simpa only [due, level, Item.weight, weight] using hc_h1) (hr.sub (h.suffix) (List.suffix_refl _) hs_h1)
    exact .argSpread (h.app rest) g_h1
  | @argsNone j h  =>
    intro hx hc hr
    simp only [due, level, Item.weight, weight] at *
    exact .argsNone (look_pos0 rest h)
  | @argsLast i j e h h' ih_h =>
    intro hx hc hr
    have := h.depth
    simp only [due, level, Item.weight, weight] at *
    have hc_h : level i + due (.arg e) = level j := by simp only [due, level, Item.weight, weight]; omega
    have hs_h := h.some' (by simp) hc_h
    have g_h := ih_h (by simp) (by simpa only [due, level, Item.weight, weight] using hc_h) (hr.sub (List.suffix_refl _) (List.suffix_refl _) hs_h)
    exact .argsLast g_h (look_pos0 rest h')
  | @argsMore i m n j e es h h1 h2 ih_h ih_h2 =>
    intro hx hc hr
    have := h.depth
    have := h1.depth_eq (0) rfl
    have := h2.depth
    simp only [due, level, Item.weight, weight] at *
    have hc_h : level i + due (.arg e) = level m := by simp only [due, level, Item.weight, weight]; omega
    have hs_h := h.some' (by simp) hc_h
    have hc_h2 : level n + due (.args es) = level j := by simp only [due, level, Item.weight, weight]; omega
    have hs_h2 := h2.some' (by simp) hc_h2
    have g_h := ih_h (by simp) (by simpa only [due, level, Item.weight, weight] using hc_h) (hr.sub (List.suffix_refl _) ((h2.suffix).trans (h1.suffix)) hs_h)
    have g_h2 := ih_h2 (by simp) (by simpa only [due, level, Item.weight, weight] using hc_h2) (hr.sub ((h1.suffix).trans (h.suffix)) (List.suffix_refl _) hs_h2)
    exact .argsMore g_h (h1.app rest) g_h2
  | @elem i j e h ih_h =>
    intro hx hc hr
    have := h.depth
    simp only [due, level, Item.weight, weight] at *
    have hc_h : level i + due (.whole 1 e) = level j := by simp only [due, level, Item.weight, weight]; omega
    have hs_h := h.some' (by simp) hc_h
    have g_h := ih_h (by simp) (by simpa only [due, level, Item.weight, weight] using hc_h) (hr.sub (List.suffix_refl _) (List.suffix_refl _) hs_h)
    exact .elem g_h
  | @elemSpread i m j e h h1 ih_h1 =>
    intro hx hc hr
    have := h.depth_eq (0) rfl
    have := h1.depth
    simp only [due, level, Item.weight, weight] at *
    have hc_h1 : level m + due (.whole 1 e) = level j := by simp only [due, level, Item.weight, weight]; omega
    have hs_h1 := h1.some' (by simp) hc_h1
    have g_h1 := ih_h1 (by simp) (by simpa only [due, level, Item.weight, weight] using hc_h1) (hr.sub (h.suffix) (List.suffix_refl _) hs_h1)
    exact .elemSpread (h.app rest) g_h1
  | @elemHole j h  =>
    intro hx hc hr
    simp only [due, level, Item.weight, weight] at *
    exact .elemHole (look_pos1 rest h)
  | @elemsLast i j e h h' ih_h =>
    intro hx hc hr
    have := h.depth
    simp only [due, level, Item.weight, weight] at *
    have hc_h : level i + due (.elem e) = level j := by simp only [due, level, Item.weight, weight]; omega
    have hs_h := h.some' (by simp) hc_h
    have g_h := ih_h (by simp) (by simpa only [due, level, Item.weight, weight] using hc_h) (hr.sub (List.suffix_refl _) (List.suffix_refl _) hs_h)
    exact .elemsLast g_h (look_pos0 rest h')
  | @elemsMore i m n j e es h h1 h2 ih_h ih_h2 =>
    intro hx hc hr
    have := h.depth
    have := h1.depth_eq (0) rfl
    have := h2.depth
    simp only [due, level, Item.weight, weight] at *
    have hc_h : level i + due (.elem e) = level m := by simp only [due, level, Item.weight, weight]; omega
    have hs_h := h.some' (by simp) hc_h
    have hc_h2 : level n + due (.elems es) = level j := by simp only [due, level, Item.weight, weight]; omega
    have hs_h2 := h2.some' (by simp) hc_h2
    have g_h := ih_h (by simp) (by simpa only [due, level, Item.weight, weight] using hc_h) (hr.sub (List.suffix_refl _) ((h2.suffix).trans (h1.suffix)) hs_h)
    have g_h2 := ih_h2 (by simp) (by simpa only [due, level, Item.weight, weight] using hc_h2) (hr.sub ((h1.suffix).trans (h.suffix)) (List.suffix_refl _) hs_h2)
    exact .elemsMore g_h (h1.app rest) g_h2
  | @templateClosed i j w h  =>
    intro hx hc hr
    have := h.depth_eq (0) rfl
    simp only [due, level, Item.weight, weight] at *
    exact .templateClosed (h.app rest)
  | @templateOpen i m n j w e es qs h h1 h2 ih_h1 ih_h2 =>
    intro hx hc hr
    have := h.depth_eq (1) rfl
    have := h1.depth
    have := h2.depth
    simp only [due, level, Item.weight, weight] at *
    have hc_h1 : level m + due (.whole 0 e) = level n := by simp only [due, level, Item.weight, weight]; omega
    have hs_h1 := h1.some' (by simp) hc_h1
    have hc_h2 : level n + due (.templateTail es qs) = level j := by simp only [due, level, Item.weight, weight]; omega
    have hs_h2 := h2.some' (by simp) hc_h2
    have g_h1 := ih_h1 (by simp) (by simpa only [due, level, Item.weight, weight] using hc_h1) (hr.sub (h.suffix) (h2.suffix) hs_h1)
    have g_h2 := ih_h2 (by simp) (by simpa only [due, level, Item.weight, weight] using hc_h2) (hr.sub ((h1.suffix).trans (h.suffix)) (List.suffix_refl _) hs_h2)
    exact .templateOpen (h.app rest) g_h1 g_h2
  | @templateEnd j w  =>
    intro hx hc hr
    simp only [due, level, Item.weight, weight] at *
    exact .templateEnd 
  | @templateMore m n j w e es qs h1 h2 ih_h1 ih_h2 =>
    intro hx hc hr
    have := h1.depth
    have := h2.depth
    simp only [due, level, Item.weight, weight] at *
    have hc_h1 : level m + due (.whole 0 e) = level n := by simp only [due, level, Item.weight, weight]; omega
    have hs_h1 := h1.some' (by simp) hc_h1
    have hc_h2 : level n + due (.templateTail es qs) = level j := by simp only [due, level, Item.weight, weight]; omega
    have hs_h2 := h2.some' (by simp) hc_h2
    have g_h1 := ih_h1 (by simp) (by simpa only [due, level, Item.weight, weight] using hc_h1) (hr.sub ((List.suffix_cons _ _)) (h2.suffix) hs_h1)
    have g_h2 := ih_h2 (by simp) (by simpa only [due, level, Item.weight, weight] using hc_h2) (hr.sub ((h1.suffix).trans ((List.suffix_cons _ _))) (List.suffix_refl _) hs_h2)
    exact .templateMore g_h1 g_h2
  | @shorthand i j t w h ht h1 h2  =>
    intro hx hc hr
    have := h.depth_plain (plain_word ht)
    simp only [due, level, Item.weight, weight] at *
    exact .shorthand (h.app rest) ht (hr.look (fun e => EndsSemi.not_of_suffix (List.suffix_refl _) h.some (h.last (word_semi ht) e)) h1 (fun s => s.not (by simp))) (hr.look (fun e => EndsSemi.not_of_suffix (List.suffix_refl _) h.some (h.last (word_semi ht) e)) h2 (fun s => s.not (by simp)))
  | @propWord i m j t w p h ht h1 ih_h1 =>
    intro hx hc hr
    have := h.depth_plain (plain_word ht)
    have := h1.depth
    simp only [due, level, Item.weight, weight] at *
    have hc_h1 : level m + due (.propValue (.literal z w) p) = level j := by simp only [due, level, Item.weight, weight]; omega
    have hs_h1 := h1.some' (by simp) hc_h1
    have g_h1 := ih_h1 (by simp) (by simpa only [due, level, Item.weight, weight] using hc_h1) (hr.sub (h.suffix) (List.suffix_refl _) hs_h1)
    exact .propWord (h.app rest) ht g_h1
  | @propLiteral i m j t w p h ht h1 ih_h1 =>
    intro hx hc hr
    have := h.depth_plain (plain_two ht)
    have := h1.depth
    simp only [due, level, Item.weight, weight] at *
    have hc_h1 : level m + due (.propValue (.literal z w) p) = level j := by simp only [due, level, Item.weight, weight]; omega
    have hs_h1 := h1.some' (by simp) hc_h1
    have g_h1 := ih_h1 (by simp) (by simpa only [due, level, Item.weight, weight] using hc_h1) (hr.sub (h.suffix) (List.suffix_refl _) hs_h1)
    exact .propLiteral (h.app rest) ht g_h1
  | @propBinary i m j w p h h1 ih_h1 =>
    intro hx hc hr
    have := h.depth_eq (0) rfl
    have := h1.depth
    simp only [due, level, Item.weight, weight] at *
    have hc_h1 : level m + due (.propValue (.binary z w) p) = level j := by simp only [due, level, Item.weight, weight]; omega
    have hs_h1 := h1.some' (by simp) hc_h1
    have g_h1 := ih_h1 (by simp) (by simpa only [due, level, Item.weight, weight] using hc_h1) (hr.sub (h.suffix) (List.suffix_refl _) hs_h1)
    exact .propBinary (h.app rest) g_h1
  | @propComputed i m n o j e p h h1 h2 h3 ih_h1 ih_h3 =>
    intro hx hc hr
    have := h.depth_eq (1) rfl
    have := h1.depth
    have := h2.depth_eq (-1) rfl
    have := h3.depth
    simp only [due, level, Item.weight, weight] at *
    have hc_h1 : level m + due (.whole 0 e) = level n := by simp only [due, level, Item.weight, weight]; omega
    have hs_h1 := h1.some' (by simp) hc_h1
    have hc_h3 : level o + due (.propValue (.computed z e) p) = level j := by simp only [due, level, Item.weight, weight]; omega
    have hs_h3 := h3.some' (by simp) hc_h3
    have g_h1 := ih_h1 (by simp) (by simpa only [due, level, Item.weight, weight] using hc_h1) (hr.sub (h.suffix) ((h3.suffix).trans (h2.suffix)) hs_h1)
    have g_h3 := ih_h3 (by simp) (by simpa only [due, level, Item.weight, weight] using hc_h3) (hr.sub (((h2.suffix).trans (h1.suffix)).trans (h.suffix)) (List.suffix_refl _) hs_h3)
    exact .propComputed (h.app rest) g_h1 (h2.app rest) g_h3
  | @propSpread i m j e h h1 ih_h1 =>
    intro hx hc hr
    have := h.depth_eq (0) rfl
    have := h1.depth
    simp only [due, level, Item.weight, weight] at *
    have hc_h1 : level m + due (.whole 1 e) = level j := by simp only [due, level, Item.weight, weight]; omega
    have hs_h1 := h1.some' (by simp) hc_h1
    have g_h1 := ih_h1 (by simp) (by simpa only [due, level, Item.weight, weight] using hc_h1) (hr.sub (h.suffix) (List.suffix_refl _) hs_h1)
    exact .propSpread (h.app rest) g_h1
  | @propField i m j k e h h1 ih_h1 =>
    intro hx hc hr
    have := h.depth_eq (0) rfl
    have := h1.depth
    simp only [due, level, Item.weight, weight] at *
    have hc_h1 : level m + due (.whole 1 e) = level j := by simp only [due, level, Item.weight, weight]; omega
    have hs_h1 := h1.some' (by simp) hc_h1
    have g_h1 := ih_h1 (by simp) (by simpa only [due, level, Item.weight, weight] using hc_h1) (hr.sub (h.suffix) (List.suffix_refl _) hs_h1)
    exact .propField (h.app rest) g_h1
  | @propMethod i j k f h h1 ih_h1 =>
    intro hx hc hr
    have := h1.depth
    simp only [due, level, Item.weight, weight] at *
    have hc_h1 : level i + due (.func .never f) = level j := by simp only [due, level, Item.weight, weight]; omega
    have hs_h1 := h1.some' (by simp) hc_h1
    have g_h1 := ih_h1 (by simp) (by simpa only [due, level, Item.weight, weight] using hc_h1) (hr.sub (List.suffix_refl _) (List.suffix_refl _) hs_h1)
    exact .propMethod (look_pos0 rest h) g_h1
  | @propsNone j h  =>
    intro hx hc hr
    simp only [due, level, Item.weight, weight] at *
    exact .propsNone (look_pos0 rest h)
  | @propsLast i j p h h' ih_h =>
    intro hx hc hr
    have := h.depth
    simp only [due, level, Item.weight, weight] at *
    have hc_h : level i + due (.prop p) = level j := by simp only [due, level, Item.weight, weight]; omega
    have hs_h := h.some' (by simp) hc_h
    have g_h := ih_h (by simp) (by simpa only [due, level, Item.weight, weight] using hc_h) (hr.sub (List.suffix_refl _) (List.suffix_refl _) hs_h)
    exact .propsLast g_h (look_pos0 rest h')
  | @propsMore i m n j p ps h h1 h2 ih_h ih_h2 =>
    intro hx hc hr
    have := h.depth
    have := h1.depth_eq (0) rfl
    have := h2.depth
    simp only [due, level, Item.weight, weight] at *
    have hc_h : level i + due (.prop p) = level m := by simp only [due, level, Item.weight, weight]; omega
    have hs_h := h.some' (by simp) hc_h
    have hc_h2 : level n + due (.props ps) = level j := by simp only [due, level, Item.weight, weight]; omega
    have hs_h2 := h2.some' (by simp) hc_h2
    have g_h := ih_h (by simp) (by simpa only [due, level, Item.weight, weight] using hc_h) (hr.sub (List.suffix_refl _) ((h2.suffix).trans (h1.suffix)) hs_h)
    have g_h2 := ih_h2 (by simp) (by simpa only [due, level, Item.weight, weight] using hc_h2) (hr.sub ((h1.suffix).trans (h.suffix)) (List.suffix_refl _) hs_h2)
    exact .propsMore g_h (h1.app rest) g_h2
  | @patIdent i j w h  =>
    intro hx hc hr
    have := h.depth_eq (0) rfl
    simp only [due, level, Item.weight, weight] at *
    exact .patIdent (h.app rest)
  | @patArray i m n j ps h h0 h1 h2 ih_h1 =>
    intro hx hc hr
    have := h.depth_eq (1) rfl
    have := h1.depth
    have := h2.depth_eq (-1) rfl
    simp only [due, level, Item.weight, weight] at *
    have hc_h1 : level m + due (.patElems ps) = level n := by simp only [due, level, Item.weight, weight]; omega
    have hs_h1 := h1.some' (by simp) hc_h1
    have g_h1 := ih_h1 (by simp) (by simpa only [due, level, Item.weight, weight] using hc_h1) (hr.sub (h.suffix) (h2.suffix) hs_h1)
    exact .patArray (h.app rest) (by rwa [look_app rest hs_h1]) g_h1 (h2.app rest)
  | @patEmptyArray i m j h h2  =>
    intro hx hc hr
    have := h.depth_eq (1) rfl
    have := h2.depth_eq (-1) rfl
    simp only [due, level, Item.weight, weight] at *
    exact .patEmptyArray (h.app rest) (h2.app rest)
  | @patObject i m n j ps h h1 h2 ih_h1 =>
    intro hx hc hr
    have := h.depth_eq (1) rfl
    have := h1.depth
    have := h2.depth_eq (-1) rfl
    simp only [due, level, Item.weight, weight] at *
    have hc_h1 : level m + due (.props ps) = level n := by simp only [due, level, Item.weight, weight]; omega
    have hs_h1 := h1.some' (by simp) hc_h1
    have g_h1 := ih_h1 (by simp) (by simpa only [due, level, Item.weight, weight] using hc_h1) (hr.sub (h.suffix) (h2.suffix) hs_h1)
    exact .patObject (h.app rest) g_h1 (h2.app rest)
  | @param i j p h h' ih_h =>
    intro hx hc hr
    have := h.depth
    simp only [due, level, Item.weight, weight] at *
    have hc_h : level i + due (.pat p) = level j := by simp only [due, level, Item.weight, weight]; omega
    have hs_h := h.some' (by simp) hc_h
    have g_h := ih_h (by simp) (by simpa only [due, level, Item.weight, weight] using hc_h) (hr.sub (List.suffix_refl _) (List.suffix_refl _) hs_h)
    exact .param g_h (hr.look (fun e => EndsSemi.not_of_suffix (List.suffix_refl _) hs_h (h.last rfl e hc_h)) h' (fun s => s.not (by simp)))
  | @paramDefault i m n j p e h h1 h2 ih_h ih_h2 =>
    intro hx hc hr
    have := h.depth
    have := h1.depth_eq (0) rfl
    have := h2.depth
    simp only [due, level, Item.weight, weight] at *
    have hc_h : level i + due (.pat p) = level m := by simp only [due, level, Item.weight, weight]; omega
    have hs_h := h.some' (by simp) hc_h
    have hc_h2 : level n + due (.whole 1 e) = level j := by simp only [due, level, Item.weight, weight]; omega
    have hs_h2 := h2.some' (by simp) hc_h2
    have g_h := ih_h (by simp) (by simpa only [due, level, Item.weight, weight] using hc_h) (hr.sub (List.suffix_refl _) ((h2.suffix).trans (h1.suffix)) hs_h)
    have g_h2 := ih_h2 (by simp) (by simpa only [due, level, Item.weight, weight] using hc_h2) (hr.sub ((h1.suffix).trans (h.suffix)) (List.suffix_refl _) hs_h2)
    exact .paramDefault g_h (h1.app rest) g_h2
  | @patElem i j p h ih_h =>
    intro hx hc hr
    have := h.depth
    simp only [due, level, Item.weight, weight] at *
    have hc_h : level i + due (.param p) = level j := by simp only [due, level, Item.weight, weight]; omega
    have hs_h := h.some' (by simp) hc_h
    have g_h := ih_h (by simp) (by simpa only [due, level, Item.weight, weight] using hc_h) (hr.sub (List.suffix_refl _) (List.suffix_refl _) hs_h)
    exact .patElem g_h
  | @patHole j h  =>
    intro hx hc hr
    simp only [due, level, Item.weight, weight] at *
    exact .patHole (look_pos1 rest h)
  | @patElemsLast i j p h h' ih_h =>
    intro hx hc hr
    have := h.depth
    simp only [due, level, Item.weight, weight] at *
    have hc_h : level i + due (.patElem p) = level j := by simp only [due, level, Item.weight, weight]; omega
    have hs_h := h.some' (by simp) hc_h
    have g_h := ih_h (by simp) (by simpa only [due, level, Item.weight, weight] using hc_h) (hr.sub (List.suffix_refl _) (List.suffix_refl _) hs_h)
    exact .patElemsLast g_h (look_pos0 rest h')
  | @patElemsMore i m n j p ps h h1 h2 ih_h ih_h2 =>
    intro hx hc hr
    have := h.depth
    have := h1.depth_eq (0) rfl
    have := h2.depth
    simp only [due, level, Item.weight, weight] at *
    have hc_h : level i + due (.patElem p) = level m := by simp only [due, level, Item.weight, weight]; omega
    have hs_h := h.some' (by simp) hc_h
    have hc_h2 : level n + due (.patElems ps) = level j := by simp only [due, level, Item.weight, weight]; omega
    have hs_h2 := h2.some' (by simp) hc_h2
    have g_h := ih_h (by simp) (by simpa only [due, level, Item.weight, weight] using hc_h) (hr.sub (List.suffix_refl _) ((h2.suffix).trans (h1.suffix)) hs_h)
    have g_h2 := ih_h2 (by simp) (by simpa only [due, level, Item.weight, weight] using hc_h2) (hr.sub ((h1.suffix).trans (h.suffix)) (List.suffix_refl _) hs_h2)
    exact .patElemsMore g_h (h1.app rest) g_h2
  | @paramsNone i j h  =>
    intro hx hc hr
    have := h.depth_eq (-1) rfl
    simp only [due, level, Item.weight, weight] at *
    exact .paramsNone (h.app rest)
  | @paramsRest i m n j w h h1 h2  =>
    intro hx hc hr
    have := h.depth_eq (0) rfl
    have := h1.depth_eq (0) rfl
    have := h2.depth_eq (-1) rfl
    simp only [due, level, Item.weight, weight] at *
    exact .paramsRest (h.app rest) (h1.app rest) (h2.app rest)
  | @paramsLast i m j p h h1 ih_h =>
    intro hx hc hr
    have := h.depth
    have := h1.depth_eq (-1) rfl
    simp only [due, level, Item.weight, weight] at *
    have hc_h : level i + due (.param p) = level m := by simp only [due, level, Item.weight, weight]; omega
    have hs_h := h.some' (by simp) hc_h
    have g_h := ih_h (by simp) (by simpa only [due, level, Item.weight, weight] using hc_h) (hr.sub (List.suffix_refl _) (h1.suffix) hs_h)
    exact .paramsLast g_h (h1.app rest)
  | @paramsMore i m n j p ps h h1 h2 ih_h ih_h2 =>
    intro hx hc hr
    have := h.depth
    have := h1.depth_eq (0) rfl
    have := h2.depth
    simp only [due, level, Item.weight, weight] at *
    have hc_h : level i + due (.param p) = level m := by simp only [due, level, Item.weight, weight]; omega
    have hs_h := h.some' (by simp) hc_h
    have hc_h2 : level n + due (.params ps) = level j := by simp only [due, level, Item.weight, weight]; omega
    have hs_h2 := h2.some' (by simp) hc_h2
    have g_h := ih_h (by simp) (by simpa only [due, level, Item.weight, weight] using hc_h) (hr.sub (List.suffix_refl _) ((h2.suffix).trans (h1.suffix)) hs_h)
    have g_h2 := ih_h2 (by simp) (by simpa only [due, level, Item.weight, weight] using hc_h2) (hr.sub ((h1.suffix).trans (h.suffix)) (List.suffix_refl _) hs_h2)
    exact .paramsMore g_h (h1.app rest) g_h2
  | @func i m n o q j nk g nm ps b h h1 h2 h3 h4 ih_h3 ih_h4 =>
    intro hx hc hr
    have := h.depth
    have := h1.depth
    have := h2.depth_eq (1) rfl
    have := h3.depth
    have := h4.depth
    simp only [due, level, Item.weight, weight] at *
    have hc_h3 : level o + due (.params ps) = level q := by simp only [due, level, Item.weight, weight]; omega
    have hs_h3 := h3.some' (by simp) hc_h3
    have hc_h4 : level q + due (.block b) = level j := by simp only [due, level, Item.weight, weight]; omega
    have hs_h4 := h4.some' (by simp) hc_h4
    have g_h3 := ih_h3 (by simp) (by simpa only [due, level, Item.weight, weight] using hc_h3) (hr.sub (((h2.suffix).trans (h1.suffix)).trans (h.suffix)) (h4.suffix) hs_h3)
    have g_h4 := ih_h4 (by simp) (by simpa only [due, level, Item.weight, weight] using hc_h4) (hr.sub ((((h3.suffix).trans (h2.suffix)).trans (h1.suffix)).trans (h.suffix)) (List.suffix_refl _) hs_h4)
    exact .func (h.app rest (suffix_some (h1.suffix) h2.some)) (h1.app rest h2.some) (h2.app rest) g_h3 g_h4
  | @cls i m n j nk nm ms h h1 h2 h0 ih_h2 =>
    intro hx hc hr
    have := h.depth
    have := h1.depth_eq (1) rfl
    have := h2.depth
    simp only [due, level, Item.weight, weight] at *
    have hc_h2 : level n + due (.membersTail ms) = level j := by simp only [due, level, Item.weight, weight]; omega
    have hs_h2 := h2.some' (by simp) hc_h2
    have g_h2 := ih_h2 (by simp) (by simpa only [due, level, Item.weight, weight] using hc_h2) (hr.sub ((h1.suffix).trans (h.suffix)) (List.suffix_refl _) hs_h2)
    exact .cls (h.app rest h1.some) (h1.app rest) g_h2 (fun e e2 => h0 e (List.append_eq_nil_iff.1 e2).1)
  | @clsExtends i m n o q j nk nm e ms h h1 h2 h3 h4 h0 ih_h2 ih_h4 =>
    intro hx hc hr
    have := h.depth
    have := h1.depth_eq (0) rfl
    have := h2.depth
    have := h3.depth_eq (1) rfl
    have := h4.depth
    simp only [due, level, Item.weight, weight] at *
    have hc_h2 : level n + due (.whole 1 e) = level o := by simp only [due, level, Item.weight, weight]; omega
    have hs_h2 := h2.some' (by simp) hc_h2
    have hc_h4 : level q + due (.membersTail ms) = level j := by simp only [due, level, Item.weight, weight]; omega
    have hs_h4 := h4.some' (by simp) hc_h4
    have g_h2 := ih_h2 (by simp) (by simpa only [due, level, Item.weight, weight] using hc_h2) (hr.sub ((h1.suffix).trans (h.suffix)) ((h4.suffix).trans (h3.suffix)) hs_h2)
    have g_h4 := ih_h4 (by simp) (by simpa only [due, level, Item.weight, weight] using hc_h4) (hr.sub ((((h3.suffix).trans (h2.suffix)).trans (h1.suffix)).trans (h.suffix)) (List.suffix_refl _) hs_h4)
    exact .clsExtends (h.app rest h1.some) (h1.app rest) g_h2 (h3.app rest) g_h4 (fun e e2 => h0 e (List.append_eq_nil_iff.1 e2).1)
  | @memberWord i m n j s t w x h h1 ht hn h2 ih_h2 =>
    intro hx hc hr
    have := h.depth
    have := h1.depth_plain (plain_word ht)
    have := h2.depth
    simp only [due, level, Item.weight, weight] at *
    have hc_h2 : level n + due (.memberValue s (if s = false ∧ w = bs!"constructor" then .Constructor else .Method) (.literal z w) x) = level j := by simp only [due, level, Item.weight, weight]; omega
    have hs_h2 := h2.some' (by simp) hc_h2
    have g_h2 := ih_h2 (by simp) (by simpa only [due, level, Item.weight, weight] using hc_h2) (hr.sub ((h1.suffix).trans (h.suffix)) (List.suffix_refl _) hs_h2)
    exact .memberWord (h.app rest h1.some) (h1.app rest) ht (by rwa [look_app rest hs_h2]) g_h2
  | @memberGet i m n o j s t t' w x h h1 ht h2 ht' h3 ih_h3 =>
    intro hx hc hr
    have := h.depth
    have := h1.depth_plain (plain_word ht)
    have := h2.depth_plain (plain_word ht')
    have := h3.depth
    simp only [due, level, Item.weight, weight] at *
    have hc_h3 : level o + due (.memberValue s .Get (.literal z w) x) = level j := by simp only [due, level, Item.weight, weight]; omega
    have hs_h3 := h3.some' (by simp) hc_h3
    have g_h3 := ih_h3 (by simp) (by simpa only [due, level, Item.weight, weight] using hc_h3) (hr.sub (((h2.suffix).trans (h1.suffix)).trans (h.suffix)) (List.suffix_refl _) hs_h3)
    exact .memberGet (h.app rest h1.some) (h1.app rest) ht (h2.app rest) ht' g_h3
  | @memberSet i m n o j s t t' w x h h1 ht h2 ht' h3 ih_h3 =>
    intro hx hc hr
    have := h.depth
    have := h1.depth_plain (plain_word ht)
    have := h2.depth_plain (plain_word ht')
    have := h3.depth
    simp only [due, level, Item.weight, weight] at *
    have hc_h3 : level o + due (.memberValue s .Set (.literal z w) x) = level j := by simp only [due, level, Item.weight, weight]; omega
    have hs_h3 := h3.some' (by simp) hc_h3
    have g_h3 := ih_h3 (by simp) (by simpa only [due, level, Item.weight, weight] using hc_h3) (hr.sub (((h2.suffix).trans (h1.suffix)).trans (h.suffix)) (List.suffix_refl _) hs_h3)
    exact .memberSet (h.app rest h1.some) (h1.app rest) ht (h2.app rest) ht' g_h3
  | @memberNumber i m n j s w x h h1 h2 ih_h2 =>
    intro hx hc hr
    have := h.depth
    have := h1.depth_eq (0) rfl
    have := h2.depth
    simp only [due, level, Item.weight, weight] at *
    have hc_h2 : level n + due (.memberValue s .Method (.literal z w) x) = level j := by simp only [due, level, Item.weight, weight]; omega
    have hs_h2 := h2.some' (by simp) hc_h2
    have g_h2 := ih_h2 (by simp) (by simpa only [due, level, Item.weight, weight] using hc_h2) (hr.sub ((h1.suffix).trans (h.suffix)) (List.suffix_refl _) hs_h2)
    exact .memberNumber (h.app rest h1.some) (h1.app rest) g_h2
  | @memberBinary i m n j s w x h h1 h2 ih_h2 =>
    intro hx hc hr
    have := h.depth
    have := h1.depth_eq (0) rfl
    have := h2.depth
    simp only [due, level, Item.weight, weight] at *
    have hc_h2 : level n + due (.memberValue s .Method (.binary z w) x) = level j := by simp only [due, level, Item.weight, weight]; omega
    have hs_h2 := h2.some' (by simp) hc_h2
    have g_h2 := ih_h2 (by simp) (by simpa only [due, level, Item.weight, weight] using hc_h2) (hr.sub ((h1.suffix).trans (h.suffix)) (List.suffix_refl _) hs_h2)
    exact .memberBinary (h.app rest h1.some) (h1.app rest) g_h2
  | @memberComputed i m n o q j s e x h h1 h2 h3 h4 ih_h2 ih_h4 =>
    intro hx hc hr
    have := h.depth
    have := h1.depth_eq (1) rfl
    have := h2.depth
    have := h3.depth_eq (-1) rfl
    have := h4.depth
    simp only [due, level, Item.weight, weight] at *
    have hc_h2 : level n + due (.whole 0 e) = level o := by simp only [due, level, Item.weight, weight]; omega
    have hs_h2 := h2.some' (by simp) hc_h2
    have hc_h4 : level q + due (.memberValue s .Method (.computed z e) x) = level j := by simp only [due, level, Item.weight, weight]; omega
    have hs_h4 := h4.some' (by simp) hc_h4
    have g_h2 := ih_h2 (by simp) (by simpa only [due, level, Item.weight, weight] using hc_h2) (hr.sub ((h1.suffix).trans (h.suffix)) ((h4.suffix).trans (h3.suffix)) hs_h2)
    have g_h4 := ih_h4 (by simp) (by simpa only [due, level, Item.weight, weight] using hc_h4) (hr.sub ((((h3.suffix).trans (h2.suffix)).trans (h1.suffix)).trans (h.suffix)) (List.suffix_refl _) hs_h4)
    exact .memberComputed (h.app rest h1.some) (h1.app rest) g_h2 (h3.app rest) g_h4
  | @memberMethod i m j s kd k f h h1 h2 ih_h1 =>
    intro hx hc hr
    have := h1.depth
    have := h2.depth
    simp only [due, level, Item.weight, weight] at *
    have hc_h1 : level i + due (.func .never f) = level m := by simp only [due, level, Item.weight, weight]; omega
    have hs_h1 := h1.some' (by simp) hc_h1
    have g_h1 := ih_h1 (by simp) (by simpa only [due, level, Item.weight, weight] using hc_h1) (hr.sub (List.suffix_refl _) (h2.suffix) hs_h1)
    exact .memberMethod (look_pos0 rest h) g_h1 (h2.app hr (fun e => EndsSemi.not_of_suffix (List.suffix_refl _) hs_h1 (h1.last rfl e hc_h1)))
  | @memberField i m n j s kd k e h h1 h2 ih_h1 =>
    intro hx hc hr
    have := h.depth_eq (0) rfl
    have := h1.depth
    have := h2.depth
    simp only [due, level, Item.weight, weight] at *
    have hc_h1 : level m + due (.whole 1 e) = level n := by simp only [due, level, Item.weight, weight]; omega
    have hs_h1 := h1.some' (by simp) hc_h1
    have g_h1 := ih_h1 (by simp) (by simpa only [due, level, Item.weight, weight] using hc_h1) (hr.sub (h.suffix) (h2.suffix) hs_h1)
    exact .memberField (h.app rest) g_h1 (h2.app hr (fun e => EndsSemi.not_of_suffix (h.suffix) hs_h1 (h1.last rfl e hc_h1)))
  | @membersClose i j h  =>
    intro hx hc hr
    have := h.depth_eq (-1) rfl
    simp only [due, level, Item.weight, weight] at *
    exact .membersClose (h.app rest)
  | @membersEnd   =>
    intro hx hc hr
    simp [due, level] at hc
  | @membersMore i m j x xs h h1 ih_h ih_h1 =>
    intro hx hc hr
    have := h.depth
    have := h1.depth
    simp only [due, level, Item.weight, weight] at *
    have hc_h : level i + due (.member x) = level m := by simp only [due, level, Item.weight, weight]; omega
    have hs_h := h.some' (by simp) hc_h
    have hc_h1 : level m + due (.membersTail xs) = level j := by simp only [due, level, Item.weight, weight]; omega
    have hs_h1 := h1.some' (by simp) hc_h1
    have g_h := ih_h (by simp) (by simpa only [due, level, Item.weight, weight] using hc_h) (hr.sub (List.suffix_refl _) (h1.suffix) hs_h)
    have g_h1 := ih_h1 (by simp) (by simpa only [due, level, Item.weight, weight] using hc_h1) (hr.sub (h.suffix) (List.suffix_refl _) hs_h1)
    exact .membersMore g_h g_h1
  | @block i m j ss h h1 h0 ih_h1 =>
    intro hx hc hr
    have := h.depth_eq (1) rfl
    have := h1.depth
    simp only [due, level, Item.weight, weight] at *
    have hc_h1 : level m + due (.stmtsTail ss) = level j := by simp only [due, level, Item.weight, weight]; omega
    have hs_h1 := h1.some' (by simp) hc_h1
    have g_h1 := ih_h1 (by simp) (by simpa only [due, level, Item.weight, weight] using hc_h1) (hr.sub (h.suffix) (List.suffix_refl _) hs_h1)
    exact .block (h.app rest) g_h1 (fun e e2 => h0 e (List.append_eq_nil_iff.1 e2).1)
  | @stmtsClose i j h  =>
    intro hx hc hr
    have := h.depth_eq (-1) rfl
    simp only [due, level, Item.weight, weight] at *
    exact .stmtsClose (h.app rest)
  | @stmtsEnd   =>
    intro hx hc hr
    simp [due, level] at hc
  | @stmtsMore i m j s ss h h1 ih_h ih_h1 =>
    intro hx hc hr
    have := h.depth
    have := h1.depth
    simp only [due, level, Item.weight, weight] at *
    have hc_h : level i + due (.stmt s) = level m := by simp only [due, level, Item.weight, weight]; omega
    have hs_h := h.some' (by simp) hc_h
    have hc_h1 : level m + due (.stmtsTail ss) = level j := by simp only [due, level, Item.weight, weight]; omega
    have hs_h1 := h1.some' (by simp) hc_h1
    have g_h := ih_h (by simp) (by simpa only [due, level, Item.weight, weight] using hc_h) (hr.sub (List.suffix_refl _) (h1.suffix) hs_h)
    have g_h1 := ih_h1 (by simp) (by simpa only [due, level, Item.weight, weight] using hc_h1) (hr.sub (h.suffix) (List.suffix_refl _) hs_h1)
    exact .stmtsMore g_h g_h1
  | @empty i j h  =>
    intro hx hc hr
    have := h.depth_eq (0) rfl
    simp only [due, level, Item.weight, weight] at *
    exact .empty (h.app rest)
  | @debugger i j h  =>
    intro hx hc hr
    have := h.depth_eq (0) rfl
    simp only [due, level, Item.weight, weight] at *
    exact .debugger (h.app rest)
  | @blockStmt i j ss h ih_h =>
    intro hx hc hr
    have := h.depth
    simp only [due, level, Item.weight, weight] at *
    have hc_h : level i + due (.block (.mk z ss)) = level j := by simp only [due, level, Item.weight, weight]; omega
    have hs_h := h.some' (by simp) hc_h
    have g_h := ih_h (by simp) (by simpa only [due, level, Item.weight, weight] using hc_h) (hr.sub (List.suffix_refl _) (List.suffix_refl _) hs_h)
    exact .blockStmt g_h
  | @exprStmt i m j e h1 h2 h3 h4 h h5 ih_h =>
    intro hx hc hr
    have := h.depth
    have := h5.depth
    simp only [due, level, Item.weight, weight] at *
    have hc_h : level i + due (.whole 0 e) = level m := by simp only [due, level, Item.weight, weight]; omega
    have hs_h := h.some' (by simp) hc_h
    have g_h := ih_h (by simp) (by simpa only [due, level, Item.weight, weight] using hc_h) (hr.sub (List.suffix_refl _) (h5.suffix) hs_h)
    exact .exprStmt (by rwa [look_app rest hs_h]) (by rwa [look_app rest hs_h]) (by rwa [look_app rest hs_h]) (exprStmt_tail hr hs_h (by have := h.short; have := h5.suffix.length_le; simp [Short, least] at *; omega) h4) g_h (h5.app hr (fun e => EndsSemi.not_of_suffix (List.suffix_refl _) hs_h (h.last rfl e hc_h)))
  | @importExpr w a i m j e h1 h h5 ih_h =>
    intro hx hc hr
    simp only [due, level, Item.weight, weight] at hc
    have h7 := h.depth
    have := h5.depth
    simp only [due, level, Item.weight, weight] at h7
    have hc_h : level (Item.tok Token.Identifier w a :: i) + due (.whole 0 e) = level m := by
      simp only [due, level, Item.weight, weight]; omega
    have hl : m = [] → ¬ EndsSemi (Item.tok Token.Import w a :: i) := fun e => by
      have := h.last rfl e hc_h
      exact endsSemi_swap this (look_any1 h1)
    have g_h := ih_h (by simp) hc_h (hr.swap h5.suffix (look_any1 h1))
    exact .importExpr (look_pos1 rest h1) g_h (h5.app hr hl)
  | @declStmt i m n j t k ds h hk h1 h2 ih_h1 =>
    intro hx hc hr
    have := h.depth_plain (plain_decl hk)
    have := h1.depth
    have := h2.depth
    simp only [due, level, Item.weight, weight] at *
    have hc_h1 : level m + due (.declarators ds) = level n := by simp only [due, level, Item.weight, weight]; omega
    have hs_h1 := h1.some' (by simp) hc_h1
    have g_h1 := ih_h1 (by simp) (by simpa only [due, level, Item.weight, weight] using hc_h1) (hr.sub (h.suffix) (h2.suffix) hs_h1)
    exact .declStmt (h.app rest) hk g_h1 (h2.app hr (fun e => EndsSemi.not_of_suffix (h.suffix) hs_h1 (h1.last rfl e hc_h1)))
  | @ret i m j h h1  =>
    intro hx hc hr
    have := h.depth_eq (0) rfl
    have := h1.depth
    simp only [due, level, Item.weight, weight] at *
    exact .ret (h.app rest) (h1.app hr (fun e => EndsSemi.not_of_suffix (List.suffix_refl _) h.some (h.last (by decide) e)))
  | @retValue i m n j e h h0 h1 h2 ih_h1 =>
    intro hx hc hr
    have := h.depth_eq (0) rfl
    have := h1.depth
    have := h2.depth
    simp only [due, level, Item.weight, weight] at *
    have hc_h1 : level m + due (.whole 0 e) = level n := by simp only [due, level, Item.weight, weight]; omega
    have hs_h1 := h1.some' (by simp) hc_h1
    have g_h1 := ih_h1 (by simp) (by simpa only [due, level, Item.weight, weight] using hc_h1) (hr.sub (h.suffix) (h2.suffix) hs_h1)
    exact .retValue (h.app rest) (by rwa [semicolon_app rest hs_h1]) g_h1 (h2.app hr (fun e => EndsSemi.not_of_suffix (h.suffix) hs_h1 (h1.last rfl e hc_h1)))
  | @brk i m j h h1  =>
    intro hx hc hr
    have := h.depth_eq (0) rfl
    have := h1.depth
    simp only [due, level, Item.weight, weight] at *
    exact .brk (h.app rest) (h1.app hr (fun e => EndsSemi.not_of_suffix (List.suffix_refl _) h.some (h.last (by decide) e)))
  | @brkLabel i m n j w h h0 h1 h2  =>
    intro hx hc hr
    have := h.depth_eq (0) rfl
    have := h1.depth_eq (0) rfl
    have := h2.depth
    simp only [due, level, Item.weight, weight] at *
    exact .brkLabel (h.app rest) (by rwa [semicolon_app rest h1.some]) (h1.app rest) (h2.app hr (fun e => EndsSemi.not_of_suffix (h.suffix) h1.some (h1.last (by decide) e)))
  | @cont i m j h h1  =>
    intro hx hc hr
    have := h.depth_eq (0) rfl
    have := h1.depth
    simp only [due, level, Item.weight, weight] at *
    exact .cont (h.app rest) (h1.app hr (fun e => EndsSemi.not_of_suffix (List.suffix_refl _) h.some (h.last (by decide) e)))
  | @contLabel i m n j w h h0 h1 h2  =>
    intro hx hc hr
    have := h.depth_eq (0) rfl
    have := h1.depth_eq (0) rfl
    have := h2.depth
    simp only [due, level, Item.weight, weight] at *
    exact .contLabel (h.app rest) (by rwa [semicolon_app rest h1.some]) (h1.app rest) (h2.app hr (fun e => EndsSemi.not_of_suffix (h.suffix) h1.some (h1.last (by decide) e)))
  | @throw i m n j e h h1 h2 ih_h1 =>
    intro hx hc hr
    have := h.depth_eq (0) rfl
    have := h1.depth
    have := h2.depth
    simp only [due, level, Item.weight, weight] at *
    have hc_h1 : level m + due (.whole 0 e) = level n := by simp only [due, level, Item.weight, weight]; omega
    have hs_h1 := h1.some' (by simp) hc_h1
    have g_h1 := ih_h1 (by simp) (by simpa only [due, level, Item.weight, weight] using hc_h1) (hr.sub (h.suffix) (h2.suffix) hs_h1)
    exact .throw (h.app rest) g_h1 (h2.app hr (fun e => EndsSemi.not_of_suffix (h.suffix) hs_h1 (h1.last rfl e hc_h1)))
  | @ifThen i m n o q j e s h h1 h2 h3 h4 h5 ih_h2 ih_h4 =>
    intro hx hc hr
    have := h.depth_eq (0) rfl
    have := h1.depth_eq (1) rfl
    have := h2.depth
    have := h3.depth_eq (-1) rfl
    have := h4.depth
    simp only [due, level, Item.weight, weight] at *
    have hc_h2 : level n + due (.whole 0 e) = level o := by simp only [due, level, Item.weight, weight]; omega
    have hs_h2 := h2.some' (by simp) hc_h2
    have hc_h4 : level q + due (.stmt s) = level j := by simp only [due, level, Item.weight, weight]; omega
    have hs_h4 := h4.some' (by simp) hc_h4
    have g_h2 := ih_h2 (by simp) (by simpa only [due, level, Item.weight, weight] using hc_h2) (hr.sub ((h1.suffix).trans (h.suffix)) ((h4.suffix).trans (h3.suffix)) hs_h2)
    have g_h4 := ih_h4 (by simp) (by simpa only [due, level, Item.weight, weight] using hc_h4) (hr.sub ((((h3.suffix).trans (h2.suffix)).trans (h1.suffix)).trans (h.suffix)) (List.suffix_refl _) hs_h4)
    exact .ifThen (h.app rest) (h1.app rest) g_h2 (h3.app rest) g_h4 (hr.else_ h5)
  | @ifElse i m n o q r u j e s s' h h1 h2 h3 h4 h5 h6 ih_h2 ih_h4 ih_h6 =>
    intro hx hc hr
    have := h.depth_eq (0) rfl
    have := h1.depth_eq (1) rfl
    have := h2.depth
    have := h3.depth_eq (-1) rfl
    have := h4.depth
    have := h5.depth_eq (0) rfl
    have := h6.depth
    simp only [due, level, Item.weight, weight] at *
    have hc_h2 : level n + due (.whole 0 e) = level o := by simp only [due, level, Item.weight, weight]; omega
    have hs_h2 := h2.some' (by simp) hc_h2
    have hc_h4 : level q + due (.stmt s) = level r := by simp only [due, level, Item.weight, weight]; omega
    have hs_h4 := h4.some' (by simp) hc_h4
    have hc_h6 : level u + due (.stmt s') = level j := by simp only [due, level, Item.weight, weight]; omega
    have hs_h6 := h6.some' (by simp) hc_h6
    have g_h2 := ih_h2 (by simp) (by simpa only [due, level, Item.weight, weight] using hc_h2) (hr.sub ((h1.suffix).trans (h.suffix)) ((((h6.suffix).trans (h5.suffix)).trans (h4.suffix)).trans (h3.suffix)) hs_h2)
    have g_h4 := ih_h4 (by simp) (by simpa only [due, level, Item.weight, weight] using hc_h4) (hr.sub ((((h3.suffix).trans (h2.suffix)).trans (h1.suffix)).trans (h.suffix)) ((h6.suffix).trans (h5.suffix)) hs_h4)
    have g_h6 := ih_h6 (by simp) (by simpa only [due, level, Item.weight, weight] using hc_h6) (hr.sub ((((((h5.suffix).trans (h4.suffix)).trans (h3.suffix)).trans (h2.suffix)).trans (h1.suffix)).trans (h.suffix)) (List.suffix_refl _) hs_h6)
    exact .ifElse (h.app rest) (h1.app rest) g_h2 (h3.app rest) g_h4 (h5.app rest) g_h6
  | @whileLoop i m n o q j e s h h1 h2 h3 h4 ih_h2 ih_h4 =>
    intro hx hc hr
    have := h.depth_eq (0) rfl
    have := h1.depth_eq (1) rfl
    have := h2.depth
    have := h3.depth_eq (-1) rfl
    have := h4.depth
    simp only [due, level, Item.weight, weight] at *
    have hc_h2 : level n + due (.whole 0 e) = level o := by simp only [due, level, Item.weight, weight]; omega
    have hs_h2 := h2.some' (by simp) hc_h2
    have hc_h4 : level q + due (.stmt s) = level j := by simp only [due, level, Item.weight, weight]; omega
    have hs_h4 := h4.some' (by simp) hc_h4
    have g_h2 := ih_h2 (by simp) (by simpa only [due, level, Item.weight, weight] using hc_h2) (hr.sub ((h1.suffix).trans (h.suffix)) ((h4.suffix).trans (h3.suffix)) hs_h2)
    have g_h4 := ih_h4 (by simp) (by simpa only [due, level, Item.weight, weight] using hc_h4) (hr.sub ((((h3.suffix).trans (h2.suffix)).trans (h1.suffix)).trans (h.suffix)) (List.suffix_refl _) hs_h4)
    exact .whileLoop (h.app rest) (h1.app rest) g_h2 (h3.app rest) g_h4
  | @doLoop i m n o q r j e s h h1 h2 h3 h4 h5 ih_h1 ih_h4 =>
    intro hx hc hr
    have := h.depth_eq (0) rfl
    have := h1.depth
    have := h2.depth_eq (0) rfl
    have := h3.depth_eq (1) rfl
    have := h4.depth
    have := h5.depth_eq (-1) rfl
    simp only [due, level, Item.weight, weight] at *
    have hc_h1 : level m + due (.stmt s) = level n := by simp only [due, level, Item.weight, weight]; omega
    have hs_h1 := h1.some' (by simp) hc_h1
    have hc_h4 : level q + due (.whole 0 e) = level r := by simp only [due, level, Item.weight, weight]; omega
    have hs_h4 := h4.some' (by simp) hc_h4
    have g_h1 := ih_h1 (by simp) (by simpa only [due, level, Item.weight, weight] using hc_h1) (hr.sub (h.suffix) ((((h5.suffix).trans (h4.suffix)).trans (h3.suffix)).trans (h2.suffix)) hs_h1)
    have g_h4 := ih_h4 (by simp) (by simpa only [due, level, Item.weight, weight] using hc_h4) (hr.sub ((((h3.suffix).trans (h2.suffix)).trans (h1.suffix)).trans (h.suffix)) (h5.suffix) hs_h4)
    exact .doLoop (h.app rest) g_h1 (h2.app rest) (h3.app rest) g_h4 (h5.app rest)
  | @forLoop i m n o q j t u s h h1 h2 h3 r h4 h5 ih_h3 ih_h4 ih_h5 =>
    intro hx hc hr
    have := h.depth_eq (0) rfl
    have := h1.depth_eq (1) rfl
    have := h2.depth_eq (0) rfl
    have := h3.depth
    have := h4.depth
    have := h5.depth
    have := weight_semi
    have := weight_close
    simp only [due, level, Item.weight, weight] at *
    have hc_h3 : level o + due (.optExpr .Semicolon t) = level q := by simp only [due, level, Item.weight, weight]; omega
    have hs_h3 := h3.some' (by simp) hc_h3
    have hc_h4 : level q + due (.optExpr .ParenClose u) = level r := by simp only [due, level, Item.weight, weight]; omega
    have hs_h4 := h4.some' (by simp) hc_h4
    have hc_h5 : level r + due (.stmt s) = level j := by simp only [due, level, Item.weight, weight]; omega
    have hs_h5 := h5.some' (by simp) hc_h5
    have g_h3 := ih_h3 (by simp) (by simpa only [due, level, Item.weight, weight] using hc_h3) (hr.sub (((h2.suffix).trans (h1.suffix)).trans (h.suffix)) ((h5.suffix).trans (h4.suffix)) hs_h3)
    have g_h4 := ih_h4 (by simp) (by simpa only [due, level, Item.weight, weight] using hc_h4) (hr.sub ((((h3.suffix).trans (h2.suffix)).trans (h1.suffix)).trans (h.suffix)) (h5.suffix) hs_h4)
    have g_h5 := ih_h5 (by simp) (by simpa only [due, level, Item.weight, weight] using hc_h5) (hr.sub (((((h4.suffix).trans (h3.suffix)).trans (h2.suffix)).trans (h1.suffix)).trans (h.suffix)) (List.suffix_refl _) hs_h5)
    exact .forLoop (h.app rest) (h1.app rest) (h2.app rest) g_h3 g_h4 g_h5
  | @forLoopInit i m n o q r v j x t u s h h1 h2 h2' h3 h4 h5 ih_h2 ih_h3 ih_h4 ih_h5 =>
    intro hx hc hr
    have := h.depth_eq (0) rfl
    have := h1.depth_eq (1) rfl
    have := h2.depth
    have := h2'.depth_eq (0) rfl
    have := h3.depth
    have := h4.depth
    have := h5.depth
    have := weight_semi
    have := weight_close
    simp only [due, level, Item.weight, weight] at *
    have hc_h2 : level n + due (.forInit x) = level o := by simp only [due, level, Item.weight, weight]; omega
    have hs_h2 := h2.some' (by simp) hc_h2
    have hc_h3 : level q + due (.optExpr .Semicolon t) = level r := by simp only [due, level, Item.weight, weight]; omega
    have hs_h3 := h3.some' (by simp) hc_h3
    have hc_h4 : level r + due (.optExpr .ParenClose u) = level v := by simp only [due, level, Item.weight, weight]; omega
    have hs_h4 := h4.some' (by simp) hc_h4
    have hc_h5 : level v + due (.stmt s) = level j := by simp only [due, level, Item.weight, weight]; omega
    have hs_h5 := h5.some' (by simp) hc_h5
    have g_h2 := ih_h2 (by simp) (by simpa only [due, level, Item.weight, weight] using hc_h2) (hr.sub ((h1.suffix).trans (h.suffix)) ((((h5.suffix).trans (h4.suffix)).trans (h3.suffix)).trans (h2'.suffix)) hs_h2)
    have g_h3 := ih_h3 (by simp) (by simpa only [due, level, Item.weight, weight] using hc_h3) (hr.sub ((((h2'.suffix).trans (h2.suffix)).trans (h1.suffix)).trans (h.suffix)) ((h5.suffix).trans (h4.suffix)) hs_h3)
    have g_h4 := ih_h4 (by simp) (by simpa only [due, level, Item.weight, weight] using hc_h4) (hr.sub (((((h3.suffix).trans (h2'.suffix)).trans (h2.suffix)).trans (h1.suffix)).trans (h.suffix)) (h5.suffix) hs_h4)
    have g_h5 := ih_h5 (by simp) (by simpa only [due, level, Item.weight, weight] using hc_h5) (hr.sub ((((((h4.suffix).trans (h3.suffix)).trans (h2'.suffix)).trans (h2.suffix)).trans (h1.suffix)).trans (h.suffix)) (List.suffix_refl _) hs_h5)
    exact .forLoopInit (h.app rest) (h1.app rest) g_h2 (h2'.app rest) g_h3 g_h4 g_h5
  | @forInDecl i m n o q r v j k ds e s h h1 h2 h3 h4 h5 h6 ih_h2 ih_h4 ih_h6 =>
    intro hx hc hr
    have := h.depth_eq (0) rfl
    have := h1.depth_eq (1) rfl
    have := h2.depth
    have := h3.depth_eq (0) rfl
    have := h4.depth
    have := h5.depth_eq (-1) rfl
    have := h6.depth
    simp only [due, level, Item.weight, weight] at *
    have hc_h2 : level n + due (.forInit (.decl z k ds)) = level o := by simp only [due, level, Item.weight, weight]; omega
    have hs_h2 := h2.some' (by simp) hc_h2
    have hc_h4 : level q + due (.whole 0 e) = level r := by simp only [due, level, Item.weight, weight]; omega
    have hs_h4 := h4.some' (by simp) hc_h4
    have hc_h6 : level v + due (.stmt s) = level j := by simp only [due, level, Item.weight, weight]; omega
    have hs_h6 := h6.some' (by simp) hc_h6
    have g_h2 := ih_h2 (by simp) (by simpa only [due, level, Item.weight, weight] using hc_h2) (hr.sub ((h1.suffix).trans (h.suffix)) ((((h6.suffix).trans (h5.suffix)).trans (h4.suffix)).trans (h3.suffix)) hs_h2)
    have g_h4 := ih_h4 (by simp) (by simpa only [due, level, Item.weight, weight] using hc_h4) (hr.sub ((((h3.suffix).trans (h2.suffix)).trans (h1.suffix)).trans (h.suffix)) ((h6.suffix).trans (h5.suffix)) hs_h4)
    have g_h6 := ih_h6 (by simp) (by simpa only [due, level, Item.weight, weight] using hc_h6) (hr.sub ((((((h5.suffix).trans (h4.suffix)).trans (h3.suffix)).trans (h2.suffix)).trans (h1.suffix)).trans (h.suffix)) (List.suffix_refl _) hs_h6)
    exact .forInDecl (h.app rest) (h1.app rest) g_h2 (h3.app rest) g_h4 (h5.app rest) g_h6
  | @forInExpr i m n o q j a b s h h1 h2 h3 h4 ih_h2 ih_h4 =>
    intro hx hc hr
    have := h.depth_eq (0) rfl
    have := h1.depth_eq (1) rfl
    have := h2.depth
    have := h3.depth_eq (-1) rfl
    have := h4.depth
    simp only [due, level, Item.weight, weight] at *
    have hc_h2 : level n + due (.whole 0 (.binary z .In a b)) = level o := by simp only [due, level, Item.weight, weight]; omega
    have hs_h2 := h2.some' (by simp) hc_h2
    have hc_h4 : level q + due (.stmt s) = level j := by simp only [due, level, Item.weight, weight]; omega
    have hs_h4 := h4.some' (by simp) hc_h4
    have g_h2 := ih_h2 (by simp) (by simpa only [due, level, Item.weight, weight] using hc_h2) (hr.sub ((h1.suffix).trans (h.suffix)) ((h4.suffix).trans (h3.suffix)) hs_h2)
    have g_h4 := ih_h4 (by simp) (by simpa only [due, level, Item.weight, weight] using hc_h4) (hr.sub ((((h3.suffix).trans (h2.suffix)).trans (h1.suffix)).trans (h.suffix)) (List.suffix_refl _) hs_h4)
    exact .forInExpr (h.app rest) (h1.app rest) g_h2 (h3.app rest) g_h4
  | @forOf i m n o q r v j x e s h h1 h2 h3 h4 h5 h6 ih_h2 ih_h4 ih_h6 =>
    intro hx hc hr
    have := h.depth_eq (0) rfl
    have := h1.depth_eq (1) rfl
    have := h2.depth
    have := h3.depth_eq (0) rfl
    have := h4.depth
    have := h5.depth_eq (-1) rfl
    have := h6.depth
    simp only [due, level, Item.weight, weight] at *
    have hc_h2 : level n + due (.forInit x) = level o := by simp only [due, level, Item.weight, weight]; omega
    have hs_h2 := h2.some' (by simp) hc_h2
    have hc_h4 : level q + due (.whole 0 e) = level r := by simp only [due, level, Item.weight, weight]; omega
    have hs_h4 := h4.some' (by simp) hc_h4
    have hc_h6 : level v + due (.stmt s) = level j := by simp only [due, level, Item.weight, weight]; omega
    have hs_h6 := h6.some' (by simp) hc_h6
    have g_h2 := ih_h2 (by simp) (by simpa only [due, level, Item.weight, weight] using hc_h2) (hr.sub ((h1.suffix).trans (h.suffix)) ((((h6.suffix).trans (h5.suffix)).trans (h4.suffix)).trans (h3.suffix)) hs_h2)
    have g_h4 := ih_h4 (by simp) (by simpa only [due, level, Item.weight, weight] using hc_h4) (hr.sub ((((h3.suffix).trans (h2.suffix)).trans (h1.suffix)).trans (h.suffix)) ((h6.suffix).trans (h5.suffix)) hs_h4)
    have g_h6 := ih_h6 (by simp) (by simpa only [due, level, Item.weight, weight] using hc_h6) (hr.sub ((((((h5.suffix).trans (h4.suffix)).trans (h3.suffix)).trans (h2.suffix)).trans (h1.suffix)).trans (h.suffix)) (List.suffix_refl _) hs_h6)
    exact .forOf (h.app rest) (h1.app rest) g_h2 (h3.app rest) g_h4 (h5.app rest) g_h6
  | @forInitDecl i m j t k ds h hk h1 ih_h1 =>
    intro hx hc hr
    have := h.depth_plain (plain_decl hk)
    have := h1.depth
    simp only [due, level, Item.weight, weight] at *
    have hc_h1 : level m + due (.declarators ds) = level j := by simp only [due, level, Item.weight, weight]; omega
    have hs_h1 := h1.some' (by simp) hc_h1
    have g_h1 := ih_h1 (by simp) (by simpa only [due, level, Item.weight, weight] using hc_h1) (hr.sub (h.suffix) (List.suffix_refl _) hs_h1)
    exact .forInitDecl (h.app rest) hk g_h1
  | @forInitExpr i j e h h1 ih_h =>
    intro hx hc hr
    have := h.depth
    simp only [due, level, Item.weight, weight] at *
    have hc_h : level i + due (.whole 0 e) = level j := by simp only [due, level, Item.weight, weight]; omega
    have hs_h := h.some' (by simp) hc_h
    have g_h := ih_h (by simp) (by simpa only [due, level, Item.weight, weight] using hc_h) (hr.sub (List.suffix_refl _) (List.suffix_refl _) hs_h)
    exact .forInitExpr g_h h1
  | @optExprNone i j t h  =>
    intro hx hc hr
    have := h.depth
    simp only [due, level, Item.weight, weight] at *
    exact .optExprNone (h.app rest)
  | @optExprSome i m j t e h h1 ih_h =>
    intro hx hc hr
    have := h.depth
    have := h1.depth
    simp only [due, level, Item.weight, weight] at *
    have hc_h : level i + due (.whole 0 e) = level m := by simp only [due, level, Item.weight, weight]; omega
    have hs_h := h.some' (by simp) hc_h
    have g_h := ih_h (by simp) (by simpa only [due, level, Item.weight, weight] using hc_h) (hr.sub (List.suffix_refl _) (h1.suffix) hs_h)
    exact .optExprSome g_h (h1.app rest)
  | @tryCatch i m n j b c h h1 h2 h3 ih_h1 ih_h2 =>
    intro hx hc hr
    have := h.depth_eq (0) rfl
    have := h1.depth
    have := h2.depth
    simp only [due, level, Item.weight, weight] at *
    have hc_h1 : level m + due (.block b) = level n := by simp only [due, level, Item.weight, weight]; omega
    have hs_h1 := h1.some' (by simp) hc_h1
    have hc_h2 : level n + due (.catch c) = level j := by simp only [due, level, Item.weight, weight]; omega
    have hs_h2 := h2.some' (by simp) hc_h2
    have g_h1 := ih_h1 (by simp) (by simpa only [due, level, Item.weight, weight] using hc_h1) (hr.sub (h.suffix) (h2.suffix) hs_h1)
    have g_h2 := ih_h2 (by simp) (by simpa only [due, level, Item.weight, weight] using hc_h2) (hr.sub ((h1.suffix).trans (h.suffix)) (List.suffix_refl _) hs_h2)
    exact .tryCatch (h.app rest) g_h1 g_h2 (hr.look (fun e => EndsSemi.not_of_suffix ((h1.suffix).trans (h.suffix)) hs_h2 (h2.last rfl e hc_h2)) h3 (fun s => s.not (by simp)))
  | @tryCatchFinally i m n o q j b c f h h1 h2 h3 h4 ih_h1 ih_h2 ih_h4 =>
    intro hx hc hr
    have := h.depth_eq (0) rfl
    have := h1.depth
    have := h2.depth
    have := h3.depth_eq (0) rfl
    have := h4.depth
    simp only [due, level, Item.weight, weight] at *
    have hc_h1 : level m + due (.block b) = level n := by simp only [due, level, Item.weight, weight]; omega
    have hs_h1 := h1.some' (by simp) hc_h1
    have hc_h2 : level n + due (.catch c) = level o := by simp only [due, level, Item.weight, weight]; omega
    have hs_h2 := h2.some' (by simp) hc_h2
    have hc_h4 : level q + due (.block f) = level j := by simp only [due, level, Item.weight, weight]; omega
    have hs_h4 := h4.some' (by simp) hc_h4
    have g_h1 := ih_h1 (by simp) (by simpa only [due, level, Item.weight, weight] using hc_h1) (hr.sub (h.suffix) (((h4.suffix).trans (h3.suffix)).trans (h2.suffix)) hs_h1)
    have g_h2 := ih_h2 (by simp) (by simpa only [due, level, Item.weight, weight] using hc_h2) (hr.sub ((h1.suffix).trans (h.suffix)) ((h4.suffix).trans (h3.suffix)) hs_h2)
    have g_h4 := ih_h4 (by simp) (by simpa only [due, level, Item.weight, weight] using hc_h4) (hr.sub ((((h3.suffix).trans (h2.suffix)).trans (h1.suffix)).trans (h.suffix)) (List.suffix_refl _) hs_h4)
    exact .tryCatchFinally (h.app rest) g_h1 g_h2 (h3.app rest) g_h4
  | @tryFinally i m n o j b f h h1 h3 h4 ih_h1 ih_h4 =>
    intro hx hc hr
    have := h.depth_eq (0) rfl
    have := h1.depth
    have := h3.depth_eq (0) rfl
    have := h4.depth
    simp only [due, level, Item.weight, weight] at *
    have hc_h1 : level m + due (.block b) = level n := by simp only [due, level, Item.weight, weight]; omega
    have hs_h1 := h1.some' (by simp) hc_h1
    have hc_h4 : level o + due (.block f) = level j := by simp only [due, level, Item.weight, weight]; omega
    have hs_h4 := h4.some' (by simp) hc_h4
    have g_h1 := ih_h1 (by simp) (by simpa only [due, level, Item.weight, weight] using hc_h1) (hr.sub (h.suffix) ((h4.suffix).trans (h3.suffix)) hs_h1)
    have g_h4 := ih_h4 (by simp) (by simpa only [due, level, Item.weight, weight] using hc_h4) (hr.sub (((h3.suffix).trans (h1.suffix)).trans (h.suffix)) (List.suffix_refl _) hs_h4)
    exact .tryFinally (h.app rest) g_h1 (h3.app rest) g_h4
  | @«catch» i m n o q j p b h h1 h2 h3 h4 ih_h2 ih_h4 =>
    intro hx hc hr
    have := h.depth_eq (0) rfl
    have := h1.depth_eq (1) rfl
    have := h2.depth
    have := h3.depth_eq (-1) rfl
    have := h4.depth
    simp only [due, level, Item.weight, weight] at *
    have hc_h2 : level n + due (.pat p) = level o := by simp only [due, level, Item.weight, weight]; omega
    have hs_h2 := h2.some' (by simp) hc_h2
    have hc_h4 : level q + due (.block b) = level j := by simp only [due, level, Item.weight, weight]; omega
    have hs_h4 := h4.some' (by simp) hc_h4
    have g_h2 := ih_h2 (by simp) (by simpa only [due, level, Item.weight, weight] using hc_h2) (hr.sub ((h1.suffix).trans (h.suffix)) ((h4.suffix).trans (h3.suffix)) hs_h2)
    have g_h4 := ih_h4 (by simp) (by simpa only [due, level, Item.weight, weight] using hc_h4) (hr.sub ((((h3.suffix).trans (h2.suffix)).trans (h1.suffix)).trans (h.suffix)) (List.suffix_refl _) hs_h4)
    exact .«catch» (h.app rest) (h1.app rest) g_h2 (h3.app rest) g_h4
  | @switch i m n o q r j e cs h h1 h2 h3 h4 h5 ih_h2 ih_h5 =>
    intro hx hc hr
    have := h.depth_eq (0) rfl
    have := h1.depth_eq (1) rfl
    have := h2.depth
    have := h3.depth_eq (-1) rfl
    have := h4.depth_eq (1) rfl
    have := h5.depth
    simp only [due, level, Item.weight, weight] at *
    have hc_h2 : level n + due (.whole 0 e) = level o := by simp only [due, level, Item.weight, weight]; omega
    have hs_h2 := h2.some' (by simp) hc_h2
    have hc_h5 : level r + due (.cases cs) = level j := by simp only [due, level, Item.weight, weight]; omega
    have hs_h5 := h5.some' (by simp) hc_h5
    have g_h2 := ih_h2 (by simp) (by simpa only [due, level, Item.weight, weight] using hc_h2) (hr.sub ((h1.suffix).trans (h.suffix)) (((h5.suffix).trans (h4.suffix)).trans (h3.suffix)) hs_h2)
    have g_h5 := ih_h5 (by simp) (by simpa only [due, level, Item.weight, weight] using hc_h5) (hr.sub (((((h4.suffix).trans (h3.suffix)).trans (h2.suffix)).trans (h1.suffix)).trans (h.suffix)) (List.suffix_refl _) hs_h5)
    exact .switch (h.app rest) (h1.app rest) g_h2 (h3.app rest) (h4.app rest) g_h5
  | @casesClose i j h  =>
    intro hx hc hr
    have := h.depth_eq (-1) rfl
    simp only [due, level, Item.weight, weight] at *
    exact .casesClose (h.app rest)
  | @casesMore i m j c cs h h1 ih_h ih_h1 =>
    intro hx hc hr
    have := h.depth
    have := h1.depth
    simp only [due, level, Item.weight, weight] at *
    have hc_h : level i + due (.switchCase c) = level m := by simp only [due, level, Item.weight, weight]; omega
    have hs_h := h.some' (by simp) hc_h
    have hc_h1 : level m + due (.cases cs) = level j := by simp only [due, level, Item.weight, weight]; omega
    have hs_h1 := h1.some' (by simp) hc_h1
    have g_h := ih_h (by simp) (by simpa only [due, level, Item.weight, weight] using hc_h) (hr.sub (List.suffix_refl _) (h1.suffix) hs_h)
    have g_h1 := ih_h1 (by simp) (by simpa only [due, level, Item.weight, weight] using hc_h1) (hr.sub (h.suffix) (List.suffix_refl _) hs_h1)
    exact .casesMore g_h g_h1
  | @case i m n o j e ss h h1 h2 h3 ih_h1 ih_h3 =>
    intro hx hc hr
    have := h.depth_eq (0) rfl
    have := h1.depth
    have := h2.depth_eq (0) rfl
    have := h3.depth
    simp only [due, level, Item.weight, weight] at *
    have hc_h1 : level m + due (.whole 0 e) = level n := by simp only [due, level, Item.weight, weight]; omega
    have hs_h1 := h1.some' (by simp) hc_h1
    have hc_h3 : level o + due (.caseBody ss) = level j := by simp only [due, level, Item.weight, weight]; omega
    have hs_h3 := h3.some' (by simp) hc_h3
    have g_h1 := ih_h1 (by simp) (by simpa only [due, level, Item.weight, weight] using hc_h1) (hr.sub (h.suffix) ((h3.suffix).trans (h2.suffix)) hs_h1)
    have g_h3 := ih_h3 (by simp) (by simpa only [due, level, Item.weight, weight] using hc_h3) (hr.sub (((h2.suffix).trans (h1.suffix)).trans (h.suffix)) (List.suffix_refl _) hs_h3)
    exact .case (h.app rest) g_h1 (h2.app rest) g_h3
  | @default i m n j ss h h1 h2 ih_h2 =>
    intro hx hc hr
    have := h.depth_eq (0) rfl
    have := h1.depth_eq (0) rfl
    have := h2.depth
    simp only [due, level, Item.weight, weight] at *
    have hc_h2 : level n + due (.caseBody ss) = level j := by simp only [due, level, Item.weight, weight]; omega
    have hs_h2 := h2.some' (by simp) hc_h2
    have g_h2 := ih_h2 (by simp) (by simpa only [due, level, Item.weight, weight] using hc_h2) (hr.sub ((h1.suffix).trans (h.suffix)) (List.suffix_refl _) hs_h2)
    exact .default (h.app rest) (h1.app rest) g_h2
  | @caseBodyEnd j h  =>
    intro hx hc hr
    simp only [due, level, Item.weight, weight] at *
    exact .caseBodyEnd (look_pos2 rest h)
  | @caseBodyMore i m j s ss h h1 ih_h ih_h1 =>
    intro hx hc hr
    have := h.depth
    have := h1.depth
    simp only [due, level, Item.weight, weight] at *
    have hc_h : level i + due (.stmt s) = level m := by simp only [due, level, Item.weight, weight]; omega
    have hs_h := h.some' (by simp) hc_h
    have hc_h1 : level m + due (.caseBody ss) = level j := by simp only [due, level, Item.weight, weight]; omega
    have hs_h1 := h1.some' (by simp) hc_h1
    have g_h := ih_h (by simp) (by simpa only [due, level, Item.weight, weight] using hc_h) (hr.sub (List.suffix_refl _) (h1.suffix) hs_h)
    have g_h1 := ih_h1 (by simp) (by simpa only [due, level, Item.weight, weight] using hc_h1) (hr.sub (h.suffix) (List.suffix_refl _) hs_h1)
    exact .caseBodyMore g_h g_h1
  | @labeled i m n j w s h h1 h2 ih_h2 =>
    intro hx hc hr
    have := h.depth_eq (0) rfl
    have := h1.depth_eq (0) rfl
    have := h2.depth
    simp only [due, level, Item.weight, weight] at *
    have hc_h2 : level n + due (.stmt s) = level j := by simp only [due, level, Item.weight, weight]; omega
    have hs_h2 := h2.some' (by simp) hc_h2
    have g_h2 := ih_h2 (by simp) (by simpa only [due, level, Item.weight, weight] using hc_h2) (hr.sub ((h1.suffix).trans (h.suffix)) (List.suffix_refl _) hs_h2)
    exact .labeled (h.app rest) (h1.app rest) g_h2
  | @functionStmt i m j f h h1 ih_h1 =>
    intro hx hc hr
    have := h.depth_eq (0) rfl
    have := h1.depth
    simp only [due, level, Item.weight, weight] at *
    have hc_h1 : level m + due (.func .always f) = level j := by simp only [due, level, Item.weight, weight]; omega
    have hs_h1 := h1.some' (by simp) hc_h1
    have g_h1 := ih_h1 (by simp) (by simpa only [due, level, Item.weight, weight] using hc_h1) (hr.sub (h.suffix) (List.suffix_refl _) hs_h1)
    exact .functionStmt (h.app rest) g_h1
  | @classStmt i m j c h h1 ih_h1 =>
    intro hx hc hr
    have := h.depth_eq (0) rfl
    have := h1.depth
    simp only [due, level, Item.weight, weight] at *
    have hc_h1 : level m + due (.cls .always c) = level j := by simp only [due, level, Item.weight, weight]; omega
    have hs_h1 := h1.some' (by simp) hc_h1
    have g_h1 := ih_h1 (by simp) (by simpa only [due, level, Item.weight, weight] using hc_h1) (hr.sub (h.suffix) (List.suffix_refl _) hs_h1)
    exact .classStmt (h.app rest) g_h1
  | @importBare i m j w h h1 hw  =>
    intro hx hc hr
    have := h.depth_eq (0) rfl
    have := h1.depth_eq (0) rfl
    simp only [due, level, Item.weight, weight] at *
    exact .importBare (h.app rest) (h1.app rest) hw
  | @importFrom i m n o j w ss h h1 h2 h3 hw  =>
    intro hx hc hr
    have := h.depth_eq (0) rfl
    have := h1.depth
    have := h2.depth_eq (0) rfl
    have := h3.depth_eq (0) rfl
    simp only [due, level, Item.weight, weight] at *
    exact .importFrom (h.app rest) (h1.app rest h2.some) (h2.app rest) (h3.app rest) hw
  | @declarator i j p h h' ih_h =>
    intro hx hc hr
    have := h.depth
    simp only [due, level, Item.weight, weight] at *
    have hc_h : level i + due (.pat p) = level j := by simp only [due, level, Item.weight, weight]; omega
    have hs_h := h.some' (by simp) hc_h
    have g_h := ih_h (by simp) (by simpa only [due, level, Item.weight, weight] using hc_h) (hr.sub (List.suffix_refl _) (List.suffix_refl _) hs_h)
    exact .declarator g_h (hr.look (fun e => EndsSemi.not_of_suffix (List.suffix_refl _) hs_h (h.last rfl e hc_h)) h' (fun s => s.not (by simp)))
  | @declaratorInit i m n j p e h h1 h2 ih_h ih_h2 =>
    intro hx hc hr
    have := h.depth
    have := h1.depth_eq (0) rfl
    have := h2.depth
    simp only [due, level, Item.weight, weight] at *
    have hc_h : level i + due (.pat p) = level m := by simp only [due, level, Item.weight, weight]; omega
    have hs_h := h.some' (by simp) hc_h
    have hc_h2 : level n + due (.whole 1 e) = level j := by simp only [due, level, Item.weight, weight]; omega
    have hs_h2 := h2.some' (by simp) hc_h2
    have g_h := ih_h (by simp) (by simpa only [due, level, Item.weight, weight] using hc_h) (hr.sub (List.suffix_refl _) ((h2.suffix).trans (h1.suffix)) hs_h)
    have g_h2 := ih_h2 (by simp) (by simpa only [due, level, Item.weight, weight] using hc_h2) (hr.sub ((h1.suffix).trans (h.suffix)) (List.suffix_refl _) hs_h2)
    exact .declaratorInit g_h (h1.app rest) g_h2
  | @declaratorsLast i j d h h' ih_h =>
    intro hx hc hr
    have := h.depth
    simp only [due, level, Item.weight, weight] at *
    have hc_h : level i + due (.declarator d) = level j := by simp only [due, level, Item.weight, weight]; omega
    have hs_h := h.some' (by simp) hc_h
    have g_h := ih_h (by simp) (by simpa only [due, level, Item.weight, weight] using hc_h) (hr.sub (List.suffix_refl _) (List.suffix_refl _) hs_h)
    exact .declaratorsLast g_h (hr.look (fun e => EndsSemi.not_of_suffix (List.suffix_refl _) hs_h (h.last rfl e hc_h)) h' (fun s => s.not (by simp)))
  | @declaratorsMore i m n j d ds h h1 h2 ih_h ih_h2 =>
    intro hx hc hr
    have := h.depth
    have := h1.depth_eq (0) rfl
    have := h2.depth
    simp only [due, level, Item.weight, weight] at *
    have hc_h : level i + due (.declarator d) = level m := by simp only [due, level, Item.weight, weight]; omega
    have hs_h := h.some' (by simp) hc_h
    have hc_h2 : level n + due (.declarators ds) = level j := by simp only [due, level, Item.weight, weight]; omega
    have hs_h2 := h2.some' (by simp) hc_h2
    have g_h := ih_h (by simp) (by simpa only [due, level, Item.weight, weight] using hc_h) (hr.sub (List.suffix_refl _) ((h2.suffix).trans (h1.suffix)) hs_h)
    have g_h2 := ih_h2 (by simp) (by simpa only [due, level, Item.weight, weight] using hc_h2) (hr.sub ((h1.suffix).trans (h.suffix)) (List.suffix_refl _) hs_h2)
    exact .declaratorsMore g_h (h1.app rest) g_h2
  | @programEnd   =>
    intro hx hc hr
    exact absurd rfl (hx _)
  | @programMore i m j s ss h h1 ih_h ih_h1 =>
    intro hx hc hr
    exact absurd rfl (hx _)

/-- A program and what follows it. -/
theorem Spec.G.program_append {rest : List Item} {i : List Item} {ss ss' : List Stmt} (h' : G rest (.program ss') []) :
    G i (.program ss) [] → level i = 0 → (i = [] ∨ Room rest i []) → G (i ++ rest) (.program (ss ++ ss')) [] := by
  intro h
  generalize hx : Phrase.program ss = x at h
  generalize hj : ([] : List Item) = j at h
  intro hc hr
  induction h generalizing ss <;> try (cases hx; done)
  case programEnd => cases hx; exact h'
  case programMore i m j s ss h h1 ih ih1 =>
    cases hx
    subst hj
    clear ih
    have h2 := h.depth
    have h3 := h1.depth
    simp only [due, level] at h2 h3
    have hs := h.some rfl
    have hr := hr.resolve_left hs
    have ha := h.append (rest := rest) (by simp) (by simp only [due]; omega)
      (hr.sub (List.suffix_refl _) h1.suffix hs)
    refine .programMore ha (ih1 rfl rfl (by omega) ?_)
    by_cases hm : m = []
    · exact .inl hm
    · exact .inr (hr.sub h.suffix (List.suffix_refl _) hm)

end Ratel
