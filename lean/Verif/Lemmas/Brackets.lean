import Verif.Spec.Brackets
/-! Brackets match in the phrases of the grammar. -/
namespace Ratel
open Spec

/-- The items from `i` to `j`, read with `p` open, leave nothing open; or `j` is the end and they leave braces open. -/
def Closed (p : List Bracket) (i j : List Item) : Prop :=
  ∃ o, (∀ b ∈ o, b = .brace) ∧ (o ≠ [] → j = []) ∧ (∃ c, i = c ++ j) ∧
    ∀ st, openAfter (p ++ st) i = openAfter (o ++ st) j

/-- What is open where a phrase begins and closed by it. -/
def opened : Phrase → Option (List Bracket)
  | .params _ => some [.paren]
  | .membersTail _ | .stmtsTail _ | .cases _ => some [.brace]
  | .templateTail _ _ => some [.template]
  | .optExpr .Semicolon _ => some []
  | .optExpr .ParenClose _ => some [.paren]
  | .optExpr _ _ => none
  | _ => some []

def plain : Token → Bool
  | .ParenOpen | .BracketOpen | .BraceOpen | .TemplateOpen | .ParenClose | .BracketClose | .BraceClose => false
  | _ => true

theorem step_plain {t : Token} (h : plain t = true) (s : List Bracket) (w : Bytes) (a : Asi) :
    bracketStep s (.tok t w a) = some s := by
  cases t <;> first | rfl | cases h

theorem open_plain {t : Token} (h : plain t = true) (s : List Bracket) (w : Bytes) (a : Asi) (r : List Item) :
    openAfter s (.tok t w a :: r) = openAfter s r := by
  rw [openAfter, step_plain h]; rfl

namespace Closed
variable {p : List Bracket} {i m n j : List Item}

theorem refl : Closed [] j j := ⟨[], by simp, by simp, ⟨[], rfl⟩, fun _ => rfl⟩

theorem cons {t : Token} {w : Bytes} {a : Asi} (h : plain t = true) (hc : Closed p m j) : Closed p (.tok t w a :: m) j := by
  obtain ⟨o, h1, h2, ⟨c, rfl⟩, h3⟩ := hc
  exact ⟨o, h1, h2, ⟨_ :: c, rfl⟩, fun st => by rw [open_plain h, h3]⟩

theorem seq (h : Closed [] i m) (h' : Closed p m j) (hp : m ≠ [] ∨ ∀ b ∈ p, b = .brace) : Closed p i j := by
  obtain ⟨o, h1, h2, ⟨c, rfl⟩, h3⟩ := h
  obtain ⟨o', h1', h2', ⟨c', rfl⟩, h3'⟩ := h'
  by_cases ho : o = []
  · subst ho
    exact ⟨o', h1', h2', ⟨c ++ c', by simp⟩, fun st => by rw [← h3']; exact h3 (p ++ st)⟩
  · have hm := h2 ho
    obtain ⟨rfl, rfl⟩ : c' = [] ∧ j = [] := by simpa using hm
    refine ⟨o ++ p, ?_, fun _ => rfl, ⟨c, by simp⟩, fun st => ?_⟩
    · intro b hb
      rcases List.mem_append.1 hb with hb | hb
      · exact h1 b hb
      · rcases hp with hp | hp
        · simp at hp
        · exact hp b hb
    · have := h3 (p ++ st)
      simpa [List.append_assoc] using this

theorem regex {w : Bytes} {a : Asi} (hc : Closed p m j) : Closed p (.regex w a :: m) j := by
  obtain ⟨o, h1, h2, ⟨c, rfl⟩, h3⟩ := hc
  exact ⟨o, h1, h2, ⟨_ :: c, rfl⟩, fun st => h3 st⟩

theorem then_ (h : Closed p i m) (h' : Closed [] m j) : Closed p i j := by
  obtain ⟨o, h1, h2, ⟨c, rfl⟩, h3⟩ := h
  obtain ⟨o', h1', h2', ⟨c', rfl⟩, h3'⟩ := h'
  by_cases ho : o = []
  · subst ho
    exact ⟨o', h1', h2', ⟨c ++ c', by simp⟩, fun st => by rw [← h3']; exact h3 st⟩
  · have hm := h2 ho
    obtain ⟨rfl, rfl⟩ : c' = [] ∧ j = [] := by simpa using hm
    exact ⟨o, h1, h2, ⟨c, by simp⟩, h3⟩

theorem import_ {w : Bytes} {a : Asi} (h : Closed p (.tok .Identifier w a :: i) j) (hj : j.length ≤ i.length) :
    Closed p (.tok .Import w a :: i) j := by
  obtain ⟨o, h1, h2, ⟨c, hc⟩, h3⟩ := h
  cases c with
  | nil => have := congrArg List.length hc; simp at this; omega
  | cons x c =>
    obtain ⟨-, rfl⟩ := List.cons.inj hc
    exact ⟨o, h1, h2, ⟨_ :: c, rfl⟩, h3⟩

theorem paren_some (h : Closed [.paren] i j) : i ≠ [] := by
  rintro rfl
  obtain ⟨o, h1, h2, ⟨c, hc⟩, h3⟩ := h
  obtain ⟨rfl, rfl⟩ : c = [] ∧ j = [] := by simpa using hc.symm
  have := h3 []
  simp [openAfter] at this
  subst this
  exact absurd (h1 .paren (by simp)) (by simp)

theorem inside {c : Token} {w : Bytes} {a : Asi} (h : Closed [] i (.tok c w a :: j)) (st : List Bracket) :
    openAfter st i = openAfter st (.tok c w a :: j) := by
  obtain ⟨o, h1, h2, -, h3⟩ := h
  have : o = [] := by
    cases o with
    | nil => rfl
    | cons x o => exact absurd (h2 (by simp)) (by simp)
  subst this
  exact h3 st

theorem suffix (h : Closed p i j) : ∃ c, i = c ++ j := by obtain ⟨_, _, _, h, _⟩ := h; exact h

theorem paren (h : Tk .ParenOpen i m) (hc : Closed [.paren] m j) : Closed [] i j := by
  obtain ⟨w, a, rfl⟩ := h
  obtain ⟨o, h1, h2, ⟨c, rfl⟩, h3⟩ := hc
  exact ⟨o, h1, h2, ⟨_ :: c, rfl⟩, fun st => h3 st⟩
theorem bracket (h : Tk .BracketOpen i m) (hc : Closed [.bracket] m j) : Closed [] i j := by
  obtain ⟨w, a, rfl⟩ := h
  obtain ⟨o, h1, h2, ⟨c, rfl⟩, h3⟩ := hc
  exact ⟨o, h1, h2, ⟨_ :: c, rfl⟩, fun st => h3 st⟩
theorem brace (h : Tk .BraceOpen i m) (hc : Closed [.brace] m j) : Closed [] i j := by
  obtain ⟨w, a, rfl⟩ := h
  obtain ⟨o, h1, h2, ⟨c, rfl⟩, h3⟩ := hc
  exact ⟨o, h1, h2, ⟨_ :: c, rfl⟩, fun st => h3 st⟩
theorem template {w : Bytes} (h : Wd .TemplateOpen w i m) (hc : Closed [.template] m j) : Closed [] i j := by
  obtain ⟨a, rfl⟩ := h
  obtain ⟨o, h1, h2, ⟨c, rfl⟩, h3⟩ := hc
  exact ⟨o, h1, h2, ⟨_ :: c, rfl⟩, fun st => h3 st⟩

theorem endParen (h : Tk .ParenClose i m) (hc : Closed [] m j) : Closed [.paren] i j := by
  obtain ⟨w, a, rfl⟩ := h
  obtain ⟨o, h1, h2, ⟨c, rfl⟩, h3⟩ := hc
  exact ⟨o, h1, h2, ⟨_ :: c, rfl⟩, fun st => h3 st⟩
theorem endBracket (h : Tk .BracketClose i m) (hc : Closed [] m j) : Closed [.bracket] i j := by
  obtain ⟨w, a, rfl⟩ := h
  obtain ⟨o, h1, h2, ⟨c, rfl⟩, h3⟩ := hc
  exact ⟨o, h1, h2, ⟨_ :: c, rfl⟩, fun st => h3 st⟩
theorem endBrace (h : Tk .BraceClose i m) (hc : Closed [] m j) : Closed [.brace] i j := by
  obtain ⟨w, a, rfl⟩ := h
  obtain ⟨o, h1, h2, ⟨c, rfl⟩, h3⟩ := hc
  exact ⟨o, h1, h2, ⟨_ :: c, rfl⟩, fun st => h3 st⟩
theorem endTemplate {w : Bytes} : Closed [.template] (.resume true w :: j) j :=
  ⟨[], by simp, by simp, ⟨[_], rfl⟩, fun st => rfl⟩
theorem goOn {w : Bytes} (h : Closed [.template] m j) : Closed [.template] (.resume false w :: m) j := by
  obtain ⟨o, h1, h2, ⟨c, rfl⟩, h3⟩ := h
  exact ⟨o, h1, h2, ⟨_ :: c, rfl⟩, fun st => h3 st⟩
theorem endAll : Closed [.brace] [] [] :=
  ⟨[.brace], by simp, by simp, ⟨[], rfl⟩, fun st => rfl⟩

theorem tk {t : Token} (h : Tk t i m) (ht : plain t = true) (hc : Closed p m j) : Closed p i j := by
  obtain ⟨w, a, rfl⟩ := h
  exact hc.cons ht
theorem wd {t : Token} {w : Bytes} (h : Wd t w i m) (ht : plain t = true) (hc : Closed p m j) : Closed p i j := by
  obtain ⟨a, rfl⟩ := h
  exact hc.cons ht

end Closed

theorem Spec.Tk.some {t : Token} {i j : List Item} (h : Tk t i j) : i ≠ [] := by obtain ⟨w, a, rfl⟩ := h; simp
theorem Spec.Wd.some {t : Token} {w : Bytes} {i j : List Item} (h : Wd t w i j) : i ≠ [] := by obtain ⟨a, rfl⟩ := h; simp
theorem Spec.look_some {t : Token} {i : List Item} (h : look i = t) (ht : t ≠ .EndOfProgram) : i ≠ [] := by
  rintro rfl; exact ht h.symm

theorem plain_word {t : Token} (h : t.isWord = true) : plain t = true := by
  cases t <;> first | rfl | cases h
theorem plain_literal {t : Token} {w : Bytes} {v : Literal} (h : literalOf t w = some v) : plain t = true := by
  cases t <;> first | rfl | cases h
theorem plain_binary {t : Token} {x : Op × Nat} (h : binaryOp t = some x) : plain t = true := by
  cases t <;> first | rfl | cases h
theorem plain_assign {t : Token} {x : Op} (h : assignOp t = some x) : plain t = true := by
  cases t <;> first | rfl | cases h
theorem plain_prefix {t : Token} {x : Op} (h : prefixOp t = some x) : plain t = true := by
  cases t <;> first | rfl | cases h
theorem plain_postfix {t : Token} {x : Op} (h : postfixOp t = some x) : plain t = true := by
  cases t <;> first | rfl | cases h
theorem plain_decl {t : Token} {x : DeclKind} (h : declKindOf t = some x) : plain t = true := by
  cases t <;> first | rfl | cases h

section
variable {i j : List Item}

theorem Spec.Semi.closed (h : Semi i j) : Closed [] i j := by
  cases h with
  | written => exact Closed.refl.cons rfl
  | inserted => exact .refl
theorem Spec.OptSemi.closed (h : OptSemi i j) : Closed [] i j := by
  cases h with
  | written h => exact Closed.refl.tk h rfl
  | absent => exact .refl
theorem Spec.NameAt.closed {k : Naming} {n : Name} (h : NameAt k i n j) : Closed [] i j := by
  cases h with
  | never => exact .refl
  | given h => exact Closed.refl.wd h rfl
  | missing => exact .refl
  | always h => exact Closed.refl.wd h rfl
theorem Spec.StarAt.closed {b : Bool} (h : StarAt i b j) : Closed [] i j := by
  cases h with
  | yes h => exact Closed.refl.tk h rfl
  | no => exact .refl
theorem Spec.StaticAt.closed {b : Bool} (h : StaticAt i b j) : Closed [] i j := by
  cases h with
  | yes h => exact Closed.refl.tk h rfl
  | no => exact .refl
theorem Spec.ImportName.closed {s : ImportSpec} (h : ImportName i s j) : Closed [] i j := by
  cases h with
  | plain h => exact Closed.refl.wd h rfl
  | renamed h h1 h2 => exact ((Closed.refl.wd h2 rfl).wd h1 rfl).wd h rfl
theorem Spec.ImportNames.closed {s : List ImportSpec} (h : ImportNames i s j) : Closed [.brace] i j := by
  induction h with
  | last h h1 => exact h.closed.seq (.endBrace h1 .refl) (.inl h1.some)
  | more h h1 _ ih => exact h.closed.seq (ih.tk h1 rfl) (.inl h1.some)
theorem Spec.ImportGroup.closed {s : List ImportSpec} (h : ImportGroup i s j) : Closed [] i j := by
  cases h with
  | names h h1 => exact .brace h h1.closed
  | all h h1 h2 => exact ((Closed.refl.wd h2 rfl).wd h1 rfl).tk h rfl
theorem Spec.ImportHead.closed {s : List ImportSpec} (h : ImportHead i s j) : Closed [] i j := by
  cases h with
  | one h => exact Closed.refl.wd h rfl
  | both h h1 h2 => exact (h2.closed.tk h1 rfl).wd h rfl
  | group h => exact h.closed

end

theorem plain_two {t : Token} (h : t = .LiteralString ∨ t = .LiteralNumber) : plain t = true := by
  rcases h with rfl | rfl <;> rfl
theorem tail_some {n j : List Item} {es : List Expr} {qs : List Ident} (h : G n (.templateTail es qs) j) : n ≠ [] := by
  cases h <;> simp

macro "plainly" : tactic => `(tactic| first
  | rfl | exact plain_word (by assumption) | exact plain_literal (by assumption) | exact plain_binary (by assumption)
  | exact plain_assign (by assumption) | exact plain_prefix (by assumption) | exact plain_postfix (by assumption)
  | exact plain_decl (by assumption)
  | exact plain_two (by assumption))

macro "nonempty" : tactic => `(tactic| first
  | (refine Or.inr ?_; simp; done)
  | exact Or.inl (Spec.Tk.some (by assumption))
  | exact Or.inl (Spec.Wd.some (by assumption))
  | exact Or.inl (List.cons_ne_nil _ _)
  | exact Or.inl (tail_some (by assumption))
  | exact Or.inl (Closed.paren_some (by assumption))
  | exact Or.inl (Spec.look_some (by assumption) (by decide))
  | assumption)

macro "closed_step" : tactic => `(tactic| first
  | assumption
  | exact Closed.refl
  | exact Closed.endAll
  | exact Closed.endTemplate
  | apply Closed.goOn
  | refine Closed.endParen (by assumption) ?_
  | refine Closed.endBracket (by assumption) ?_
  | refine Closed.endBrace (by assumption) ?_
  | refine Closed.paren (by assumption) ?_
  | refine Closed.bracket (by assumption) ?_
  | refine Closed.brace (by assumption) ?_
  | refine Closed.template (by assumption) ?_
  | refine Closed.tk (by assumption) (by plainly) ?_
  | refine Closed.wd (by assumption) (by plainly) ?_
  | refine Closed.cons (by plainly) ?_
  | refine Closed.seq (Spec.Semi.closed (by assumption)) ?_ (by nonempty)
  | refine Closed.seq (Spec.OptSemi.closed (by assumption)) ?_ (by nonempty)
  | refine Closed.seq (Spec.NameAt.closed (by assumption)) ?_ (by nonempty)
  | refine Closed.seq (Spec.StarAt.closed (by assumption)) ?_ (by nonempty)
  | refine Closed.seq (Spec.StaticAt.closed (by assumption)) ?_ (by nonempty)
  | refine Closed.seq (Spec.ImportHead.closed (by assumption)) ?_ (by nonempty)
  | refine Closed.seq (by assumption) ?_ (by nonempty)
  | refine Closed.then_ (by assumption) ?_
  | refine Closed.regex ?_)

theorem Spec.Tk.length {t : Token} {i j : List Item} (h : Tk t i j) : i.length = j.length + 1 := by
  obtain ⟨w, a, rfl⟩ := h; rfl
theorem Spec.Wd.length {t : Token} {w : Bytes} {i j : List Item} (h : Wd t w i j) : i.length = j.length + 1 := by
  obtain ⟨a, rfl⟩ := h; rfl
theorem Closed.length {p : List Bracket} {i j : List Item} (h : Closed p i j) : j.length ≤ i.length := by
  obtain ⟨c, rfl⟩ := h.suffix; simp

/-- At least `k` items from `i` to `j`. -/
def Short (k : Nat) (i j : List Item) : Prop := j.length + k ≤ i.length

namespace Short
variable {k k' : Nat} {i m j : List Item}
theorem refl : Short 0 j j := Nat.le_refl _
theorem seq (h : Short k' i m) (h' : Short (k - k') m j) : Short k i j := by
  unfold Short at *; omega
theorem tk {t : Token} (h : Tk t i m) (h' : Short (k - 1) m j) : Short k i j := by
  have := h.length; unfold Short at *; omega
theorem wd {t : Token} {w : Bytes} (h : Wd t w i m) (h' : Short (k - 1) m j) : Short k i j := by
  have := h.length; unfold Short at *; omega
theorem cons {x : Item} (h' : Short (k - 1) m j) : Short k (x :: m) j := by
  unfold Short at *; simp; omega
theorem of {p : List Bracket} (h : Closed p i m) (h' : Short k m j) : Short k i j := by
  have := h.length; unfold Short at *; omega
theorem import_ {x y : Item} (h : Short k (x :: i) j) : Short k (y :: i) j := h
end Short

/-- The least number of items of a phrase. -/
def least : Phrase → Nat
  | .expr _ _ | .whole _ _ | .template _ _ => 1
  | _ => 0

macro "short_step" : tactic => `(tactic| first
  | assumption
  | exact Short.refl
  | refine Short.tk (by assumption) ?_
  | refine Short.wd (by assumption) ?_
  | refine Short.seq (by assumption) ?_
  | refine Short.of (Spec.Semi.closed (by assumption)) ?_
  | refine Short.of (Spec.OptSemi.closed (by assumption)) ?_
  | refine Short.of (Spec.NameAt.closed (by assumption)) ?_
  | refine Short.of (Spec.StarAt.closed (by assumption)) ?_
  | refine Short.of (Spec.StaticAt.closed (by assumption)) ?_
  | refine Short.of (Spec.ImportHead.closed (by assumption)) ?_
  | refine Short.cons ?_)

/-- An expression has at least one item. -/
theorem Spec.G.short {i j : List Item} {x : Phrase} (h : G i x j) : Short (least x) i j := by
  induction h
  case importExpr h _ ih => exact ih.import_.seq (.of (Spec.Semi.closed (by assumption)) .refl)
  all_goals
    simp only [least] at *
    repeat' (short_step)

theorem Spec.G.closed {i j : List Item} {x : Phrase} (h : G i x j) : ∀ p, opened x = some p → Closed p i j := by
  induction h
  case importExpr h h5 ih =>
    intro p hp
    cases hp
    refine ((ih _ rfl).import_ ?_).then_ h5.closed
    have := h.short
    simp [Short, least] at this
    omega
  case optExprNone t h =>
    intro p hp
    cases t <;> cases hp
    · exact Closed.refl.tk h rfl
    · exact .endParen h .refl
  case optExprSome t _ h h1 ih =>
    intro p hp
    have ih := ih _ rfl
    cases t <;> cases hp
    · exact ih.then_ (Closed.refl.tk h1 rfl)
    · exact ih.seq (.endParen h1 .refl) (.inl h1.some)
  all_goals
    intro p hp
    simp only [opened, Option.some.injEq, forall_eq'] at *
    subst hp
    repeat' (closed_step)

theorem Spec.G.brackets {i : List Item} {ss : List Stmt} (h : G i (.program ss) []) : BracketsMatch i := by
  obtain ⟨o, h1, -, -, h3⟩ := h.closed _ rfl
  refine ⟨o.length, ?_⟩
  have := h3 []
  rw [List.nil_append, List.append_nil] at this
  rw [this, openAfter]
  exact congrArg some (List.eq_replicate_iff.2 ⟨rfl, h1⟩)

end Ratel
