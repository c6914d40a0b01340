import Verif.Lemmas.SoundExpr
/-! Statements of error-free runs are phrases of the grammar. -/
namespace Ratel
open Spec

set_option linter.unusedSectionVars false
variable [Unicode]

variable {src : Bytes} {n : Nat} {R : Rec} [Rec.Known src R] [hR : Rec.Gs src R]

/-! ### Declarations -/

instance : Gs src (variableDeclarator n R) fun d => .declarator (bareDeclarator d) := ⟨fun l hl => by
  unfold variableDeclarator
  go
  · back
    rule G.declaratorInit
  · back
    rule G.declarator⟩

instance : Gs src (variableDeclarators n R) fun ds => .declarators (bareDeclarators ds) := ⟨fun l hl => by
  unfold variableDeclarators
  go
  rename_i hm hx
  refine W.loop (src := src) (fun acc m => At src m ∧ ∀ j xs k, Str m j →
    ((xs = [] ∧ k = j ∧ look j ≠ .Comma) ∨ ∃ n, Tk .Comma j n ∧ G n (.declarators (bareDeclarators xs)) k) →
      ∃ i, Str l i ∧ G i (.declarators (bareDeclarators (acc ++ xs))) k)
    (fun acc m hm => ?_) (by mono) ⟨hm, fun j xs k g1 g2 => ?_⟩
  · obtain ⟨k1, k3⟩ := hm
    refine .tok ?_
    split
    · go
      rename_i m2 hx
      refine ⟨m2, fun j xs k g1 g2 => ?_⟩
      obtain ⟨i, g3, g4⟩ := hx j g1
      obtain ⟨i', g5, g6, -⟩ := g3.plain (src := src) (l := m) (t := .Comma) (by assumption) (by assumption) rfl
      have := k3 i' (a :: xs) k g5 (.inr ⟨_, g6.tk, by
        rcases g2 with ⟨rfl, rfl, g2⟩ | ⟨o, g7, g8⟩
        · exact .declaratorsLast g4 g2
        · exact .declaratorsMore g4 g7 g8⟩)
      simpa using this
    · rename_i ht
      refine .pure fun j hs => ?_
      have := k3 j [] j hs (.inl ⟨rfl, rfl, by rw [← hs.token]; exact ht⟩)
      simpa using this
  · obtain ⟨i, g3, g4⟩ := hx j g1
    refine ⟨i, g3, ?_⟩
    rcases g2 with ⟨rfl, rfl, g2⟩ | ⟨o, g7, g8⟩
    · exact .declaratorsLast g4 g2
    · exact .declaratorsMore g4 g7 g8⟩

theorem declaration_sound {l : Lex} {t : Token} {k : DeclKind} (hl : At src l) (ht : l.token = t) (hs : special t = false)
    (hk : declKindOf t = some k) : W (variableDeclarationStatement n R k) l fun s l' => Got l (.stmt (bareStmt s)) l' := by
  unfold variableDeclarationStatement
  go
  have hsp := hs
  clear hs
  intro j hs
  unwind
  obtain ⟨i, h1, h2, -⟩ := hs.plain (src := src) (l := l) (by assumption) ht hsp
  replace hs := h1
  rule G.declStmt

/-! ### Jumps -/

theorem semi_written {l l' : Lex} (ha : l.asi = .ExplicitSemicolon) (hl : At src l) (hn : Nxt src l l') : Via l (fun i j => Semi i j) l' := by
  intro j hs
  obtain ⟨i, h1, h2, h3⟩ := hs.plain hn (hl.proper.explicit.1 ha) rfl
  refine ⟨i, h1, ?_⟩
  rw [h3, ha]
  exact .written

instance : Rs src (returnStatement R) fun l s l' => l.token = .Return → Got l (.stmt (bareStmt s)) l' := ⟨fun l hl => by
  unfold returnStatement
  go
  · intro ht
    back
    rule G.retValue
  · intro ht
    back
    have : Semi j j := .inserted (by simp [*])
    rule G.ret
  · intro ht
    have := semi_written (src := src) (by assumption) (by assumption) (by assumption)
    back
    rule G.ret⟩

/-- What a jump has read. -/
def JumpGot (t : Token) (l : Lex) (r : Loc × Option Ident) (l' : Lex) : Prop :=
  match r.2 with
  | none => Via l (fun i j => ∃ m, Tk t i m ∧ Semi m j) l'
  | some w => Via l (fun i j => ∃ m n, Tk t i m ∧ semicolon m = .NoSemicolon ∧ Wd .Identifier w.name m n ∧ Semi n j) l'

theorem jump_sound {l : Lex} {t : Token} (hl : At src l) (ht : l.token = t) (hsp : special t = false) :
    W jumpStatement l (JumpGot t l) := by
  unfold jumpStatement
  go
  · rename_i n1 _ _ _ n2
    have := semi_written (src := src) (by assumption) (by assumption) n2
    unfold JumpGot
    intro j hs
    unwind
    obtain ⟨i, h1, h2, -⟩ := hs.plain n1 ht hsp
    exact ⟨i, h1, _, h2.tk, by assumption⟩
  · rename_i n1 _ _
    unfold JumpGot
    intro j hs
    have := hs.asi
    obtain ⟨i, h1, h2, -⟩ := hs.plain n1 ht hsp
    exact ⟨i, h1, _, h2.tk, .inserted (by simp_all)⟩
  · unfold JumpGot
    intro j hs
    unwind
    obtain ⟨i, h1, h2, -⟩ := hs.plain (src := src) (l := l) (by assumption) ht hsp
    exact ⟨i, h1, _, _, h2.tk, by simp_all, by assumption, by assumption⟩

instance : Rs src (throwStatement R) fun l s l' => l.token = .Throw → Got l (.stmt (bareStmt s)) l' := ⟨fun l hl => by
  unfold throwStatement
  go
  intro ht
  back
  rule G.throw⟩

/-! ### Compound statements -/

instance : Rs src (catchClause n R) fun l s l' => l.token = .Catch → Got l (.catch (bareCatch s)) l' := ⟨fun l hl => by
  unfold catchClause
  go
  intro ht
  back
  rule G.catch⟩

instance : Rs src (tryStatement n R) fun l s l' => l.token = .Try → Got l (.stmt (bareStmt s)) l' := ⟨fun l hl => by
  unfold tryStatement
  go
  · intro ht
    have := (by assumption : _ = Token.Catch → _) (by assumption)
    back
    rule G.tryCatchFinally
  · intro ht
    have := (by assumption : _ = Token.Catch → _) (by assumption)
    back
    rule G.tryCatch
  · intro ht
    back
    rule G.tryFinally⟩

instance : Rs src (ifStatement R) fun l s l' => l.token = .If → Got l (.stmt (bareStmt s)) l' := ⟨fun l hl => by
  unfold ifStatement
  go
  · intro ht
    back
    rule G.ifElse
  · intro ht
    back
    rule G.ifThen⟩

instance : Rs src (whileStatement R) fun l s l' => l.token = .While → Got l (.stmt (bareStmt s)) l' := ⟨fun l hl => by
  unfold whileStatement
  go
  intro ht
  back
  rule G.whileLoop⟩

instance : Rs src (doStatement R) fun l s l' => l.token = .Do → Got l (.stmt (bareStmt s)) l' := ⟨fun l hl => by
  unfold doStatement
  go
  intro ht
  back
  rule G.doLoop⟩

/-! ### Switch -/

/-- What a case has read. -/
def CaseGot (l : Lex) (c : SwitchCase) (l' : Lex) : Prop :=
  Got l (.switchCase (bareCase c)) l' ∧ l'.token ≠ .EndOfProgram

theorem bareStmts_append (xs ys : List Stmt) : bareStmts (xs ++ ys) = bareStmts xs ++ bareStmts ys := by
  induction xs with
  | nil => rfl
  | cons x xs ih => simp [bareStmts, ih]

theorem caseBody_sound {l : Lex} {e : Nat} (hl : At src l) :
    W (loop n (fun (e, acc) => do
      match ← tok with
      | .Case | .Default | .BraceClose => pure (.done (e, acc))
      | _ => do
        let st ← R.stmt
        pure (.again (st.loc.stop, acc ++ [st]))) (e, [])) l fun r l' => Got l (.caseBody (bareStmts r.2)) l' ∧ l'.token ≠ .EndOfProgram := by
  refine W.loop (src := src) (fun s m => At src m ∧ ∀ j xs k, Str m j → G j (.caseBody (bareStmts xs)) k →
    ∃ i, Str l i ∧ G i (.caseBody (bareStmts (s.2 ++ xs))) k) (fun s m hm => ?_) (by mono) ⟨hl, fun j xs k g1 g2 => ⟨j, g1, by simpa using g2⟩⟩
  obtain ⟨e, acc⟩ := s
  obtain ⟨k1, k2⟩ := hm
  have fin : m.token = .Case ∨ m.token = .Default ∨ m.token = .BraceClose → Got l (.caseBody (bareStmts acc)) m ∧ m.token ≠ .EndOfProgram := by
    intro h
    refine ⟨fun j hs => ?_, by rcases h with h | h | h <;> simp [h]⟩
    have := k2 j [] j hs (.caseBodyEnd (by rw [← hs.token]; exact h))
    simpa using this
  go
  · exact fin (.inl (by assumption))
  · exact fin (.inr (.inl (by assumption)))
  · exact fin (.inr (.inr (by assumption)))
  · rename_i h hg
    refine ⟨h, fun j xs k g1 g2 => ?_⟩
    obtain ⟨i, g3, g4⟩ := hg j g1
    have := k2 i (a :: xs) k g3 (.caseBodyMore g4 g2)
    simpa using this

theorem switchCase_sound {l : Lex} (hl : At src l) : W (switchCase n R) l (CaseGot l) := by
  unfold switchCase
  go
  · rename_i hm _
    refine .bind (src := src) ((caseBody_sound hm).weaken fun r l' h => ?_) (fun _ => by mono)
    obtain ⟨e, b⟩ := r
    refine .pure ⟨?_, h.2⟩
    back
    rule G.case
  · rename_i hm _
    refine .bind (src := src) ((caseBody_sound hm).weaken fun r l' h => ?_) (fun _ => by mono)
    obtain ⟨e, b⟩ := r
    refine .pure ⟨?_, h.2⟩
    back
    rule G.default

instance : Rs src (block n (switchCase n R)) fun l b l' => Via l (fun i j => ∃ m, Tk .BraceOpen i m ∧ G m (.cases (bareCases b.2)) j) l' := ⟨fun l hl => by
  intro b l' hr j hs
  obtain ⟨i, m, h1, h2, h3, h4⟩ := block_sound (src := src) (T := fun cs i j => G i (.cases (bareCases cs)) j) (E := fun l => l.token ≠ .EndOfProgram)
    (fun l hl => switchCase_sound hl) (fun h1 h2 => .casesMore h1 h2) (fun h => .casesClose h) (fun l h1 h2 => absurd h2 h1) hl b l' hr j hs
  exact ⟨i, h1, m, h2, h3⟩⟩

instance : Rs src (switchStatement n R) fun l s l' => l.token = .Switch → Got l (.stmt (bareStmt s)) l' := ⟨fun l hl => by
  unfold switchStatement
  go
  intro ht
  back
  obtain ⟨m, _, _⟩ := (by assumption : ∃ m, Tk .BraceOpen _ m ∧ G m _ _)
  rule G.switch⟩

end Ratel
