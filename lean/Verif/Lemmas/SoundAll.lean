import Verif.Lemmas.SoundFor
import Verif.Lemmas.SoundClass
import Verif.Lemmas.AcceptAll
/-! The program read by an error-free run is a program of the grammar. -/
namespace Ratel
open Spec

set_option linter.unusedSectionVars false
variable [Unicode]

section
variable {src : Bytes} {n : Nat} {R : Rec} [Rec.Known src R] [hR : Rec.Gs src R]

/-! ### Expression statements -/

theorem expressionStatement_sound {S : List Item → Prop} {e : Expr} {l : Lex} (hl : At src l) (hL : Left S 0 e l)
    (hS : ∀ i, S i → look i ≠ .BraceOpen ∧ look i ≠ .Function ∧ look i ≠ .Class ∧ (look i = .Identifier → look i.tail ≠ .Colon)) :
    W (expressionStatement n R e) l fun s l' => ∀ j, Str l' j → ∃ i, S i ∧ G i (.stmt (bareStmt s)) j := by
  unfold expressionStatement
  refine .call (src := src) hl (nested_sound (L := .ANY) hl hL) (fun e m hm _ hx => ?_) (fun _ => by mono)
  refine .rs (src := src) hm (fun _ l' h' hv => .pure fun j hs => ?_) (fun _ => by mono)
  obtain ⟨i1, g1, g2⟩ := hv j hs
  obtain ⟨i, g3, g4⟩ := hx i1 g1
  obtain ⟨q1, q2, q3, q4⟩ := hS i g3
  exact ⟨i, g3, .exprStmt q1 q2 q3 q4 g4 g2⟩

theorem labeled_sound {l : Lex} (hl : At src l) (ht : l.token = .Identifier) :
    W (labeledOrExpressionStatement n R) l fun s l' => Got l (.stmt (bareStmt s)) l' := by
  unfold labeledOrExpressionStatement
  refine .tokStr (.curLoc (.consume (src := src) hl fun l1 h1 n1 => .tok ?_))
  split
  · go
    back
    rule G.labeled
  · rename_i hc
    refine .call (src := src) h1 (nested_sound (L := .ANY) (S := fun i => Str l i ∧ look i = .Identifier ∧ look i.tail ≠ .Colon) h1
      (.operand (by decide) fun j hs => ?_)) (fun e m hm _ hx => ?_) (fun _ => by mono)
    · obtain ⟨i, g1, g2, rfl⟩ := hs.plain n1 ht rfl
      exact ⟨_, ⟨g1, rfl, by simpa [← hs.token] using hc⟩, .ident (Nat.le_refl _) g2⟩
    · refine .rs (src := src) hm (fun _ l' h' hv => .pure fun j hs => ?_) (fun _ => by mono)
      obtain ⟨i1, g1, g2⟩ := hv j hs
      obtain ⟨i, ⟨g3, g5, g6⟩, g4⟩ := hx i1 g1
      exact ⟨i, g3, .exprStmt (by simp [g5]) (by simp [g5]) (by simp [g5]) (fun _ => g6) g4 g2⟩

/-! ### Imports -/

theorem content_ok {β : Type} {f : Bytes → P β} {v : Bytes} {l : Lex} {Q : β → Lex → Prop} (h : 2 ≤ v.length → W (f (unquoted v)) l Q) :
    W (stringContent v >>= f) l Q := by
  unfold stringContent
  split
  · intro _ _ h; cases h
  · exact .pure_bind (h (by omega))

/-- The names in the braces of an import, read so far. -/
theorem importNamed_sound {l : Lex} {acc : List ImportSpec} (hl : At src l) :
    W (importNamed n acc) l fun r l' => ∃ ss, r = acc ++ ss ∧ Via l (fun i j => ImportNames i (ss.map bareSpec) j) l' := by
  unfold importNamed
  refine W.loop (src := src) (fun r m => At src m ∧ ∃ ss, r = acc ++ ss ∧ ∀ j xs k, Str m j → ImportNames j xs k →
      ∃ i, Str l i ∧ ImportNames i (ss.map bareSpec ++ xs) k) (fun r m hm => ?_) (by mono)
    ⟨hl, [], by simp, fun j xs k g1 g2 => ⟨j, g1, by simpa using g2⟩⟩
  obtain ⟨hm, ss, rfl, hg⟩ := hm
  have key : ∀ {m1 : Lex} (s : ImportSpec), Via m (fun i j => ImportName i (bareSpec s) j) m1 →
      (m1.token = .Comma → ∀ m2, At src m2 → Nxt src m1 m2 → (fun r m => At src m ∧ ∃ ss, r = acc ++ ss ∧ ∀ j xs k, Str m j → ImportNames j xs k →
        ∃ i, Str l i ∧ ImportNames i (ss.map bareSpec ++ xs) k) (acc ++ ss ++ [s]) m2) ∧
      (m1.token = .BraceClose → ∀ m2, Nxt src m1 m2 → ∃ ss', acc ++ ss ++ [s] = acc ++ ss' ∧ Via l (fun i j => ImportNames i (ss'.map bareSpec) j) m2) := by
    intro m1 s hv
    refine ⟨fun ht m2 h2 n2 => ⟨h2, ss ++ [s], by simp, fun j xs k g1 g2 => ?_⟩, fun ht m2 n2 => ⟨ss ++ [s], by simp, fun j hs => ?_⟩⟩
    · obtain ⟨i, g3, g4, -⟩ := g1.plain n2 ht rfl
      obtain ⟨i1, g5, g6⟩ := hv i g3
      have := hg i1 _ k g5 (.more g6 g4.tk g2)
      simpa using this
    · obtain ⟨i, g3, g4, -⟩ := hs.plain n2 ht rfl
      obtain ⟨i1, g5, g6⟩ := hv i g3
      have := hg i1 _ j g5 (.last g6 g4.tk)
      simpa using this
  have named : ∀ {m1 m2 m3 : Lex} {loc : Loc} {w w' : Ident}, Via m (fun i j => Wd .Identifier w.name i j) m1 → m1.token = .Identifier → m1.tokenAsStr = bs!"as" →
      Nxt src m1 m2 → Via m2 (fun i j => Wd .Identifier w'.name i j) m3 → Via m (fun i j => ImportName i (bareSpec (.named loc w w')) j) m3 := by
    intro m1 m2 m3 loc w w' g1 ht hw n2 g2 j hs
    obtain ⟨i, g3, g4⟩ := g2 j hs
    obtain ⟨i1, g5, g6, -⟩ := g3.plain n2 ht rfl
    rw [hw] at g6
    obtain ⟨i2, g7, g8⟩ := g1 i1 g5
    exact ⟨i2, g7, .renamed g8 g6 g4⟩
  have plain : ∀ {m1 : Lex} {loc : Loc} {w : Ident}, Via m (fun i j => Wd .Identifier w.name i j) m1 →
      ¬ (m1.token = .Identifier ∧ m1.tokenAsStr = bs!"as") → Via m (fun i j => ImportName i (bareSpec (.named loc w w)) j) m1 := by
    intro m1 loc w g1 hn j hs
    obtain ⟨i2, g7, g8⟩ := g1 j hs
    refine ⟨i2, g7, .plain g8 fun o ho => hn ?_⟩
    obtain ⟨h1, h2, -⟩ := hs.stream.wd ho
    rw [text_plain h1 rfl] at h2
    exact ⟨h1, h2⟩
  go
  · rename_i h0 g1 ht _ _ n1 _ _ g2 _ hc _ n2
    exact (key _ (named g1 ht.1 ht.2 n1 g2)).1 hc _ (by assumption) n2
  · rename_i h0 g1 ht _ _ n1 _ _ g2 _ hc _ n2
    exact (key _ (named g1 ht.1 ht.2 n1 g2)).2 hc _ n2
  · rename_i h0 g1 ht _ hc _ n2
    exact (key _ (plain g1 ht)).1 hc _ (by assumption) n2
  · rename_i h0 g1 ht _ hc _ n2
    exact (key _ (plain g1 ht)).2 hc _ n2

theorem importSecond_sound {l : Lex} {acc : List ImportSpec} (hl : At src l) :
    W (importSecond n acc) l fun r l' => ∃ ss, r = acc ++ ss ∧ Via l (fun i j => ImportGroup i (ss.map bareSpec) j) l' := by
  unfold importSecond
  go
  · rename_i ht h1 n1
    refine (importNamed_sound (src := src) h1).weaken ?_
    rintro _ l' ⟨ss, rfl, hv⟩
    refine ⟨ss, rfl, fun j hs => ?_⟩
    obtain ⟨i, g1, g2⟩ := hv j hs
    obtain ⟨i1, g3, g4, -⟩ := g1.plain n1 ht rfl
    exact ⟨i1, g3, .names g4.tk g2⟩
  · rename_i ht _ _ n1 hw _ _ n2 _ g1
    refine ⟨_, rfl, fun j hs => ?_⟩
    obtain ⟨i, h1, h2⟩ := g1 j hs
    obtain ⟨i1, h3, h4, -⟩ := h1.plain n2 hw.1 rfl
    rw [hw.2] at h4
    obtain ⟨i2, h5, h6, -⟩ := h3.plain n1 ht rfl
    exact ⟨i2, h5, .all h6.tk h4 h2⟩

theorem importFrom_sound {l0 l : Lex} {s : Nat} {specs : List ImportSpec} (hl : At src l)
    (hv : Via l0 (fun i j => ∃ m, Tk .Import i m ∧ ImportHead m (specs.map bareSpec) j) l) :
    W (importFrom s specs) l fun s l' => Got l0 (.stmt (bareStmt s)) l' := by
  unfold importFrom
  go
  rename_i hw _ n1 ht
  refine content_ok fun hlen => ?_
  go
  rename_i h2 n2
  intro j hs
  obtain ⟨i, g1, g2, -⟩ := hs.plain n2 ht rfl
  obtain ⟨i1, g3, g4, -⟩ := g1.plain n1 hw.1 rfl
  rw [hw.2] at g4
  obtain ⟨i2, g5, m, g6, g7⟩ := hv i1 g3
  exact ⟨i2, g5, .importFrom g6 g7 g4 g2 hlen⟩

theorem importDeclaration_sound {l : Lex} (hl : At src l) (ht : l.token = .Import) :
    W (importDeclaration n R) l fun s l' => Got l (.stmt (bareStmt s)) l' := by
  have call : ∀ {l1 : Lex}, At src l1 → Nxt src l l1 → l1.token = .Comma ∨ l1.token = .ParenOpen → W (do
      let e ← nestedExpression n R .ANY (.ident ⟨l.tokenStart, l.index⟩ l.tokenAsStr)
      expectSemicolon
      pure (.expr ⟨l.tokenStart, e.loc.stop⟩ e)) l1 fun s l' => Got l (.stmt (bareStmt s)) l' := by
    intro l1 h1 n1 hc
    refine .call (src := src) h1 (nested_sound (L := .ANY) (S := fun i => ∃ w a i1, i = .tok .Identifier w a :: i1 ∧
      Str l (.tok .Import w a :: i1) ∧ (look i1 = .Comma ∨ look i1 = .ParenOpen)) h1
      (.operand (by decide) fun j hs => ?_)) (fun e m hm _ hx => ?_) (fun _ => by mono)
    · obtain ⟨i, g1, g2, rfl⟩ := hs.plain n1 ht rfl
      exact ⟨_, ⟨_, _, _, rfl, g1, by rw [← hs.token]; exact hc⟩, .ident (Nat.le_refl _) ⟨_, rfl⟩⟩
    · refine .rs (src := src) hm (fun _ l' h' hv => .pure fun j hs => ?_) (fun _ => by mono)
      obtain ⟨i1, g1, g2⟩ := hv j hs
      obtain ⟨i, ⟨w, a, i1, rfl, g3, g6⟩, g4⟩ := hx i1 g1
      exact ⟨_, g3, .importExpr g6 g4 g2⟩
  have word : ∀ {l1 l2 : Lex} {w : Ident}, Nxt src l l1 → Via l1 (fun i j => Wd .Identifier w.name i j) l2 →
      Via l (fun i j => ∃ m, Tk .Import i m ∧ Wd .Identifier w.name m j) l2 := by
    intro l1 l2 w n1 g j hs
    obtain ⟨i, g1, g2⟩ := g j hs
    obtain ⟨i1, g3, g4, -⟩ := g1.plain n1 ht rfl
    exact ⟨i1, g3, _, g4.tk, g2⟩
  unfold importDeclaration
  refine .tokStr (.curLoc (.consume (src := src) hl fun l1 h1 n1 => .tok ?_))
  split
  · exact call h1 n1 (.inl (by assumption))
  · exact call h1 n1 (.inr (by assumption))
  · refine .start (.rs (src := src) h1 (fun w l2 h2 g => .stop (.tok ?_)) (fun _ => by mono))
    have hw := word n1 g
    split
    · rename_i hc
      refine .consume (src := src) h2 fun l3 h3 n3 => ?_
      refine .call (src := src) h3 (importSecond_sound (src := src) h3) (fun r m hm _ hx => ?_) (fun _ => by mono)
      obtain ⟨ss, rfl, hx⟩ := hx
      refine importFrom_sound hm fun j hs => ?_
      obtain ⟨i, g1, g2⟩ := hx j hs
      obtain ⟨i1, g3, g4, -⟩ := g1.plain n3 hc rfl
      obtain ⟨i2, g5, m, g6, g7⟩ := hw i1 g3
      exact ⟨i2, g5, m, g6, .both g7 g4.tk g2⟩
    · rename_i hc
      refine importFrom_sound h2 fun j hs => ?_
      obtain ⟨i2, g5, m, g6, g7⟩ := hw j hs
      exact ⟨i2, g5, m, g6, .one g7 (by rw [← hs.token]; exact hc)⟩
  · rename_i hst
    refine .start (.tokStr (content_ok fun hlen => ?_))
    refine .endThenConsume (src := src) h1 fun l2 h2 n2 => .pure fun j hs => ?_
    obtain ⟨i, g1, g2, -⟩ := hs.plain n2 hst rfl
    obtain ⟨i1, g3, g4, -⟩ := g1.plain n1 ht rfl
    exact ⟨i1, g3, .importBare g4.tk g2 hlen⟩
  · refine .call (src := src) h1 (importSecond_sound (src := src) h1) (fun r m hm _ hx => ?_) (fun _ => by mono)
    obtain ⟨ss, rfl, hx⟩ := hx
    refine importFrom_sound hm fun j hs => ?_
    obtain ⟨i, g1, g2⟩ := hx j hs
    obtain ⟨i1, g3, g4, -⟩ := g1.plain n1 ht rfl
    exact ⟨i1, g3, _, g4.tk, .group g2⟩

/-! ### Statements -/

/-- What the handlers of statements stand for. -/
def shSpec (t : Token) : SH → Bool
  | .ERR => true
  | .EMPT => t == .Semicolon
  | .DBGGR => t == .Debugger
  | .BLCK => t == .BraceOpen
  | .VAR => t == .DeclarationVar
  | .LET => t == .DeclarationLet
  | .CONS => t == .DeclarationConst
  | .RET => t == .Return
  | .BRK => t == .Break
  | .THRW => t == .Throw
  | .CONT => t == .Continue
  | .FUNC => t == .Function
  | .CLAS => t == .Class
  | .IF => t == .If
  | .WHL => t == .While
  | .DO => t == .Do
  | .FOR => t == .For
  | .TRY => t == .Try
  | .SWCH => t == .Switch
  | .LABL => t == .Identifier
  | .IMPT => t == .Import
  | .E h => ehSpec t h && h != .VOID && h != .SPRD && t != .BraceOpen && t != .Function && t != .Class && t != .Identifier

theorem stmt_spec (t : Token) : shSpec t (stmtHandler t) = true := by
  revert t
  exact forall_token (by decide +kernel)

theorem runSH_sound {h : SH} {l : Lex} (hl : At src l) (ht : shSpec l.token h = true) :
    W (runSH n R h) l fun s l' => Got l (.stmt (bareStmt s)) l' := by
  cases h <;> simp only [shSpec, beq_iff_eq] at ht
  case ERR => exact .start (.error (src := src) fun _ => .pure _)
  case VAR => exact declaration_sound hl ht rfl rfl
  case LET => exact declaration_sound hl ht rfl rfl
  case CONS => exact declaration_sound hl ht rfl rfl
  case RET => exact fun a l' hr => Rs.is (src := src) (m := returnStatement R) l hl a l' hr ht
  case THRW => exact fun a l' hr => Rs.is (src := src) (m := throwStatement R) l hl a l' hr ht
  case IF => exact fun a l' hr => Rs.is (src := src) (m := ifStatement R) l hl a l' hr ht
  case WHL => exact fun a l' hr => Rs.is (src := src) (m := whileStatement R) l hl a l' hr ht
  case DO => exact fun a l' hr => Rs.is (src := src) (m := doStatement R) l hl a l' hr ht
  case FOR => exact fun a l' hr => Rs.is (src := src) (m := forStatement n R) l hl a l' hr ht
  case TRY => exact fun a l' hr => Rs.is (src := src) (m := tryStatement n R) l hl a l' hr ht
  case SWCH => exact fun a l' hr => Rs.is (src := src) (m := switchStatement n R) l hl a l' hr ht
  case LABL => exact labeled_sound hl ht
  case IMPT => exact importDeclaration_sound hl ht
  case E h =>
    simp only [Bool.and_eq_true, bne_iff_ne] at ht
    obtain ⟨⟨⟨⟨⟨⟨h1, h2⟩, h3⟩, h4⟩, h5⟩, h6⟩, h7⟩ := ht
    refine head_call hl h1 (head_sound hl (Nat.zero_le 16) h1 h2 h3) (fun e m hm hx => ?_) (fun _ => by mono)
    refine expressionStatement_sound hm hx fun i hi => ?_
    rw [← hi.token]
    exact ⟨h4, h5, h6, fun h => absurd h h7⟩
  case EMPT =>
    unfold runSH
    go
    back
    rule G.empty
  case DBGGR =>
    unfold runSH
    go
    back
    rule G.debugger
  case BLCK =>
    unfold runSH
    go
    rename_i hx
    have := hx ht
    back
    rule G.blockStmt
  case BRK =>
    unfold runSH
    refine .call (src := src) hl (jump_sound hl ht rfl) (fun r m hm _ hx => .pure fun j hs => ?_) (fun _ => by mono)
    obtain ⟨loc, w⟩ := r
    cases w with
    | none =>
      obtain ⟨i, g1, m, g2, g3⟩ := hx j hs
      exact ⟨i, g1, .brk g2 g3⟩
    | some w =>
      obtain ⟨i, g1, m, n, g2, g3, g4, g5⟩ := hx j hs
      exact ⟨i, g1, .brkLabel g2 g3 g4 g5⟩
  case CONT =>
    unfold runSH
    refine .call (src := src) hl (jump_sound hl ht rfl) (fun r m hm _ hx => .pure fun j hs => ?_) (fun _ => by mono)
    obtain ⟨loc, w⟩ := r
    cases w with
    | none =>
      obtain ⟨i, g1, m, g2, g3⟩ := hx j hs
      exact ⟨i, g1, .cont g2 g3⟩
    | some w =>
      obtain ⟨i, g1, m, n, g2, g3, g4, g5⟩ := hx j hs
      exact ⟨i, g1, .contLabel g2 g3 g4 g5⟩
  case FUNC =>
    unfold runSH
    go
    back
    rule G.functionStmt
  case CLAS =>
    unfold runSH
    go
    back
    rule G.classStmt

instance : Rec.Gs src (body n R) where
  defExpr _ := ⟨fun _ hl => expression_sound hl⟩
  callExpr := ⟨fun _ hl => argument_sound hl⟩
  element := ⟨fun _ hl => element_sound hl⟩
  stmt := ⟨fun _ hl => .tok (runSH_sound hl (stmt_spec _))⟩
  patArray := inferInstanceAs (Rs src (patternArray n R) _)
  property := inferInstanceAs (Gs src (Ratel.property n R) _)
  idle _ _ hl := expression_idle hl

end

theorem procs_sound {src : Bytes} : ∀ n, Rec.Gs src (procs n)
  | 0 => ⟨fun _ => ⟨fun _ _ _ _ h => by cases h⟩, ⟨fun _ _ _ _ h => by cases h⟩, ⟨fun _ _ _ _ h => by cases h⟩,
      ⟨fun _ _ _ _ h => by cases h⟩, ⟨fun _ _ _ _ h => by cases h⟩, ⟨fun _ _ _ _ h => by cases h⟩, fun _ _ _ _ _ h => by cases h⟩
  | n + 1 => by
    have := procs_sound (src := src) n
    exact inferInstanceAs (Rec.Gs src (body n (procs n)))

instance {src : Bytes} {n : Nat} : Rec.Gs src (procs n) := procs_sound n

theorem program_sound {src : Bytes} {n : Nat} {R : Rec} [Rec.Known src R] [Rec.Gs src R] {l : Lex} (hl : At src l) :
    W (program n R) l fun ss _ => ∃ i, Str l i ∧ G i (.program (bareStmts ss)) [] := by
  unfold program
  refine .tok ?_
  split
  · rename_i ht
    exact .pure ⟨[], .nil hl ht, .programEnd⟩
  · refine .gs (src := src) hl (fun s l1 h1 hg => ?_) (fun _ => by mono)
    refine W.loop (src := src) (fun acc m => At src m ∧ ∀ j xs, Str m j → G j (.program xs) [] →
      ∃ i, Str l i ∧ G i (.program (bareStmts acc ++ xs)) []) (fun acc m hm => ?_) (by mono) ⟨h1, fun j xs g1 g2 => ?_⟩
    · obtain ⟨hm, hg⟩ := hm
      refine .tok ?_
      split
      · rename_i ht
        refine .pure ?_
        have := hg [] [] (.nil hm ht) .programEnd
        rwa [List.append_nil] at this
      · refine .gs (src := src) hm (fun s l2 h2 g => .pure ⟨h2, fun j xs g1 g2 => ?_⟩) (fun _ => by mono)
        obtain ⟨i, g3, g4⟩ := g j g1
        have := hg i _ g3 (.programMore g4 g2)
        simpa [bareStmts_append, bareStmts] using this
    · obtain ⟨i, g3, g4⟩ := hg j g1
      exact ⟨i, g3, by simpa [bareStmts] using .programMore g4 g2⟩

/-- An accepted source is a program of the grammar. -/
theorem accepted_program {fuel : Nat} {src : Bytes} {m : List Stmt} (h : parse fuel src = .ok (.ok m)) :
    ∃ i, Spells src i ∧ G i (.program (bareStmts m)) [] := by
  unfold parse runParser at h
  cases hn : Lex.new src <;> simp only [hn, Out.bind] at h
  all_goals try cases h
  rename_i l
  cases hp : program fuel (procs fuel) ⟨l, []⟩ <;> simp only [hp] at h
  all_goals try cases h
  rename_i r
  obtain ⟨b, s, es⟩ := r
  by_cases he : es = []
  · subst he
    simp at h
    subst h
    obtain ⟨i, g1, g2⟩ := program_sound (src := src) (Proper.new hn).at b s hp
    exact ⟨i, spells_of_stream g1.stream g1.clean (Lex.init src) ⟨rfl, rfl, Nat.zero_le _, Nat.le_refl _, by simp [Lex.init]⟩ hn (Proper.new hn), g2⟩
  · simp [he] at h

end Ratel
