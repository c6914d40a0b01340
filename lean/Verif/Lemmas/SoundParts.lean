import Verif.Lemmas.SoundBase
/-! Lists, patterns, functions and properties of error-free runs are phrases of the grammar. -/
namespace Ratel
open Spec

set_option linter.unusedSectionVars false
variable [Unicode]

variable {src : Bytes} {n : Nat} {R : Rec} [Rec.Known src R] [hR : Rec.Gs src R]

/-! ### Names, semicolons -/

def naming : NameKind → Naming
  | .empty => .never
  | .optional => .optional
  | .mandatory => .always

instance {k : NameKind} : Rs src (parseName k) fun l a l' => Via l (fun i j => NameAt (naming k) i (bareName a) j) l' := ⟨fun l hl => by
  cases k
  · unfold parseName
    go
    back
    exact ⟨_, hs, .never⟩
  · unfold parseName
    go
    · back
      exact ⟨_, hs, .given (by assumption)⟩
    · back
      exact ⟨_, hs, .missing (by simp [*])⟩
  · unfold parseName
    go
    back
    exact ⟨_, hs, .always (by assumption)⟩⟩

instance : Rs src identifier fun l a l' => Via l (fun i j => Wd .Identifier a.name i j) l' := ⟨fun l hl => by
  unfold identifier
  go
  back
  exact ⟨_, hs, by assumption⟩⟩

instance : Rs src expectSemicolon fun l _ l' => Via l (fun i j => Semi i j) l' := ⟨fun l hl => by
  unfold expectSemicolon
  go
  · rename_i hn
    have ha : l.asi = .ExplicitSemicolon := by assumption
    intro j hs
    obtain ⟨i, h1, h2, h3⟩ := hs.plain hn (hl.proper.explicit.1 ha) rfl
    refine ⟨i, h1, ?_⟩
    rw [h3, ha]
    exact .written
  · back
    exact ⟨_, hs, .inserted (by simp [*])⟩⟩

/-! ### Blocks -/

section
variable {α : Type}

/-- What `rawBlock` has read. -/
structure RawRead (T : List α → List Item → List Item → Prop) (E : Lex → Prop) (l : Lex) (xs : List α) (l' : Lex) : Prop where
  read : ∀ j k, Str l' j → T [] j k → ∃ i, Str l i ∧ T xs i k
  close : l'.token = .BraceClose ∨ l'.token = .EndOfProgram
  empty : xs = [] → l.token = .BraceClose ∧ l' = l
  more : xs ≠ [] → E l'

theorem rawBlock_sound {item : P α} [Known src item] {it : α → Phrase} {T : List α → List Item → List Item → Prop} {E : Lex → Prop}
    (hi : ∀ l, At src l → W item l fun a l' => Got l (it a) l' ∧ E l')
    (hT : ∀ {x xs i m j}, G i (it x) m → T xs m j → T (x :: xs) i j) {l : Lex} (hl : At src l) :
    W (rawBlock n item) l (RawRead T E l) := by
  unfold rawBlock
  refine .tok ?_
  split
  · rename_i ht
    exact .pure ⟨fun j k h1 h2 => ⟨j, h1, h2⟩, .inl ht, fun _ => ⟨ht, rfl⟩, fun h => absurd rfl h⟩
  · refine .call hl (hi l hl) (fun x m hm _ hx => ?_) (by mono)
    refine W.loop (src := src) (fun acc m => At src m ∧ E m ∧ acc ≠ [] ∧ ∀ j xs k, Str m j → T xs j k → ∃ i, Str l i ∧ T (acc ++ xs) i k)
      (fun acc m hm => ?_) (by mono) ⟨hm, hx.2, by simp, fun j xs k h1 h2 => ?_⟩
    · obtain ⟨h1, h2, h3, h4⟩ := hm
      refine .tok ?_
      split
      · refine .call h1 (hi m h1) (fun x m' hm' _ hx => .pure ⟨hm', hx.2, by simp, fun j xs k g1 g2 => ?_⟩) (by mono)
        obtain ⟨i, g3, g4⟩ := hx.1 j g1
        have := h4 i (x :: xs) k g3 (hT g4 g2)
        simpa using this
      · rename_i ht
        refine .pure ⟨fun j k g1 g2 => ?_, by grind, fun h => absurd h h3, fun _ => h2⟩
        have := h4 j [] k g1 g2
        simpa using this
    · obtain ⟨i, h3, h4⟩ := hx.1 j h1
      exact ⟨i, h3, hT h4 h2⟩

/-- What `block` has read. -/
abbrev BlockGot (T : List α → List Item → List Item → Prop) (l : Lex) (b : Loc × List α) (l' : Lex) : Prop :=
  ∀ j, Str l' j → ∃ i m, Str l i ∧ Tk .BraceOpen i m ∧ T b.2 m j ∧ (b.2 = [] → m ≠ [])

theorem block_end {T : List α → List Item → List Item → Prop} {E : Lex → Prop} (hc : ∀ {i j}, Tk .BraceClose i j → T [] i j)
    (he : ∀ l, E l → l.token = .EndOfProgram → T [] [] []) {l l1 l2 l' : Lex} {xs : List α} (hl1 : At src l1) (hl2 : At src l2)
    (ht : l.token = .BraceOpen) (hn : Nxt src l l1) (hr : RawRead T E l1 xs l2) (hn' : Nxt src l2 l') (loc : Loc) : BlockGot T l (loc, xs) l' := by
  intro j hs
  have key : ∃ m, Str l1 m ∧ T xs m j := by
    rcases hr.close with hx | hx
    · obtain ⟨m, h1, h2, -⟩ := hs.plain hn' hx rfl
      exact hr.read m j h1 (hc h2.tk)
    · cases hs.eq_nil (hn'.eof hl2 hx)
      refine hr.read [] [] (.nil hl2 hx) (he l2 (hr.more fun h => ?_) hx)
      obtain ⟨h1, rfl⟩ := hr.empty h
      rw [h1] at hx
      cases hx
  obtain ⟨m, h1, h2⟩ := key
  obtain ⟨i, h3, h4, -⟩ := h1.plain hn ht rfl
  refine ⟨i, m, h3, h4.tk, h2, fun h => ?_⟩
  have := (hr.empty h).1
  rw [h1.token] at this
  rintro rfl
  cases this

theorem block_sound {item : P α} [Known src item] {it : α → Phrase} {T : List α → List Item → List Item → Prop} {E : Lex → Prop}
    (hi : ∀ l, At src l → W item l fun a l' => Got l (it a) l' ∧ E l')
    (hT : ∀ {x xs i m j}, G i (it x) m → T xs m j → T (x :: xs) i j) (hc : ∀ {i j}, Tk .BraceClose i j → T [] i j)
    (he : ∀ l, E l → l.token = .EndOfProgram → T [] [] []) {l : Lex} (hl : At src l) :
    W (block n item) l (BlockGot T l) := by
  unfold block
  go
  rename_i l1 h1 n1
  refine .call h1 (rawBlock_sound (src := src) (T := T) (E := E) hi (fun h1 h2 => hT h1 h2) h1) (fun xs m hm _ hx => ?_) (by mono)
  go
  exact block_end hc he h1 hm (by assumption) n1 hx (by assumption) _

theorem uncheckedBlock_sound {item : P α} [Known src item] {it : α → Phrase} {T : List α → List Item → List Item → Prop} {E : Lex → Prop}
    (hi : ∀ l, At src l → W item l fun a l' => Got l (it a) l' ∧ E l')
    (hT : ∀ {x xs i m j}, G i (it x) m → T xs m j → T (x :: xs) i j) (hc : ∀ {i j}, Tk .BraceClose i j → T [] i j)
    (he : ∀ l, E l → l.token = .EndOfProgram → T [] [] []) {l : Lex} (hl : At src l) (ht : l.token = .BraceOpen) :
    W (uncheckedBlock n item) l (BlockGot T l) := by
  unfold uncheckedBlock
  go
  rename_i l1 h1 n1
  refine .call h1 (rawBlock_sound (src := src) (T := T) (E := E) hi (fun h1 h2 => hT h1 h2) h1) (fun xs m hm _ hx => ?_) (by mono)
  go
  exact block_end hc he h1 hm ht n1 hx (by assumption) _

end

theorem stmt_item {l : Lex} (hl : At src l) : W R.stmt l fun a l' => Got l (.stmt (bareStmt a)) l' ∧ True :=
  (Gs.is (src := src) l hl).weaken fun _ _ h => ⟨h, trivial⟩

abbrev StmtsTail (ss : List Stmt) (i j : List Item) : Prop := G i (.stmtsTail (bareStmts ss)) j

instance : Gs src (stmtBlock n R) fun b => .block (bareBlock b) := ⟨fun l hl => by
  unfold stmtBlock
  refine .call hl (block_sound (src := src) (T := StmtsTail) (fun l hl => stmt_item hl) (fun h1 h2 => .stmtsMore h1 h2) (fun h => .stmtsClose h)
    (fun _ _ _ => .stmtsEnd) hl) (fun b m hm _ hx => ?_) (by mono)
  obtain ⟨loc, b⟩ := b
  refine .pure fun j hs => ?_
  obtain ⟨i, m, h1, h2, h3, h4⟩ := hx j hs
  exact ⟨i, h1, .block h2 h3 fun h => h4 (by cases b <;> simp [bareStmts] at h ⊢)⟩⟩

instance : Rs src (uncheckedBlock n R.stmt) fun l b l' => l.token = .BraceOpen → Got l (.block (.mk z (bareStmts b.2))) l' := ⟨fun l hl => by
  intro b l' hr ht j hs
  obtain ⟨i, m, h1, h2, h3, h4⟩ := uncheckedBlock_sound (src := src) (T := StmtsTail) (fun l hl => stmt_item hl) (fun h1 h2 => .stmtsMore h1 h2) (fun h => .stmtsClose h)
    (fun _ _ _ => .stmtsEnd) hl ht b l' hr j hs
  obtain ⟨loc, b⟩ := b
  exact ⟨i, h1, .block h2 h3 fun h => h4 (by cases b <;> simp [bareStmts] at h ⊢)⟩⟩

/-! ### Lists -/

theorem arrayElements_sound {α : Type} {get : P α} [Known src get] {it : α → Phrase} {T : List α → List Item → List Item → Prop}
    (hi : ∀ l, At src l → W get l fun a l' => Got l (it a) l')
    (h1 : ∀ {x i j}, G i (it x) j → look j = .BracketClose → T [x] i j)
    (h2 : ∀ {x xs i m n j}, G i (it x) m → Tk .Comma m n → T xs n j → T (x :: xs) i j) {l : Lex} (hl : At src l) :
    W (arrayElements n get) l fun xs l' => l'.token = .BracketClose ∧ ((xs = [] ∧ l' = l) ∨ xs ≠ [] ∧ l.token ≠ .BracketClose ∧ Via l (T xs) l') := by
  unfold arrayElements
  refine .tok ?_
  split
  · rename_i ht
    exact .pure ⟨ht, .inl ⟨rfl, rfl⟩⟩
  · rename_i h0
    refine .call hl (hi l hl) (fun x m hm _ hx => ?_) (by mono)
    refine W.loop (src := src) (fun acc m => At src m ∧ acc ≠ [] ∧ ∀ j xs k, Str m j →
      ((xs = [] ∧ k = j ∧ look j = .BracketClose) ∨ ∃ n, Tk .Comma j n ∧ T xs n k) → ∃ i, Str l i ∧ T (acc ++ xs) i k)
      (fun acc m hm => ?_) (by mono) ⟨hm, by simp, fun j xs k g1 g2 => ?_⟩
    · obtain ⟨k1, k2, k3⟩ := hm
      refine .tok ?_
      split
      · go
        rename_i m1 n1
        refine .call (src := src) m1 (hi _ m1) (fun x m' hm' _ hx => .pure ⟨hm', by simp, fun j xs k g1 g2 => ?_⟩) (by mono)
        obtain ⟨i, g3, g4⟩ := hx j g1
        obtain ⟨i', g5, g6, -⟩ := g3.plain (t := .Comma) n1 (by assumption) rfl
        have := k3 i' (x :: xs) k g5 (.inr ⟨_, g6.tk, by
          rcases g2 with ⟨rfl, rfl, g2⟩ | ⟨o, g7, g8⟩
          · exact h1 g4 g2
          · exact h2 g4 g7 g8⟩)
        simpa using this
      · rename_i ht
        refine .pure ⟨ht, .inr ⟨k2, h0, fun j hs => ?_⟩⟩
        have := k3 j [] j hs (.inl ⟨rfl, rfl, hs.token.symm.trans ht⟩)
        simpa using this
      · go
    · obtain ⟨i, g3, g4⟩ := hx j g1
      refine ⟨i, g3, ?_⟩
      rcases g2 with ⟨rfl, rfl, g2⟩ | ⟨o, g7, g8⟩
      · exact h1 g4 g2
      · exact h2 g4 g7 g8

abbrev Props (ps : List Property) (i j : List Item) : Prop := G i (.props (bareProps ps)) j

instance : Rs src (propertyList n R) fun l ps l' => l'.token = .BraceClose ∧ Got l (.props (bareProps ps)) l' := ⟨fun l hl => by
  unfold propertyList
  refine .tok ?_
  split
  · rename_i ht
    exact .pure ⟨ht, fun j hs => ⟨j, hs, .propsNone (hs.token.symm.trans ht)⟩⟩
  · go
    rename_i x m hm hx
    refine W.loop (src := src) (fun acc m => At src m ∧ ∀ j xs k, Str m j →
      ((xs = [] ∧ k = j ∧ look j = .BraceClose) ∨ ∃ n, Tk .Comma j n ∧ Props xs n k) → ∃ i, Str l i ∧ Props (acc ++ xs) i k)
      (fun acc m hm => ?_) (by mono) ⟨hm, fun j xs k g1 g2 => ?_⟩
    · obtain ⟨k1, k3⟩ := hm
      refine .tok ?_
      split
      · rename_i ht
        refine .pure ⟨ht, fun j hs => ?_⟩
        have := k3 j [] j hs (.inl ⟨rfl, rfl, hs.token.symm.trans ht⟩)
        simpa using this
      · go
        · rename_i m1 n1 ht'
          refine ⟨ht', fun j hs => ?_⟩
          obtain ⟨i', g5, g6, -⟩ := hs.plain (src := src) (l := m) (t := .Comma) (by assumption) (by assumption) rfl
          have := k3 i' [] j g5 (.inr ⟨_, g6.tk, .propsNone (hs.token.symm.trans ht')⟩)
          simpa using this
        · rename_i m2 hx
          refine ⟨by assumption, fun j xs k g1 g2 => ?_⟩
          obtain ⟨i, g3, g4⟩ := hx j g1
          obtain ⟨i', g5, g6, -⟩ := g3.plain (src := src) (l := m) (t := .Comma) (by assumption) (by assumption) rfl
          have := k3 i' (a :: xs) k g5 (.inr ⟨_, g6.tk, by
            rcases g2 with ⟨rfl, rfl, g2⟩ | ⟨o, g7, g8⟩
            · exact .propsLast g4 g2
            · exact .propsMore g4 g7 g8⟩)
          simpa using this
      · go
    · obtain ⟨i, g3, g4⟩ := hx j g1
      refine ⟨i, g3, ?_⟩
      rcases g2 with ⟨rfl, rfl, g2⟩ | ⟨o, g7, g8⟩
      · exact .propsLast g4 g2
      · exact .propsMore g4 g7 g8⟩

/-! ### Patterns -/

instance : Rs src patternIdentifier fun l p l' => l.token = .Identifier → Got l (.pat (barePat p)) l' := ⟨fun l hl => by
  unfold patternIdentifier
  go
  intro ht
  back
  rule G.patIdent⟩

instance : Rs src (patternObject n R) fun l p l' => l.token = .BraceOpen → Got l (.pat (barePat p)) l' := ⟨fun l hl => by
  unfold patternObject
  go
  intro ht
  back
  rule G.patObject⟩

instance : Gs src (patternParse n R) fun p => .pat (barePat p) := ⟨fun l hl => by
  unfold patternParse
  go
  all_goals rename_i h; exact h (by assumption)⟩

theorem patternAssign_sound {left : Pattern} {l0 l : Lex} (hl : At src l) (h : Got l0 (.pat (barePat left)) l) :
    W (patternAssign R left) l fun p l' => Got l0 (.param (barePat p)) l' := by
  unfold patternAssign
  go
  · back
    rule G.paramDefault
  · back
    rule G.param

instance : Gs src (patternParam n R) fun p => .param (barePat p) := ⟨fun l hl => by
  unfold patternParam
  go
  all_goals
    rename_i h
    exact patternAssign_sound (by assumption) (h (by assumption))⟩

instance : Gs src (patternArrayElement n R) fun p => .patElem (barePat p) := ⟨fun l hl => by
  unfold patternArrayElement
  go
  · back
    rule G.patHole
  · back
    rule G.patHole
  · back
    rule G.patElem⟩

instance : Rs src (patternArray n R) fun l p l' => l.token = .BracketOpen → Got l (.pat (barePat p)) l' := ⟨fun l hl => by
  unfold patternArray
  go
  rename_i l1 m1 n1
  refine .call (src := src) m1 (arrayElements_sound (src := src) (T := fun ps i j => G i (.patElems (barePats ps)) j)
    (fun l hl => Gs.is (src := src) l hl) (fun h1 h2 => .patElemsLast h1 h2) (fun h1 h2 h3 => .patElemsMore h1 h2 h3) m1)
    (fun xs m hm _ hx => ?_) (by mono)
  obtain ⟨ht', hx⟩ := hx
  go
  intro ht
  rcases hx with ⟨rfl, rfl⟩ | ⟨_, _, _⟩
  · back
    rule G.patEmptyArray
  · back
    rule G.patArray⟩

/-! ### Functions -/

instance : Rs src restElement fun l p l' => l.token = .OperatorSpread → Got l (.params (barePats [p])) l' := ⟨fun l hl => by
  unfold restElement
  go
  intro ht
  back
  rule G.paramsRest⟩

abbrev ParamsFrom (ps : List Pattern) (i j : List Item) : Prop := G i (.params (barePats ps)) j

instance : Rs src (params n R) fun l ps l' => Via l (fun i j => ∃ m, Tk .ParenOpen i m ∧ ParamsFrom ps m j) l' := ⟨fun l hl => by
  unfold params
  go
  · back
    exact ⟨_, hs, _, Spec.Wd.tk (by assumption), .paramsNone (Spec.Wd.tk (by assumption))⟩
  · rename_i h
    have h := h (by assumption)
    back
    exact ⟨_, hs, _, Spec.Wd.tk (by assumption), by assumption⟩
  · rename_i l1 _ _ _ _ _ hm hx
    refine W.loop (src := src) (fun acc m => At src m ∧ ∀ j xs k, Str m j →
      ((xs = [] ∧ Tk .ParenClose j k) ∨ ∃ n, Tk .Comma j n ∧ ParamsFrom xs n k) → ∃ i, Str l1 i ∧ ParamsFrom (acc ++ xs) i k)
      (fun acc m hm => ?_) (by mono) ⟨hm, fun j xs k g1 g2 => ?_⟩
    · obtain ⟨k1, k3⟩ := hm
      have fin : ∀ {ps l'}, Got l1 (.params (barePats ps)) l' → Via l (fun i j => ∃ m, Tk .ParenOpen i m ∧ ParamsFrom ps m j) l' := by
        intro ps l' h
        back
        exact ⟨_, hs, _, Spec.Wd.tk (by assumption), by assumption⟩
      refine .tok ?_
      split
      · go
        · rename_i n2
          refine fin fun j hs => ?_
          obtain ⟨i1, g1, g2, -⟩ := hs.plain (t := .ParenClose) n2 (by assumption) rfl
          obtain ⟨i2, g3, g4, -⟩ := g1.plain (src := src) (l := m) (t := .Comma) (by assumption) (by assumption) rfl
          have := k3 i2 [] j g3 (.inr ⟨_, g4.tk, .paramsNone g2.tk⟩)
          simpa using this
        · rename_i m2 hx
          refine fin fun j hs => ?_
          obtain ⟨i1, g1, g2⟩ := hx (by assumption) j hs
          obtain ⟨i2, g3, g4, -⟩ := g1.plain (src := src) (l := m) (t := .Comma) (by assumption) (by assumption) rfl
          exact k3 i2 [a] j g3 (.inr ⟨_, g4.tk, g2⟩)
        · rename_i m2 hx
          refine ⟨m2, fun j xs k g1 g2 => ?_⟩
          obtain ⟨i, g3, g4⟩ := hx j g1
          obtain ⟨i', g5, g6, -⟩ := g3.plain (src := src) (l := m) (t := .Comma) (by assumption) (by assumption) rfl
          have := k3 i' (a :: xs) k g5 (.inr ⟨_, g6.tk, by
            rcases g2 with ⟨rfl, g2⟩ | ⟨o, g7, g8⟩
            · exact .paramsLast g4 g2
            · exact .paramsMore g4 g7 g8⟩)
          simpa using this
      · go
        rename_i n1
        refine fin fun j hs => ?_
        obtain ⟨i', g5, g6, -⟩ := hs.plain (t := .ParenClose) n1 (by assumption) rfl
        have := k3 i' [] j g5 (.inl ⟨rfl, g6.tk⟩)
        simpa using this
      · go
    · obtain ⟨i, g3, g4⟩ := hx j g1
      refine ⟨i, g3, ?_⟩
      rcases g2 with ⟨rfl, g2⟩ | ⟨o, g7, g8⟩
      · exact .paramsLast g4 g2
      · exact .paramsMore g4 g7 g8⟩

instance {k : NameKind} : Gs src (functionParse n R k) fun f => .func (naming k) (bareFunc f) := ⟨fun l hl => by
  unfold functionParse
  go
  · back
    obtain ⟨_, _, _⟩ := (by assumption : ∃ m, Tk .ParenOpen _ m ∧ ParamsFrom _ m _)
    refine ⟨_, hs, ?_⟩
    apply G.func (.yes (Spec.Wd.tk (by assumption))) <;> assumption
  · back
    obtain ⟨_, _, _⟩ := (by assumption : ∃ m, Tk .ParenOpen _ m ∧ ParamsFrom _ m _)
    refine ⟨_, hs, ?_⟩
    apply G.func (.no (by simp [*])) <;> assumption⟩

instance : Gs src (methodParse n R) fun f => .func .never (bareFunc f.2) := ⟨fun l hl => by
  unfold methodParse
  go
  assumption⟩

end Ratel
