import Verif.Lemmas.PrintClass
/-! Reading back generated code: statements. -/
namespace Ratel
open Spec

set_option linter.unusedSectionVars false
variable [Unicode] {min : Bool} {X g r : Bytes} {j : List Item} {l : Loc}

/-- An expression that starts with a name and a colon is the name. -/
theorem Spec.G.colon {i j : List Item} {x : Phrase} (h : G i x j) (h1 : look i = .Identifier) (h2 : look i.tail = .Colon) :
    (∀ k e, x = .expr k e → j = i.tail) ∧ (∀ k e, x = .whole k e → j = i.tail) := by
  have clash : ∀ {t : Token} {m n : List Item}, Tk t m n → look m = .Colon → t = .Colon := by
    rintro t m n ⟨w, a, rfl⟩ h
    exact h
  have clash' : ∀ {t : Token} {w : Bytes} {m n : List Item}, Wd t w m n → look m = .Colon → t = .Colon := by
    rintro t w m n ⟨a, rfl⟩ h
    exact h
  have head : ∀ {t : Token} {m n : List Item}, Tk t m n → look m = .Identifier → t = .Identifier := by
    rintro t m n ⟨w, a, rfl⟩ h
    exact h
  induction h with
  | whole h h' ih =>
    refine ⟨nofun, fun k e he => ?_⟩
    cases he
    exact (ih h1 h2).1 _ _ rfl
  | ident hk h =>
    refine ⟨fun k e he => ?_, nofun⟩
    obtain ⟨a, rfl⟩ := h
    rfl
  | lit hk h hv =>
    obtain ⟨a, rfl⟩ := h
    change _ = _ at h1
    simp only [look, Item.token] at h1
    subst h1
    cases hv
  | regex => cases h1
  | template hk h =>
    cases h with
    | templateClosed h => obtain ⟨a, rfl⟩ := h; cases h1
    | templateOpen h => obtain ⟨a, rfl⟩ := h; cases h1
  | «prefix» hk h hop =>
    cases head h h1
    cases hop
  | member hk h h' ih | index hk h h' _ _ ih | call hk h h' _ _ ih | arrow hk h hp h' _ _ ih | arrowBlock hk h hp h' _ ih | cond hk h h' _ _ _ ih =>
    have := (ih h1 h2).1 _ _ rfl
    subst this
    first
    | cases clash h' h2
    | cases clash' h' h2
  | comma h h' _ ih => 
    have := (ih h1 h2).1 _ _ rfl
    subst this
    cases clash h' h2
  | tagged hk h h' ih =>
    have := (ih h1 h2).1 _ _ rfl
    rw [← this] at h2
    cases h' with
    | templateClosed h => cases clash' h h2
    | templateOpen h => cases clash' h h2
  | «postfix» hk h he hop ha ih =>
    have := (ih h1 h2).1 _ _ rfl
    rw [← this] at h2
    simp only [look, Item.token] at h2
    subst h2
    cases hop
  | binary hop hk h h' _ ih =>
    have := (ih h1 h2).1 _ _ rfl
    subst this
    cases clash h' h2
    cases hop
  | assign hk h ha h' hop _ ih =>
    have := (ih h1 h2).1 _ _ rfl
    subst this
    cases clash h' h2
    cases hop
  | this hk h | emptyArray hk h | array hk h | object hk h | function hk h | «class» hk h | paren hk h | newTarget hk h | arrow0 hk h
  | arrowBlock0 hk h | «new» hk h => cases head h h1
  | _ => exact ⟨nofun, nofun⟩

theorem starter_stmt {t : Token} (h : starter t = true) : stmtStart t = true ∧ asiBefore t false = .NoSemicolon := by
  have h1 : ∀ t ∈ Token.all, starter t = true → stmtStart t = true ∧ asiBefore t false = .NoSemicolon := by decide +kernel
  exact h1 t t.mem_all h

theorem apart_semi {g' : Bytes} {k : Nat} (hg : Blank g') : Apart k (g' ++ (bs!";" ++ r)) (.tok .Semicolon bs!";" (asiBefore .Semicolon (nl g')) :: j) :=
  have b := blank_next (r := bs!";" ++ r) hg rfl (by simp [next])
  .close b.1 b.2 (by simp [look, Item.token])

theorem apart_paren {g' : Bytes} {k : Nat} (hg : Blank g') : Apart k (g' ++ (bs!")" ++ r)) (.tok .ParenClose bs!")" (asiBefore .ParenClose (nl g')) :: j) :=
  have b := blank_next (r := bs!")" ++ r) hg rfl (by simp [next])
  .close b.1 b.2 (.inl rfl)

theorem emit_semi (hs : Spells r j) : Spells ([] ++ (bs!";" ++ r)) (.tok .Semicolon bs!";" (asiBefore .Semicolon (nl [])) :: j) :=
  emit_punct (g := []) bs!";" .Semicolon (by decide +kernel) .nil hs

/-- An expression and a semicolon. -/
theorem reads_value {e : Expr} (ih : ReadsExpr min e) (hX : Lay min (codeExpr e ++ [.text bs!";"]) X) (hg : Blank g) (hs : Spells r j) :
    ∃ i m, Spells (g ++ (X ++ r)) i ∧ G i (.whole 0 (rereadExpr e)) m ∧ Semi m j ∧ Starts g X (firstToken e) i ∧ look m = .Semicolon := by
  obtain ⟨A, _, rfl, hA, h1⟩ := hX.append
  cases h1.one
  obtain ⟨i, s1, h2, h3⟩ := ih.any hA hg (emit_semi hs) (apart_semi .nil)
  exact ⟨i, _, s1.cast (by simp), h2, .written, h3.append, rfl⟩

theorem reads_stmt_expr {e : Expr} (ih : ReadsBack min (.expr e)) (hw : WellFormed (.stmt (.expr l e))) (hsf : Legible min (.stmt (.expr l e))) :
    ReadsStmt min (.expr l e) := by
  intro X g r j hX hg hs h1 h2
  have hw : proper e = true := hw
  rw [codeStmt] at hX
  rw [rereadStmt]
  cases hb : e.isAllowedAsBareStatement with
  | true =>
    rw [hb] at hX
    obtain ⟨i, m, s1, h3, h4, h5, h6⟩ := reads_value (ih.expr hw) hX hg hs
    have hf := hsf (by rw [wrapped_eq, hb]; rfl)
    refine ⟨i, s1, .exprStmt ?_ ?_ ?_ ?_ h3 h4, ?_, nofun, h5.ne⟩
    · rw [h5.look]; intro hc; rw [hc] at hf; simp at hf
    · rw [h5.look]; intro hc; rw [hc] at hf; simp at hf
    · rw [h5.look]; intro hc; rw [hc] at hf; simp at hf
    · intro e1 e2
      have := (h3.colon e1 e2).2 _ _ rfl
      rw [← this, h6] at e2
      cases e2
    · rw [h5.look]
      exact (starter_stmt h5.starter).1
  | false =>
    rw [hb] at hX
    have hX' : Lay min ((.text bs!"(" :: codeExpr e ++ [.text bs!")"]) ++ [.text bs!";"]) X := by simpa using hX
    obtain ⟨A, _, rfl, hA, h3⟩ := hX'.append
    cases h3.one
    obtain ⟨i, s1, h4, h5⟩ := (ih.expr hw).paren hA hg (emit_semi hs)
    refine ⟨i, s1.cast (by simp), .exprStmt ?_ ?_ ?_ ?_ (.whole (h4 0 (by omega)) (apart_semi (g' := []) (r := r) .nil).ends) .written, ?_, nofun, by simp⟩
    all_goals rw [h5.look]
    all_goals first | rfl | nofun

theorem reads_stmt_ret {v : Option Expr} (ih : ∀ e ∈ v, ReadsBack min (.expr e)) (hw : WellFormed (.stmt (.ret l v))) : ReadsStmt min (.ret l v) := by
  intro X g r j hX hg hs h1 h2
  cases v with
  | none =>
    rw [codeStmt] at hX
    cases hX.one
    have s2 := emit_keyword (g := g) bs!"return" .Return (by decide) hg rfl (emit_semi hs)
    exact ⟨_, s2.cast (by simp), .ret ⟨_, _, rfl⟩ .written, rfl, nofun, by simp⟩
  | some e =>
    have hX' : Lay min (.text bs!"return " :: (codeExpr e ++ [.text bs!";"])) X := by simpa [codeStmt] using hX
    obtain ⟨A, rfl, hA⟩ := hX'
    obtain ⟨i, m, s1, h3, h4, h5, h6⟩ := reads_value ((ih e rfl).expr (hw e rfl)) hA .sp hs
    have s2 := emit_keyword (g := g) bs!"return" .Return (by decide) hg rfl s1
    refine ⟨_, s2.cast (by simp), .retValue ⟨_, _, rfl⟩ ?_ h3 h4, rfl, nofun, by simp⟩
    rw [h5.asi]
    exact (starter_stmt h5.starter).2

theorem reads_stmt_throw {e : Expr} (ih : ReadsBack min (.expr e)) (hw : WellFormed (.stmt (.throw l e))) : ReadsStmt min (.throw l e) := by
  intro X g r j hX hg hs h1 h2
  rw [rereadStmt]
  have hX' : Lay min (.text bs!"throw " :: (codeExpr e ++ [.text bs!";"])) X := by simpa [codeStmt] using hX
  obtain ⟨A, rfl, hA⟩ := hX'
  obtain ⟨i, m, s1, h3, h4, h5, h6⟩ := reads_value (ih.expr hw) hA .sp hs
  have s2 := emit_keyword (g := g) bs!"throw" .Throw (by decide) hg rfl s1
  exact ⟨_, s2.cast (by simp), .throw ⟨_, _, rfl⟩ h3 h4, rfl, nofun, by simp⟩

theorem reads_stmt_brk {n : Option Ident} (hw : WellFormed (.stmt (.brk l n))) : ReadsStmt min (.brk l n) := by
  intro X g r j hX hg hs h1 h2
  rw [rereadStmt]
  rw [codeStmt] at hX
  cases n with
  | none =>
    cases hX.one
    have s2 := emit_keyword (g := g) bs!"break" .Break (by decide) hg rfl (emit_semi hs)
    exact ⟨_, s2.cast (by simp), .brk ⟨_, _, rfl⟩ .written, rfl, nofun, by simp⟩
  | some n =>
    obtain ⟨_, rfl, h3⟩ := hX
    obtain ⟨_, rfl, h4⟩ := h3
    cases h4.one
    have hw := hw n rfl
    have s1 := emit_word (g := bs!" ") hw .sp rfl (emit_semi hs)
    have s2 := emit_keyword (g := g) bs!"break" .Break (by decide) hg rfl s1
    exact ⟨_, s2.cast (by simp), .brkLabel ⟨_, _, rfl⟩ rfl ⟨_, rfl⟩ .written, rfl, nofun, by simp⟩

theorem reads_stmt_cont {n : Option Ident} (hw : WellFormed (.stmt (.cont l n))) : ReadsStmt min (.cont l n) := by
  intro X g r j hX hg hs h1 h2
  rw [rereadStmt]
  rw [codeStmt] at hX
  cases n with
  | none =>
    cases hX.one
    have s2 := emit_keyword (g := g) bs!"continue" .Continue (by decide) hg rfl (emit_semi hs)
    exact ⟨_, s2.cast (by simp), .cont ⟨_, _, rfl⟩ .written, rfl, nofun, by simp⟩
  | some n =>
    obtain ⟨_, rfl, h3⟩ := hX
    obtain ⟨_, rfl, h4⟩ := h3
    cases h4.one
    have hw := hw n rfl
    have s1 := emit_word (g := bs!" ") hw .sp rfl (emit_semi hs)
    have s2 := emit_keyword (g := g) bs!"continue" .Continue (by decide) hg rfl s1
    exact ⟨_, s2.cast (by simp), .contLabel ⟨_, _, rfl⟩ rfl ⟨_, rfl⟩ .written, rfl, nofun, by simp⟩

theorem reads_stmt_block {ss : List Stmt} (ih : ∀ s ∈ ss, ReadsBack min (.stmt s)) : ReadsStmt min (.block l ss) := by
  intro X g r j hX hg hs h1 h2
  rw [rereadStmt]
  rw [codeStmt] at hX
  obtain ⟨i, s1, h3, h4, h5, h6⟩ := reads_braces ih hX hg hs
  exact ⟨i, s1, .blockStmt h3, by rw [h4]; rfl, fun _ => h5, h6⟩

theorem reads_stmt_function {f : Func} (ih : ReadsFunc min f) (hw : WellFormed (.stmt (.function l f))) : ReadsStmt min (.function l f) := by
  intro X g r j hX hg hs _ _
  rw [rereadStmt]
  obtain ⟨i, s1, hne, h1⟩ := ih (by rwa [codeStmt] at hX) hg hs
  have hw : Name.isMandatory (funcName f) = true := hw
  cases hn : funcName f with
  | mandatory n =>
    rw [hn] at h1
    obtain ⟨m, ⟨a, h2⟩, h3, h4⟩ := h1
    exact ⟨i, s1, .functionStmt ⟨_, _, h2⟩ h3, by rw [h4.look]; rfl, nofun, hne⟩
  | _ => rw [hn] at hw; cases hw

theorem reads_stmt_class {c : Class} (ih : ReadsClass min c) (hw : WellFormed (.stmt (.class l c))) : ReadsStmt min (.class l c) := by
  intro X g r j hX hg hs _ _
  rw [rereadStmt]
  obtain ⟨i, s1, h1⟩ := ih (by rwa [codeStmt] at hX) hg hs
  have hw : Name.isMandatory (className c) = true := hw
  cases hn : className c with
  | mandatory n =>
    rw [hn] at h1
    obtain ⟨m, ⟨a, h2⟩, h3, h4⟩ := h1
    exact ⟨i, s1, .classStmt ⟨_, _, h2⟩ h3, by rw [h4.look]; rfl, nofun, h4.ne⟩
  | _ => rw [hn] at hw; cases hw

/-! ### Heads -/

/-- ` (e) ` and what follows. -/
theorem reads_condition {e : Expr} {ps : List Piece} {P : List Item → Prop} (ih : ReadsExpr min e)
    (hX : Lay min (pSp :: .text bs!"(" :: (codeExpr e ++ .text bs!")" :: ps)) X)
    (hrest : ∀ Y, Lay min ps Y → ∃ q, Spells (Y ++ r) q ∧ P q) :
    ∃ m n o q, Spells (X ++ r) m ∧ Tk .ParenOpen m n ∧ G n (.whole 0 (rereadExpr e)) o ∧ Tk .ParenClose o q ∧ P q ∧
      wordByte (next (X ++ r)) = false := by
  obtain ⟨g1, _, hg1, rfl, h1⟩ := hX.sp
  obtain ⟨_, rfl, h2⟩ := h1
  obtain ⟨A, _, rfl, hA, h3⟩ := h2.append
  obtain ⟨Y, rfl, hY⟩ := h3
  obtain ⟨q, s1, h4⟩ := hrest Y hY
  have s2 := emit_punct (g := []) bs!")" .ParenClose (by decide +kernel) .nil s1
  obtain ⟨n, s3, h5, -⟩ := ih.any hA .nil s2 (apart_paren .nil)
  have s4 := emit_punct (g := g1) bs!"(" .ParenOpen (by decide +kernel) hg1 s3
  refine ⟨_, n, _, q, s4.cast (by simp), ⟨_, _, rfl⟩, h5, ⟨_, _, rfl⟩, h4, ?_⟩
  rw [List.append_assoc, List.append_assoc]
  exact (blank_next (r := bs!"(" ++ _) hg1 rfl (by simp [next])).1

theorem reads_stmt_while {t : Expr} {b : Stmt} (iht : ReadsBack min (.expr t)) (ihb : ReadsBack min (.stmt b))
    (hw : WellFormed (.stmt (.whileS l t b))) (hsf : Legible min (.stmt (.whileS l t b))) : ReadsStmt min (.whileS l t b) := by
  intro X g r j hX hg hs h1 h2
  rw [rereadStmt]
  have hX' : Lay min (.text bs!"while" :: pSp :: .text bs!"(" :: (codeExpr t ++ .text bs!")" :: pSp :: codeStmt b)) X := by
    simpa [codeStmt] using hX
  obtain ⟨A, rfl, hA⟩ := hX'
  obtain ⟨m, n, o, q, s1, h3, h4, h5, h6, h7⟩ := reads_condition (r := r) (P := fun q => G q (.stmt (rereadStmt b)) j) (iht.expr hw) hA fun Y hY => by
    obtain ⟨g1, Z, hg1, rfl, hZ⟩ := hY.sp
    obtain ⟨q, s1, h3, -⟩ := ihb hsf hZ hg1 hs h1 h2
    exact ⟨q, s1.cast (by simp), h3⟩
  have s2 := emit_keyword (g := g) bs!"while" .While (by decide) hg h7 s1
  exact ⟨_, s2.cast (by simp), .whileLoop ⟨_, _, rfl⟩ h3 h4 h5 h6, rfl, nofun, by simp⟩

theorem lay_gap {m : Bool} {ps : List Piece} (h : Lay min (space m :: ps) X) :
    ∃ g Y, Blank g ∧ X = g ++ Y ∧ Lay min ps Y ∧ (m = true → g ≠ []) := by
  rcases lay_space h with ⟨Y, rfl, hY⟩ | ⟨h1, h2, hY⟩
  · exact ⟨_, Y, .sp, rfl, hY, nofun⟩
  · exact ⟨[], X, .nil, rfl, hY, fun h => by rw [h] at h1; cases h1⟩

/-- After a keyword in front of a statement. -/
theorem keyword_next {s : Stmt} {Y : Bytes} (hg : Blank g) (h1 : (!s.isBlock) = true → g ≠ []) (h2 : s.isBlock = true → next Y = #b'{') (h3 : Y ≠ []) :
    wordByte (next (g ++ (Y ++ r))) = false := by
  cases g with
  | nil =>
    cases hb : s.isBlock with
    | true => rw [List.nil_append, next_append h3, h2 hb]; rfl
    | false => rw [hb] at h1; exact absurd rfl (h1 rfl)
  | cons c g => exact (space_word (.inr (hg c (by simp)))).1

theorem reads_stmt_do {t : Expr} {b : Stmt} (iht : ReadsBack min (.expr t)) (ihb : ReadsBack min (.stmt b))
    (hw : WellFormed (.stmt (.doS l b t))) (hsf : Legible min (.stmt (.doS l b t))) : ReadsStmt min (.doS l b t) := by
  intro X g r j hX hg hs h1 h2
  rw [rereadStmt]
  have hX' : Lay min (.text bs!"do" :: space (!b.isBlock) :: (codeStmt b ++ .text bs!"while" :: pSp :: .text bs!"(" :: (codeExpr t ++ .text bs!")" :: []))) X := by
    have : (if b.isBlock then pSp else .text bs!" ") = space (!b.isBlock) := by cases b.isBlock <;> rfl
    rw [← this]
    simpa [codeStmt] using hX
  obtain ⟨_, rfl, h3⟩ := hX'
  obtain ⟨g1, _, hg1, rfl, h4, hne⟩ := lay_gap h3
  obtain ⟨B, _, rfl, hB, h5⟩ := h4.append
  obtain ⟨A, rfl, hA⟩ := h5
  obtain ⟨m, n, o, q, s1, h6, h7, h8, rfl, h9⟩ := reads_condition (r := r) (P := fun q => q = j) (iht.expr hw) hA fun Y hY => by
    cases hY
    exact ⟨j, hs, rfl⟩
  have s2 := emit_keyword (g := []) bs!"while" .While (by decide) .nil h9 s1
  obtain ⟨i, s3, t1, -, t2, t3⟩ := ihb hsf hB hg1 s2 nofun nofun
  have s4 := emit_keyword (g := g) bs!"do" .Do (by decide) hg (keyword_next hg1 hne t2 t3) s3
  exact ⟨_, s4.cast (by simp), .doLoop ⟨_, _, rfl⟩ t1 ⟨_, _, rfl⟩ h6 h7 h8, rfl, nofun, by simp⟩

theorem reads_stmt_if {t : Expr} {c : Stmt} {a : Option Stmt} (iht : ReadsBack min (.expr t)) (ihc : ReadsBack min (.stmt c))
    (iha : ∀ s ∈ a, ReadsBack min (.stmt s)) (hw : WellFormed (.stmt (.ifS l t c a))) (hsf : Legible min (.stmt (.ifS l t c a))) :
    ReadsStmt min (.ifS l t c a) := by
  intro X g r j hX hg hs h1 h2
  obtain ⟨f1, f2⟩ := hsf
  obtain ⟨hw, f3⟩ := hw
  cases a with
  | none =>
    have hX' : Lay min (.text bs!"if" :: pSp :: .text bs!"(" :: (codeExpr t ++ .text bs!")" :: pSp :: codeStmt c)) X := by
      simpa [codeStmt] using hX
    obtain ⟨A, rfl, hA⟩ := hX'
    have he : look j ≠ .Else := fun he => by cases h2 he
    obtain ⟨m, n, o, q, s1, h3, h4, h5, h6, h7⟩ := reads_condition (r := r) (P := fun q => G q (.stmt (rereadStmt c)) j) (iht.expr hw) hA fun Y hY => by
      obtain ⟨g1, Z, hg1, rfl, hZ⟩ := hY.sp
      obtain ⟨q, s1, h3, -⟩ := ihc f1 hZ hg1 hs h1 (fun h => absurd h he)
      exact ⟨q, s1.cast (by simp), h3⟩
    have s2 := emit_keyword (g := g) bs!"if" .If (by decide) hg h7 s1
    exact ⟨_, s2.cast (by simp), .ifThen ⟨_, _, rfl⟩ h3 h4 h5 h6 he, rfl, nofun, by simp⟩
  | some a =>
    have hX' : Lay min (.text bs!"if" :: pSp :: .text bs!"(" :: (codeExpr t ++ .text bs!")" :: pSp :: (codeStmt c ++
        space (!c.isBlock) :: .text bs!"else" :: space (!a.isBlock) :: codeStmt a))) X := by
      have e1 : (if c.isBlock then pSp else .text bs!" ") = space (!c.isBlock) := by cases c.isBlock <;> rfl
      have e2 : (if a.isBlock then pSp else .text bs!" ") = space (!a.isBlock) := by cases a.isBlock <;> rfl
      rw [← e1, ← e2]
      simpa [codeStmt] using hX
    obtain ⟨A, rfl, hA⟩ := hX'
    obtain ⟨m, n, o, q, s1, h3, h4, h5, ⟨u, v, h6, ⟨w, h7⟩, h8⟩, h9⟩ := reads_condition (r := r)
        (P := fun q => ∃ u v, G q (.stmt (rereadStmt c)) u ∧ Tk .Else u v ∧ G v (.stmt (rereadStmt a)) j) (iht.expr hw) hA fun Y hY => by
      obtain ⟨g1, _, hg1, rfl, t1⟩ := hY.sp
      obtain ⟨C, _, rfl, hC, t2⟩ := t1.append
      obtain ⟨g2, _, hg2, rfl, t3, -⟩ := lay_gap t2
      obtain ⟨_, rfl, t4⟩ := t3
      obtain ⟨g3, B, hg3, rfl, hB, hne⟩ := lay_gap t4
      obtain ⟨v, s1, t5, -, t6, t7⟩ := iha a rfl (f2 a rfl) hB hg3 hs h1 h2
      have s2 := emit_keyword (g := g2) bs!"else" .Else (by decide) hg2 (keyword_next hg3 hne t6 t7) s1
      obtain ⟨q, s3, t8, -⟩ := ihc f1 hC hg1 s2 nofun (fun _ => f3 nofun)
      exact ⟨q, s3.cast (by simp), _, v, t8, ⟨_, _, rfl⟩, t5⟩
    have s2 := emit_keyword (g := g) bs!"if" .If (by decide) hg h9 s1
    exact ⟨_, s2.cast (by simp), .ifElse ⟨_, _, rfl⟩ h3 h4 h5 h6 ⟨_, h7⟩ h8, rfl, nofun, by simp⟩

theorem reads_stmt_labeled {n : Bytes} {b : Stmt} (ihb : ReadsBack min (.stmt b)) (hw : WellFormed (.stmt (.labeled l n b)))
    (hsf : Legible min (.stmt (.labeled l n b))) : ReadsStmt min (.labeled l n b) := by
  intro X g r j hX hg hs h1 h2
  rw [rereadStmt]
  have hX' : Lay min (.text n :: .text bs!":" :: pSp :: codeStmt b) X := by simpa [codeStmt] using hX
  obtain ⟨_, rfl, h3⟩ := hX'
  obtain ⟨_, rfl, h4⟩ := h3
  obtain ⟨g1, B, hg1, rfl, hB⟩ := h4.sp
  obtain ⟨q, s1, h5, -⟩ := ihb hsf hB hg1 hs h1 h2
  have s2 := emit_punct (g := []) bs!":" .Colon (by decide +kernel) .nil s1
  have hw : Word .Identifier n := hw
  have s3 := emit_word hw hg rfl s2
  exact ⟨_, s3.cast (by simp), .labeled ⟨_, rfl⟩ ⟨_, _, rfl⟩ h5, rfl, nofun, by simp⟩

/-! ### Try -/

theorem reads_catch {p : Pattern} {b : Block} (ihp : ReadsBack min (.pat p)) (ihb : ReadsBlock min b) (hw : WellFormed (.catch (.mk l p b))) :
    ReadsCatch min (.mk l p b) := by
  intro X g r j hX hg hs
  have hX' : Lay min (pSp :: .text bs!"catch" :: pSp :: .text bs!"(" :: (codePattern p ++ .text bs!")" :: pSp :: codeBlock b)) X := by
    simpa [codeCatch] using hX
  obtain ⟨g1, _, hg1, rfl, h1⟩ := hX'.sp
  obtain ⟨_, rfl, h2⟩ := h1
  obtain ⟨g2, _, hg2, rfl, h3⟩ := h2.sp
  obtain ⟨_, rfl, h4⟩ := h3
  obtain ⟨A, _, rfl, hA, h5⟩ := h4.append
  obtain ⟨_, rfl, h6⟩ := h5
  obtain ⟨g3, B, hg3, rfl, hB⟩ := h6.sp
  obtain ⟨q, s1, t1, -⟩ := ihb hB hg3 hs
  have s2 := emit_punct (g := []) bs!")" .ParenClose (by decide +kernel) .nil s1
  obtain ⟨n, s3, t2, -⟩ := ihp.1 hw hA .nil s2 rfl
  have s4 := emit_punct (g := g2) bs!"(" .ParenOpen (by decide +kernel) hg2 s3
  have s5 := emit_keyword (g := g ++ g1) bs!"catch" .Catch (by decide) (hg.append hg1) (blank_next (r := bs!"(" ++ _) hg2 rfl (by simp [next])).1 s4
  refine ⟨_, s5.cast (by simp), ?_, rfl⟩
  rw [rereadCatch]
  exact .catch ⟨_, _, rfl⟩ ⟨_, _, rfl⟩ t2 ⟨_, _, rfl⟩ t1

theorem reads_stmt_try {b : Block} {h : Option Catch} {f : Option Block} (ihb : ReadsBlock min b) (ihh : ∀ c ∈ h, ReadsCatch min c)
    (hw : WellFormed (.stmt (.tryS l b h f))) (hsf : Legible min (.stmt (.tryS l b h f))) : ReadsStmt min (.tryS l b h f) := by
  intro X g r j hX hg hs h1 h2
  cases (hsf : f = none)
  cases h with
  | none => exact absurd rfl (hw rfl)
  | some c =>
    have hX' : Lay min (.text bs!"try" :: pSp :: (codeBlock b ++ codeCatch c)) X := by simpa [codeStmt] using hX
    obtain ⟨_, rfl, t1⟩ := hX'
    obtain ⟨g1, _, hg1, rfl, t2⟩ := t1.sp
    obtain ⟨A, B, rfl, hA, hB⟩ := t2.append
    obtain ⟨n, s1, t3, -⟩ := ihh c rfl hB .nil hs
    obtain ⟨m, s2, t4, -, t5, t6⟩ := ihb hA hg1 s1
    have s3 := emit_keyword (g := g) bs!"try" .Try (by decide) hg
      (blank_next (r := A ++ ([] ++ (B ++ r))) hg1 (by rw [next_append t6, t5]; rfl) (by rw [next_append t6, t5]; decide)).1 s2
    exact ⟨_, s3.cast (by simp), .tryCatch ⟨_, _, rfl⟩ t4 t3 h1, rfl, nofun, by simp⟩

/-! ### Switch -/

theorem caseEnd_ne {t : Token} (h : caseEnd t = true) : t ≠ .Else ∧ t ≠ .Finally := by
  refine ⟨?_, ?_⟩ <;> rintro rfl <;> cases h

theorem caseEnd_iff {t : Token} (h : caseEnd t = true) : t = .Case ∨ t = .Default ∨ t = .BraceClose := by
  simpa [caseEnd] using h

theorem reads_case {t : Option Expr} {ss : List Stmt} (iht : ∀ e ∈ t, ReadsBack min (.expr e)) (ih : ∀ s ∈ ss, ReadsBack min (.stmt s))
    (hw : WellFormed (.case (.mk l t ss))) : ReadsCase min (.mk l t ss) := by
  intro X g r Q hX hg hend
  have body : ∀ Y, Lay min (writeBlock (codeStmts ss)) Y → ∃ o j, Spells (Y ++ r) o ∧ G o (.caseBody (rereadStmts ss)) j ∧ Q j := by
    intro Y hY
    rw [codeStmts_eq] at hY
    obtain ⟨A, g1, rfl, hg1, hA⟩ := lay_block hY
    obtain ⟨o, j, s1, h1, h2, -⟩ := reads_stmts (r := g1 ++ r) (ph := .caseBody) (Q := Q) (E := fun _ => True) ih hA .nil
      (fun g' hg' => by
        obtain ⟨j, s1, h1, h2⟩ := hend (g' ++ g1) (hg'.append hg1)
        exact ⟨j, j, s1.cast (by simp), .caseBodyEnd (caseEnd_iff h2), h1, trivial, caseEnd_ne h2⟩) (fun _ _ _ _ _ => .caseBodyMore)
    exact ⟨o, j, s1.cast (by simp), h1, h2⟩
  cases t with
  | none =>
    have hX' : Lay min (.text bs!"default:" :: writeBlock (codeStmts ss)) X := by simpa [codeCase] using hX
    obtain ⟨Y, rfl, hY⟩ := hX'
    obtain ⟨o, j, s1, h1, h2⟩ := body Y hY
    have s2 := emit_punct (g := []) bs!":" .Colon (by decide +kernel) .nil s1
    have s3 := emit_keyword (g := g) bs!"default" .Default (by decide) hg rfl s2
    exact ⟨_, j, s3.cast (by simp), .default ⟨_, _, rfl⟩ ⟨_, _, rfl⟩ h1, h2, rfl⟩
  | some e =>
    have hX' : Lay min (.text bs!"case " :: (codeExpr e ++ .text bs!":" :: writeBlock (codeStmts ss))) X := by simpa [codeCase] using hX
    obtain ⟨_, rfl, h3⟩ := hX'
    obtain ⟨A, _, rfl, hA, h4⟩ := h3.append
    obtain ⟨Y, rfl, hY⟩ := h4
    obtain ⟨o, j, s1, h1, h2⟩ := body Y hY
    have s2 := emit_punct (g := []) bs!":" .Colon (by decide +kernel) .nil s1
    obtain ⟨m, s3, h5, -⟩ := ((iht e rfl).expr (hw e rfl)).any hA .sp s2 (.close rfl (by simp [next]) (by simp [look, Item.token]))
    have s4 := emit_keyword (g := g) bs!"case" .Case (by decide) hg rfl s3
    exact ⟨_, j, s4.cast (by simp), .case ⟨_, _, rfl⟩ h5 ⟨_, _, rfl⟩ h1, h2, rfl⟩

theorem reads_cases {cs : List SwitchCase} (ih : ∀ c ∈ cs, ReadsCase min c) {g1 : Bytes}
    (hX : Lay min (writeLines (cs.map codeCase)) X) (hg : Blank g) (hg1 : Blank g1) (hs : Spells r j) :
    ∃ i, Spells (g ++ (X ++ (g1 ++ (bs!"}" ++ r)))) i ∧ G i (.cases (cs.map rereadCase)) j ∧ caseEnd (look i) = true := by
  induction cs generalizing X g with
  | nil =>
    cases hX
    exact ⟨_, (emit_punct (g := g ++ g1) bs!"}" .BraceClose (by decide +kernel) (hg.append hg1) hs).cast (by simp), .casesClose ⟨_, _, rfl⟩, rfl⟩
  | cons c cs ihl =>
    have hX' : Lay min (.newLine :: (codeCase c ++ writeLines (cs.map codeCase))) X := hX
    obtain ⟨g2, _, hg2, rfl, h1⟩ := hX'.line
    obtain ⟨A, B, rfl, hA, hB⟩ := h1.append
    obtain ⟨i, m, s1, h2, h3, h4⟩ := ih c (by simp) hA (hg.append hg2) (r := B ++ (g1 ++ (bs!"}" ++ r)))
      (Q := fun m => G m (.cases (cs.map rereadCase)) j) fun g' hg' => ihl (fun s h => ih s (by simp [h])) hB hg'
    exact ⟨i, s1.cast (by simp), .casesMore h2 h3, h4⟩

theorem reads_switchBody {cs : List SwitchCase} (ih : ∀ c ∈ cs, ReadsCase min c) : ReadsSwitch min cs := by
  intro X g r j hX hg hs
  have hX' : Lay min (.text bs!"{" :: (writeBlock (cs.map codeCase) ++ [.text bs!"}"])) X := by
    simpa [writeBraces, codeCases_eq] using hX
  obtain ⟨_, rfl, h1⟩ := hX'
  obtain ⟨B, _, rfl, hB, h2⟩ := h1.append
  cases h2.one
  obtain ⟨A, g1, rfl, hg1, hA⟩ := lay_block hB
  obtain ⟨m, s1, h3, -⟩ := reads_cases ih hA .nil hg1 hs
  have s2 := emit_punct (g := g) bs!"{" .BraceOpen (by decide +kernel) hg s1
  rw [rereadCases_eq]
  exact ⟨_, m, s2.cast (by simp), ⟨_, _, rfl⟩, h3⟩

theorem reads_stmt_switch {d : Expr} {l' : Loc} {cs : List SwitchCase} (ihd : ReadsBack min (.expr d)) (ih : ReadsSwitch min cs)
    (hw : WellFormed (.stmt (.switch l d l' cs))) : ReadsStmt min (.switch l d l' cs) := by
  intro X g r j hX hg hs h1 h2
  rw [rereadStmt]
  have hX' : Lay min (.text bs!"switch" :: pSp :: .text bs!"(" :: (codeExpr d ++ .text bs!")" :: writeBraces (codeCases cs))) X := by
    simpa [codeStmt] using hX
  obtain ⟨A, rfl, hA⟩ := hX'
  obtain ⟨m, n, o, q, s1, h3, h4, h5, ⟨v, h6, h7⟩, h8⟩ := reads_condition (r := r)
      (P := fun q => ∃ v, Tk .BraceOpen q v ∧ G v (.cases (rereadCases cs)) j) (ihd.expr hw) hA fun Y hY => by
    obtain ⟨q, v, s1, t1, t2⟩ := ih hY .nil hs
    exact ⟨q, s1, v, t1, t2⟩
  have s2 := emit_keyword (g := g) bs!"switch" .Switch (by decide) hg h8 s1
  exact ⟨_, s2.cast (by simp), .switch ⟨_, _, rfl⟩ h3 h4 h5 h6 h7, rfl, nofun, by simp⟩

end Ratel
