import Verif.Lemmas.PrintStmt
/-! Reading back generated code: declarations and loops. -/
namespace Ratel
open Spec

set_option linter.unusedSectionVars false
variable [Unicode] {min : Bool} {X g r : Bytes} {j : List Item} {l : Loc}

theorem reads_declarator {p : Pattern} {i : Option Expr} (ihp : ReadsBack min (.pat p)) (ih : ∀ e ∈ i, ReadsBack min (.expr e))
    (hw : WellFormed (.declarator (.mk l p i))) (hsf : Legible min (.declarator (.mk l p i))) : ReadsDeclarator min (.mk l p i) := by
  intro X g r j hX hg hs h1 h2 h3 h4
  obtain ⟨w1, w2⟩ := hw
  cases i with
  | none =>
    have hX' : Lay min (codePattern p) X := by simpa [codeDeclarator] using hX
    obtain ⟨i, s1, t1, -⟩ := ihp.1 w1 hX' hg hs h1
    exact ⟨i, s1, .declarator t1 h3⟩
  | some e =>
    have hX' : Lay min (codePattern p ++ pSp :: .text bs!"=" :: pSp :: codeExpr e) X := by simpa [codeDeclarator] using hX
    obtain ⟨A, B, rfl, hA, hB⟩ := hX'.append
    obtain ⟨n, w, a, s1, t1, t2, -⟩ := reads_default ((ih e rfl).expr (w2 e rfl)) (hsf e rfl) hB hs ⟨h1, h2, h4 rfl⟩
    obtain ⟨i, s2, t3, -⟩ := ihp.1 w1 hA hg s1 t2
    exact ⟨i, s2.cast (by simp), .declaratorInit t3 ⟨_, _, rfl⟩ t1⟩

theorem reads_declarators {ds : List Declarator} (ih : ∀ d ∈ ds, ReadsDeclarator min d)
    (hX : Listed min (ds.map codeDeclarator) X) (hg : Blank g) (hs : Spells r j) (h1 : wordByte (next r) = false) (h2 : next r ≠ #b'.')
    (h3 : look j ≠ .OperatorAssign) (h4 : look j ≠ .Comma) (h5 : ∀ d ∈ ds.getLast?, hasInit d = true → continues 1 j = false) :
    ∃ i, Spells (g ++ (X ++ r)) i ∧ G i (.declarators (rereadDeclarators ds)) j := by
  rw [rereadDeclarators_eq]
  induction ds generalizing X g with
  | nil => cases hX
  | cons d ds ihl =>
    cases ds with
    | nil =>
      cases hX with
      | one hX =>
      obtain ⟨i, s1, t1⟩ := ih d (by simp) hX hg hs h1 h2 h3 (h5 d rfl)
      exact ⟨i, s1, .declaratorsLast t1 h4⟩
    | cons d' ds =>
      cases hX with
      | more hA hsp hB =>
      obtain ⟨n, s1, t1⟩ := ihl (fun e h => ih e (by simp [h])) hB hsp (fun d hd => h5 d (by simpa using hd))
      have s2 := emit_punct (g := []) bs!"," .Comma (by decide +kernel) .nil s1
      obtain ⟨i, s3, t2⟩ := ih d (by simp) hA hg s2 rfl (by simp [next]) (by simp [look, Item.token]) (fun _ => continues_comma rfl (by omega))
      exact ⟨i, s3.cast (by simp), .declaratorsMore t2 ⟨_, _, rfl⟩ t1⟩

/-- The keyword and the declarators. -/
theorem reads_declaration {k : DeclKind} {ds : List Declarator} (ih : ∀ d ∈ ds, ReadsDeclarator min d) (hne : ds ≠ [])
    (hX : Lay min (codeKind k ++ writeList (codeDeclarators ds)) X) (hg : Blank g) (hs : Spells r j) (h1 : wordByte (next r) = false)
    (h2 : next r ≠ #b'.') (h3 : look j ≠ .OperatorAssign) (h4 : look j ≠ .Comma)
    (h5 : ∀ d ∈ ds.getLast?, hasInit d = true → continues 1 j = false) :
    ∃ i n t, Spells (g ++ (X ++ r)) i ∧ declKindOf t = some k ∧ Tk t i n ∧ G n (.declarators (rereadDeclarators ds)) j ∧ X ≠ [] := by
  obtain ⟨K, D, rfl, hK, hD⟩ := hX.append
  have hD' : Listed min (ds.map codeDeclarator) D := by
    rw [codeDeclarators_eq] at hD
    cases ds with
    | nil => exact absurd rfl hne
    | cons d ds => exact listed_list hD
  obtain ⟨n, s1, t1⟩ := reads_declarators ih hD' .sp hs h1 h2 h3 h4 h5
  cases k
  · cases hK.one
    have s2 := emit_keyword (g := g) bs!"var" .DeclarationVar (by decide) hg rfl s1
    exact ⟨_, n, _, s2.cast (by simp), rfl, ⟨_, _, rfl⟩, t1, by simp⟩
  · cases hK.one
    have s2 := emit_keyword (g := g) bs!"let" .DeclarationLet (by decide) hg rfl s1
    exact ⟨_, n, _, s2.cast (by simp), rfl, ⟨_, _, rfl⟩, t1, by simp⟩
  · cases hK.one
    have s2 := emit_keyword (g := g) bs!"const" .DeclarationConst (by decide) hg rfl s1
    exact ⟨_, n, _, s2.cast (by simp), rfl, ⟨_, _, rfl⟩, t1, by simp⟩

theorem declKind_start {t : Token} {k : DeclKind} (h : declKindOf t = some k) : stmtStart t = true := by
  unfold declKindOf at h
  split at h <;> first | rfl | cases h

theorem reads_stmt_decl {k : DeclKind} {ds : List Declarator} (ih : ∀ d ∈ ds, ReadsDeclarator min d)
    (hw : WellFormed (.stmt (.decl l k ds))) : ReadsStmt min (.decl l k ds) := by
  intro X g r j hX hg hs h1 h2
  rw [rereadStmt]
  have hX' : Lay min ((codeKind k ++ writeList (codeDeclarators ds)) ++ [.text bs!";"]) X := by simpa [codeStmt] using hX
  obtain ⟨A, _, rfl, hA, h3⟩ := hX'.append
  cases h3.one
  have a := apart_semi (r := r) (j := j) (k := 1) .nil
  obtain ⟨i, n, t, s1, t1, ⟨w, s, rfl⟩, t3, t4⟩ := reads_declaration ih hw hA hg (emit_semi hs) a.word a.dot (by simp [look, Item.token]) (by simp [look, Item.token])
    (fun _ _ _ => a.ends)
  exact ⟨_, s1.cast (by simp), .declStmt ⟨_, _, rfl⟩ t1 t3 .written, declKind_start t1, nofun, by simp⟩

theorem reads_forDecl {k : DeclKind} {ds : List Declarator} (ih : ∀ d ∈ ds, ReadsDeclarator min d)
    (hw : WellFormed (.forInit (.decl l k ds))) : ReadsForDecl min l k ds := by
  intro X g r j hX hg hs h1 h2 h3 h4 h5
  obtain ⟨i, n, t, s1, t1, t2, t3, -⟩ := reads_declaration ih hw (by rwa [codeForInit] at hX) hg hs h1 h2 h3 h4 h5
  exact ⟨i, s1, by rw [rereadInit]; exact .forInitDecl t2 t1 t3, n, t, t1, t2, t3⟩

/-! ### Loops -/

theorem reread_in {e : Expr} (h : isIn e = false) (a b : Expr) : rereadExpr e ≠ .binary z .In a b := by
  intro he
  cases e <;> rw [rereadExpr] at he <;> cases he
  cases h

/-- ` (` and what follows. -/
theorem reads_open {ps : List Piece} {P : List Item → Prop}
    (hX : Lay min (pSp :: .text bs!"(" :: ps) X) (hrest : ∀ Y, Lay min ps Y → ∃ q, Spells (Y ++ r) q ∧ P q) :
    ∃ m n, Spells (X ++ r) m ∧ Tk .ParenOpen m n ∧ P n ∧ wordByte (next (X ++ r)) = false := by
  obtain ⟨g1, _, hg1, rfl, h1⟩ := hX.sp
  obtain ⟨Y, rfl, hY⟩ := h1
  obtain ⟨q, s1, h4⟩ := hrest Y hY
  have s4 := emit_punct (g := g1) bs!"(" .ParenOpen (by decide +kernel) hg1 s1
  refine ⟨_, q, s4.cast (by simp), ⟨_, _, rfl⟩, h4, ?_⟩
  rw [List.append_assoc, List.append_assoc]
  exact (blank_next (r := bs!"(" ++ _) hg1 rfl (by simp [next])).1

/-- `) ` and the body of a loop. -/
theorem reads_loopBody {b : Stmt} (ihb : ReadsStmt min b) (hX : Lay min (.text bs!")" :: pSp :: codeStmt b) X) (hs : Spells r j)
    (h1 : look j ≠ .Finally) (h2 : look j = .Else → endsInIf b = false) :
    ∃ n, Spells (X ++ r) (.tok .ParenClose bs!")" (asiBefore .ParenClose (nl [])) :: n) ∧ G n (.stmt (rereadStmt b)) j ∧ Apart 0 (X ++ r) (.tok .ParenClose bs!")" (asiBefore .ParenClose (nl [])) :: n) := by
  obtain ⟨_, rfl, h3⟩ := hX
  obtain ⟨g1, B, hg1, rfl, hB⟩ := h3.sp
  obtain ⟨n, s1, h4, -⟩ := ihb hB hg1 hs h1 h2
  have s2 := emit_punct (g := []) bs!")" .ParenClose (by decide +kernel) .nil s1
  exact ⟨n, s2.cast (by simp), h4, by simpa using apart_paren (r := g1 ++ (B ++ r)) (j := n) (k := 0) .nil⟩

/-- The code of an optional expression. -/
def optCode : Option Expr → List Piece
  | some e => codeExpr e
  | none => []

/-- The tree of an optional expression. -/
def optReread : Option Expr → Option Expr
  | some e => some (rereadExpr e)
  | none => none

theorem reads_opt {e : Option Expr} {t : Token} {w : Bytes} (ih : ∀ x ∈ e, ReadsExpr min x) (hX : Lay min (optCode e) X) (hg : Blank g)
    (hs : ∀ g, Blank g → Spells (g ++ r) (.tok t w (asiBefore t (nl g)) :: j)) (ha : ∀ a, Apart 0 r (.tok t w a :: j)) :
    ∃ i, Spells (g ++ (X ++ r)) i ∧ G i (.optExpr t (optReread e)) j := by
  cases e with
  | none =>
    cases hX
    exact ⟨_, hs g hg, .optExprNone ⟨_, _, rfl⟩⟩
  | some e =>
    obtain ⟨i, s1, h1, -⟩ := (ih e rfl).any hX hg (hs [] .nil) (ha _)
    exact ⟨i, s1, .optExprSome h1 ⟨_, _, rfl⟩⟩

/-- What follows the first semicolon of a loop. -/
theorem reads_loopTail {t u : Option Expr} {b : Stmt} (iht : ∀ x ∈ t, ReadsExpr min x) (ihu : ∀ x ∈ u, ReadsExpr min x) (ihb : ReadsStmt min b)
    (hX : Lay min (.text bs!";" :: pSp :: (optCode t ++ .text bs!";" :: pSp :: (optCode u ++ .text bs!")" :: pSp :: codeStmt b))) X)
    (hg : Blank g) (hs : Spells r j) (h1 : look j ≠ .Finally) (h2 : look j = .Else → endsInIf b = false) :
    ∃ m n o, Spells (g ++ (X ++ r)) (.tok .Semicolon bs!";" .ExplicitSemicolon :: m) ∧ G m (.optExpr .Semicolon (optReread t)) n ∧ G n (.optExpr .ParenClose (optReread u)) o ∧
      G o (.stmt (rereadStmt b)) j ∧ Apart 0 (X ++ r) (.tok .Semicolon bs!";" .ExplicitSemicolon :: m) := by
  obtain ⟨_, rfl, h3⟩ := hX
  obtain ⟨g1, _, hg1, rfl, h4⟩ := h3.sp
  obtain ⟨T, _, rfl, hT, h5⟩ := h4.append
  obtain ⟨_, rfl, h6⟩ := h5
  obtain ⟨g2, _, hg2, rfl, h7⟩ := h6.sp
  obtain ⟨U, _, rfl, hU, h8⟩ := h7.append
  obtain ⟨_, rfl, h9⟩ := h8
  obtain ⟨g3, B, hg3, rfl, hB⟩ := h9.sp
  obtain ⟨o, s1, t1, -⟩ := ihb hB hg3 hs h1 h2
  have e2 : ∀ g, Blank g → Spells (g ++ (bs!")" ++ (g3 ++ (B ++ r)))) (.tok .ParenClose bs!")" (asiBefore .ParenClose (nl g)) :: o) :=
    fun g hg => emit_punct (g := g) bs!")" .ParenClose (by decide +kernel) hg s1
  obtain ⟨n, s2, t2⟩ := reads_opt ihu hU hg2 e2 fun _ => (.close rfl (by simp [next]) (.inl rfl))
  have e3 : ∀ g, Blank g → Spells (g ++ (bs!";" ++ (g2 ++ (U ++ (bs!")" ++ (g3 ++ (B ++ r))))))) (.tok .Semicolon bs!";" (asiBefore .Semicolon (nl g)) :: n) :=
    fun g hg => emit_punct (g := g) bs!";" .Semicolon (by decide +kernel) hg s2
  obtain ⟨m, s3, t3⟩ := reads_opt iht hT hg1 e3 fun _ => (.close rfl (by simp [next]) (by simp [look, Item.token]))
  have s4 := emit_punct (g := g) bs!";" .Semicolon (by decide +kernel) hg s3
  exact ⟨m, n, o, s4.cast (by simp), t3, t2, t1, .close rfl (by simp [next]) (by simp [look, Item.token])⟩

theorem reads_stmt_for {i : Option ForInit} {t u : Option Expr} {b : Stmt} (ihi : ∀ x ∈ i, ReadsBack min (.forInit x))
    (iht : ∀ x ∈ t, ReadsBack min (.expr x)) (ihu : ∀ x ∈ u, ReadsBack min (.expr x)) (ihb : ReadsBack min (.stmt b))
    (hw : WellFormed (.stmt (.forS l i t u b))) (hsf : Legible min (.stmt (.forS l i t u b))) : ReadsStmt min (.forS l i t u b) := by
  intro X g r j hX hg hs h1 h2
  obtain ⟨w1, w2, w3⟩ := hw
  have hsf : isEmptyStmt b = false := hsf
  have iht' : ∀ x ∈ t, ReadsExpr min x := fun x hx => (iht x hx).expr (w2 x hx)
  have ihu' : ∀ x ∈ u, ReadsExpr min x := fun x hx => (ihu x hx).expr (w3 x hx)
  cases i with
  | none =>
    have hX' : Lay min (.text bs!"for" :: pSp :: .text bs!"(" :: (.text bs!";" :: pSp :: (optCode t ++ .text bs!";" :: pSp :: (optCode u ++ .text bs!")" :: pSp :: codeStmt b)))) X := by
      cases t <;> cases u <;> simpa [codeStmt, optCode] using hX
    obtain ⟨A, rfl, hA⟩ := hX'
    obtain ⟨m, n, s1, t1, ⟨o, q, v, t2, t3, t4, t5⟩, t6⟩ := reads_open (r := r)
      (P := fun m => ∃ n o q, Tk .Semicolon m n ∧ G n (.optExpr .Semicolon (optReread t)) o ∧ G o (.optExpr .ParenClose (optReread u)) q ∧ G q (.stmt (rereadStmt b)) j) hA fun Y hY => by
      obtain ⟨m, n, o, s1, t1, t2, t3, -⟩ := reads_loopTail iht' ihu' (ihb hsf) hY .nil hs h1 h2
      exact ⟨_, s1, m, n, o, ⟨_, _, rfl⟩, t1, t2, t3⟩
    have s2 := emit_keyword (g := g) bs!"for" .For (by decide) hg t6 s1
    rw [show rereadStmt (.forS l none t u b) = .forS z none (optReread t) (optReread u) (rereadStmt b) by
      cases t <;> cases u <;> simp only [rereadStmt, optReread]]
    exact ⟨_, s2.cast (by simp), .forLoop ⟨_, _, rfl⟩ t1 t2 t3 t4 t5, rfl, nofun, by simp⟩
  | some i =>
    have hX' : Lay min (.text bs!"for" :: pSp :: .text bs!"(" :: (codeForInit i ++ .text bs!";" :: pSp :: (optCode t ++ .text bs!";" :: pSp :: (optCode u ++ .text bs!")" :: pSp :: codeStmt b)))) X := by
      cases t <;> cases u <;> simpa [codeStmt, optCode] using hX
    obtain ⟨A, rfl, hA⟩ := hX'
    obtain ⟨m, n, s1, t1, ⟨o, q, v, x, t0, t2, t3, t4, t5⟩, t6⟩ := reads_open (r := r)
      (P := fun p => ∃ m n o q, G p (.forInit (rereadInit i)) m ∧ Tk .Semicolon m n ∧ G n (.optExpr .Semicolon (optReread t)) o ∧
        G o (.optExpr .ParenClose (optReread u)) q ∧ G q (.stmt (rereadStmt b)) j) hA fun Y hY => by
      obtain ⟨I, T, rfl, hI, hT⟩ := hY.append
      obtain ⟨m, n, o, s1, t1, t2, t3, a⟩ := reads_loopTail iht' ihu' (ihb hsf) hT .nil hs h1 h2
      cases i with
      | decl l' k ds =>
        obtain ⟨p, s2, t4, -⟩ := ihi _ rfl hI .nil s1 a.word a.dot (by simp [look, Item.token]) (by simp [look, Item.token])
          (fun _ _ _ => continues_mono (by omega) a.ends)
        exact ⟨p, s2.cast (by simp), _, m, n, o, t4, ⟨_, _, rfl⟩, t1, t2, t3⟩
      | expr l' e =>
        have ih : ReadsExpr min e := ihi _ rfl
        obtain ⟨p, s2, t4, -⟩ := ih.any (by rwa [codeForInit] at hI) .nil s1 a
        exact ⟨p, s2.cast (by simp), _, m, n, o, by rw [rereadInit]; exact .forInitExpr t4 (reread_in (w1 l' e rfl)), ⟨_, _, rfl⟩, t1, t2, t3⟩
    have s2 := emit_keyword (g := g) bs!"for" .For (by decide) hg t6 s1
    rw [show rereadStmt (.forS l (some i) t u b) = .forS z (some (rereadInit i)) (optReread t) (optReread u) (rereadStmt b) by
      cases t <;> cases u <;> simp only [rereadStmt, optReread]]
    exact ⟨_, s2.cast (by simp), .forLoopInit ⟨_, _, rfl⟩ t1 t0 t2 t3 t4 t5, rfl, nofun, by simp⟩

theorem reads_stmt_forOf {i : ForInit} {e : Expr} {b : Stmt} (ihi : ReadsBack min (.forInit i))
    (ihe : ReadsBack min (.expr e)) (ihb : ReadsBack min (.stmt b))
    (hw : WellFormed (.stmt (.forOf l i e b))) (hsf : Legible min (.stmt (.forOf l i e b))) : ReadsStmt min (.forOf l i e b) := by
  intro X g r j hX hg hs h1 h2
  obtain ⟨w1, w2⟩ := hw
  rw [rereadStmt]
  have hX' : Lay min (.text bs!"for" :: pSp :: .text bs!"(" :: (codeForInit i ++ .text bs!" of " :: (codeExpr e ++ .text bs!")" :: pSp :: codeStmt b))) X := by
    simpa [codeStmt] using hX
  obtain ⟨A, rfl, hA⟩ := hX'
  obtain ⟨m, n, s1, t1, ⟨o, q, v, x, t0, t2, t3, t4, t5⟩, t6⟩ := reads_open (r := r)
      (P := fun p => ∃ m n o q, G p (.forInit (rereadInit i)) m ∧ Wd .Identifier bs!"of" m n ∧ G n (.whole 0 (rereadExpr e)) o ∧
        Tk .ParenClose o q ∧ G q (.stmt (rereadStmt b)) j) hA fun Y hY => by
    obtain ⟨I, _, rfl, hI, t1⟩ := hY.append
    obtain ⟨_, rfl, t2⟩ := t1
    obtain ⟨E, B, rfl, hE, hB⟩ := t2.append
    obtain ⟨q, s1, t3, a⟩ := reads_loopBody (ihb hsf) hB hs h1 h2
    obtain ⟨n, s2, t4, -⟩ := (ihe.expr w2).any hE .sp s1 a
    have s3 := emit_keyword (g := bs!" ") bs!"of" .Identifier (by decide) .sp rfl s2
    cases i with
    | decl l' k ds =>
      obtain ⟨p, s4, t5, -⟩ := ihi hI .nil s3 rfl (by simp [next]) (by simp [look, Item.token]) (by simp [look, Item.token])
        (fun _ _ _ => continues_close (by simp [look, Item.token]))
      exact ⟨p, s4.cast (by simp), _, n, _, q, t5, ⟨_, rfl⟩, t4, ⟨_, _, rfl⟩, t3⟩
    | expr l' x =>
      have ih : ReadsExpr min x := ihi
      obtain ⟨p, s4, t5, -⟩ := ih.any (by rwa [codeForInit] at hI) .nil s3 (.close rfl (by simp [next]) (by simp [look, Item.token]))
      exact ⟨p, s4.cast (by simp), _, n, _, q, by rw [rereadInit]; exact .forInitExpr t5 (reread_in (w1 l' x rfl)), ⟨_, rfl⟩, t4, ⟨_, _, rfl⟩, t3⟩
  have s2 := emit_keyword (g := g) bs!"for" .For (by decide) hg t6 s1
  exact ⟨_, s2.cast (by simp), .forOf ⟨_, _, rfl⟩ t1 t0 t2 t3 t4 t5, rfl, nofun, by simp⟩

theorem reads_stmt_forIn {i : ForInit} {e : Expr} {b : Stmt} (ihi : ReadsBack min (.forInit i))
    (ihe : ReadsBack min (.expr e)) (ihb : ReadsBack min (.stmt b))
    (hw : WellFormed (.stmt (.forIn l i e b))) (hsf : Legible min (.stmt (.forIn l i e b))) : ReadsStmt min (.forIn l i e b) := by
  intro X g r j hX hg hs h1 h2
  obtain ⟨w1, w2⟩ := hw
  obtain ⟨f1, f2⟩ := hsf
  rw [rereadStmt]
  have hX' : Lay min (.text bs!"for" :: pSp :: .text bs!"(" :: (codeForInit i ++ .text bs!" in " :: (codeExpr e ++ .text bs!")" :: pSp :: codeStmt b))) X := by
    simpa [codeStmt] using hX
  obtain ⟨A, rfl, hA⟩ := hX'
  obtain ⟨m, n, s1, t1, t2, t6⟩ := reads_open (r := r)
      (P := fun p => ∀ i' m, Tk .For i' m → ∀ m', m' = m → Tk .ParenOpen m' p → G i' (.stmt (.forIn z (rereadInit i) (rereadExpr e) (rereadStmt b))) j) hA fun Y hY => by
    obtain ⟨I, _, rfl, hI, t1⟩ := hY.append
    obtain ⟨_, rfl, t2⟩ := t1
    obtain ⟨E, B, rfl, hE, hB⟩ := t2.append
    obtain ⟨q, s1, t3, a⟩ := reads_loopBody (ihb f1) hB hs h1 h2
    obtain ⟨n, s2, t4, -⟩ := ihe.expr w2 hE .sp s1 (a.after (Nat.zero_le _))
    have s3 := emit_keyword (g := bs!" ") bs!"in" .OperatorIn (by decide) .sp rfl s2
    cases i with
    | decl l' k ds =>
      obtain ⟨p, s4, t5, -⟩ := ihi hI .nil s3 rfl (by simp [next]) (by simp [look, Item.token]) (by simp [look, Item.token])
        (fun d hd hi => by rw [w1 l' k ds rfl d hd] at hi; cases hi)
      rw [rereadInit] at t5 ⊢
      refine ⟨p, s4.cast (by simp), fun i' m k1 m' hm k2 => ?_⟩
      subst hm
      exact .forInDecl k1 k2 t5 ⟨_, _, rfl⟩ (.whole (t4.mono (Nat.zero_le _)) a.ends) ⟨_, _, rfl⟩ t3
    | expr l' x =>
      have ih : ReadsExpr min x := ihi
      obtain ⟨k1, k2⟩ := f2 l' x rfl
      simp [fitsLeft] at k1
      obtain ⟨p, s4, t5, -⟩ := ih (by rwa [codeForInit] at hI) .nil s3 ⟨rfl, by simp [next], fun _ => continues_op (op := .In) (p := 11) rfl rfl k1.2⟩
      rw [rereadInit]
      refine ⟨p, s4.cast (by simp), fun i' m k3 m' hm k4 => ?_⟩
      subst hm
      refine .forInExpr k3 k4 (.whole (.binary (t := .OperatorIn) (p := 11) rfl (Nat.zero_le _) (t5.mono k1.1) ⟨_, _, rfl⟩ (.whole (t4.mono k2) ?_)) a.ends) ⟨_, _, rfl⟩ t3
      exact continues_mono (by omega) a.ends
  have s2 := emit_keyword (g := g) bs!"for" .For (by decide) hg t6 s1
  exact ⟨_, s2.cast (by simp), t2 _ _ ⟨_, _, rfl⟩ _ rfl t1, rfl, nofun, by simp⟩

end Ratel
