import Verif.Lemmas.PrintParts
/-! Reading back generated code: properties, functions, classes and blocks. -/
namespace Ratel
open Spec

set_option linter.unusedSectionVars false
variable [Unicode] {min : Bool} {X g r : Bytes} {j : List Item} {l : Loc}

/-! ### Keys and properties -/

/-- What follows a key. -/
structure AfterKey (r : Bytes) : Prop where
  word : wordByte (next r) = false
  dot : next r ≠ #b'.'
  plus : next r ≠ #b'+'
  minus : next r ≠ #b'-'

theorem AfterKey.gap (hg : Blank g) (h : AfterKey r) : AfterKey (g ++ r) := by
  have b := blank_next hg h.word h.dot
  refine ⟨b.1, b.2, ?_, ?_⟩
  all_goals
    cases g with
    | nil => first | exact h.plus | exact h.minus
    | cons c g =>
      have := hg c (by simp)
      simp only [List.cons_append, next]
      rintro rfl
      revert this
      decide

theorem emit_numberKey {v r' : Bytes} (hv : Number v r') (hg : Blank g) (hs : Spells r j) (hr : AfterKey r) :
    Spells (g ++ (v ++ r)) (.tok .LiteralNumber v (asiBefore .LiteralNumber (nl g)) :: j) :=
  emit_number hv hg hr.word (fun h => absurd h hr.dot) (fun _ => ⟨hr.plus, hr.minus⟩) hs

theorem reads_computed {e : Expr} (ih : ReadsExpr min e) (hX : Lay min (codeKey (.computed l e)) X) (hg : Blank g) (hs : Spells r j) :
    ∃ i m n, Spells (g ++ (X ++ r)) i ∧ Tk .BracketOpen i m ∧ G m (.whole 0 (rereadExpr e)) n ∧ Tk .BracketClose n j := by
  have hX' : Lay min (.text bs!"[" :: (codeExpr e ++ [.text bs!"]"])) X := by simpa [codeKey] using hX
  obtain ⟨_, rfl, h1⟩ := hX'
  obtain ⟨A, _, rfl, hA, h2⟩ := h1.append
  cases h2.one
  have s1 := emit_punct (g := []) bs!"]" .BracketClose (by decide +kernel) .nil hs
  obtain ⟨i, s2, h3, -⟩ := ih.any hA .nil s1 (.close rfl (by simp [next]) (.inr (.inl rfl)))
  have s3 := emit_punct (g := g) bs!"[" .BracketOpen (by decide +kernel) hg s2
  exact ⟨_, _, _, s3.cast (by simp), ⟨_, _, rfl⟩, h3, ⟨_, _, rfl⟩⟩

theorem reads_key {k : PropKey} (ih : ReadsBack min (.key k)) (hk : ObjectKey k) (hX : Lay min (codeKey k) X) (hg : Blank g) (hs : Spells r j)
    (hr : AfterKey r) : ∃ i, Spells (g ++ (X ++ r)) i ∧ ∀ p o, G j (.propValue (rereadKey k) p) o → G i (.prop p) o := by
  cases k with
  | computed l e =>
    obtain ⟨i, m, n, s, h1, h2, h3⟩ := reads_computed (ih hk) hX hg hs
    exact ⟨i, s, fun p o h => .propComputed h1 h2 h3 h⟩
  | binary l v =>
    cases hX.one
    exact ⟨_, emit_binary hk hg hr.word hs, fun p o h => .propBinary ⟨_, rfl⟩ h⟩
  | literal l v =>
    cases hX.one
    rcases hk with ⟨t, h1, h2⟩ | h1 | ⟨r', h1⟩
    · exact ⟨_, emit_word h1 hg hr.word hs, fun p o h => .propWord ⟨_, rfl⟩ h2 h⟩
    · exact ⟨_, emit_string h1 hg hs, fun p o h => .propLiteral ⟨_, rfl⟩ (.inl rfl) h⟩
    · exact ⟨_, emit_numberKey h1 hg hs hr, fun p o h => .propLiteral ⟨_, rfl⟩ (.inr rfl) h⟩

theorem reads_prop_shorthand {n : Bytes} (hw : WellFormed (.prop (.shorthand l n))) : ReadsProp min (.shorthand l n) := by
  intro X g r j hX hg hs h1 h2 h3
  cases hX.one
  obtain ⟨t, hw, ht⟩ := hw
  refine ⟨_, emit_word hw hg h1 hs, .shorthand ⟨_, rfl⟩ ht ?_ ?_⟩ <;> rcases h3 with h3 | h3 <;> rw [h3] <;> nofun

theorem apart_prop (h1 : wordByte (next r) = false) (h2 : next r ≠ #b'.') (h3 : look j = .Comma ∨ look j = .BraceClose) : Apart 1 r j := by
  rcases h3 with h3 | h3
  · exact ⟨h1, h2, continues_comma h3 (by omega)⟩
  · exact .close h1 h2 (by simp [h3])

theorem reads_prop_literal {k : PropKey} {e : Expr} (ihk : ReadsBack min (.key k)) (ih : ReadsBack min (.expr e))
    (hw : WellFormed (.prop (.literal l k e))) (hsf : Legible min (.prop (.literal l k e))) : ReadsProp min (.literal l k e) := by
  intro X g r j hX hg hs h1 h2 h3
  obtain ⟨hk, he⟩ := hw
  have hX' : Lay min (codeKey k ++ .text bs!":" :: pSp :: codeExpr e) X := by simpa [codeProperty] using hX
  obtain ⟨A, _, rfl, hA, t1⟩ := hX'.append
  obtain ⟨_, rfl, t2⟩ := t1
  obtain ⟨g1, B, hg1, rfl, hB⟩ := t2.sp
  obtain ⟨n, s1, t3, -⟩ := (ih.expr he).whole hsf hB hg1 hs (apart_prop h1 h2 h3)
  have s2 := emit_punct (g := []) bs!":" .Colon (by decide +kernel) .nil s1
  obtain ⟨i, s3, t4⟩ := reads_key ihk hk hA hg s2 ⟨rfl, by simp [next], by simp [next], by simp [next]⟩
  refine ⟨i, s3.cast (by simp), t4 _ _ ?_⟩
  rw [rereadProp]
  exact .propField ⟨_, _, rfl⟩ t3

theorem reads_prop_method {k : PropKey} {l' : Loc} {f : Func} (ihk : ReadsBack min (.key k)) (ih : ReadsFunc min f)
    (hw : WellFormed (.prop (.method l k l' f))) : ReadsProp min (.method l k l' f) := by
  intro X g r j hX hg hs h1 h2 h3
  obtain ⟨hk, he⟩ := hw
  obtain ⟨A, B, rfl, hA, hB⟩ := Lay.append (a := codeKey k) (b := codeFunc f) (by simpa [codeProperty] using hX)
  obtain ⟨n, s1, hne, t1⟩ := ih hB .nil hs
  rw [he] at t1
  obtain ⟨t1, t2, t3⟩ := t1
  have hn : next (B ++ r) = #b'(' := by rw [next_append hne, t3]
  obtain ⟨i, s3, t4⟩ := reads_key ihk hk hA hg s1 (by rw [List.nil_append]; refine ⟨?_, ?_, ?_, ?_⟩ <;> rw [hn] <;> decide)
  refine ⟨i, s3.cast (by simp), t4 _ _ ?_⟩
  rw [rereadProp]
  exact .propMethod t2 t1

theorem reads_prop_spread {e : Expr} (ih : ReadsBack min (.expr e))
    (hw : WellFormed (.prop (.spread l e))) (hsf : Legible min (.prop (.spread l e))) : ReadsProp min (.spread l e) := by
  intro X g r j hX hg hs h1 h2 h3
  obtain ⟨Y, rfl, hY⟩ := hX
  obtain ⟨i, s1, t1, -⟩ := (ih.expr hw).whole hsf hY .nil hs (apart_prop h1 h2 h3)
  have s2 := emit_punct (g := g) bs!"..." .OperatorSpread (by decide +kernel) hg s1
  refine ⟨_, s2.cast (by simp), ?_⟩
  rw [rereadProp]
  exact .propSpread ⟨_, _, rfl⟩ t1

/-! ### Lists of statements -/

theorem stmtStart_ne {t : Token} (h : stmtStart t = true) : t ≠ .Else ∧ t ≠ .Finally := by
  refine ⟨?_, ?_⟩ <;> rintro rfl <;> cases h

/-- Statements on lines of their own, up to the end described by `E`. -/
theorem reads_stmts {ss : List Stmt} {ph : List Stmt → Phrase} {E Q : List Item → Prop} (ih : ∀ s ∈ ss, ReadsBack min (.stmt s))
    (hX : Lay min (writeLines (ss.map codeStmt)) X) (hg : Blank g)
    (hend : ∀ g, Blank g → ∃ i j, Spells (g ++ r) i ∧ G i (ph []) j ∧ Q j ∧ E i ∧ look i ≠ .Else ∧ look i ≠ .Finally)
    (more : ∀ i m j s ss, G i (.stmt s) m → G m (ph ss) j → G i (ph (s :: ss)) j) :
    ∃ i j, Spells (g ++ (X ++ r)) i ∧ G i (ph (rereadStmts ss)) j ∧ Q j ∧ (rereadStmts ss = [] → E i) ∧ look i ≠ .Else ∧ look i ≠ .Finally := by
  induction ss generalizing X g with
  | nil =>
    cases hX
    obtain ⟨i, j, h1, h2, h3, h4, h5⟩ := hend g hg
    exact ⟨i, j, h1, h2, h3, fun _ => h4, h5⟩
  | cons s ss ihl =>
    have hX' : Lay min (.newLine :: (codeStmt s ++ writeLines (ss.map codeStmt))) X := hX
    obtain ⟨g1, _, hg1, rfl, h1⟩ := hX'.line
    obtain ⟨A, B, rfl, hA, hB⟩ := h1.append
    have ihl := fun {g} => ihl (g := g) (fun s h => ih s (by simp [h])) hB
    rw [rereadStmts]
    cases he : isEmptyStmt s with
    | true =>
      cases s <;> cases he
      cases hA
      obtain ⟨i, j, s1, h2⟩ := ihl (hg.append hg1)
      exact ⟨i, j, s1.cast (by simp), h2⟩
    | false =>
      obtain ⟨m, j, s1, h2, h3, h4, h5, h6⟩ := ihl .nil
      obtain ⟨i, s2, h7, h8, -⟩ := ih s (by simp) he hA (hg.append hg1) s1 h6 (fun h => absurd h h5)
      exact ⟨i, j, s2.cast (by simp), more _ _ _ _ _ h7 h2, h3, nofun, stmtStart_ne h8⟩

/-- Lines inside braces are lines, and white space before the closing brace. -/
theorem lay_block {ls : List (List Piece)} (h : Lay min (writeBlock ls) X) : ∃ A g, X = A ++ g ∧ Blank g ∧ Lay min (writeLines ls) A := by
  cases ls with
  | nil => cases h; exact ⟨[], [], rfl, .nil, rfl⟩
  | cons x ls =>
    have h' : Lay min (.indent :: (writeLines (x :: ls) ++ .dedent :: [.newLine])) X := by simpa [writeBlock, writeLines] using h
    obtain ⟨A, B, rfl, hA, hB⟩ := Lay.append (a := writeLines (x :: ls)) h'
    obtain ⟨g, _, hg, rfl, h1⟩ := Lay.line (ps := []) hB
    cases h1
    exact ⟨A, g, by simp, hg, hA⟩

theorem reads_braces {ss : List Stmt} (ih : ∀ s ∈ ss, ReadsBack min (.stmt s)) (hX : Lay min (writeBraces (codeStmts ss)) X) (hg : Blank g)
    (hs : Spells r j) :
    ∃ i, Spells (g ++ (X ++ r)) i ∧ G i (.block (.mk z (rereadStmts ss))) j ∧ look i = .BraceOpen ∧ next X = #b'{' ∧ X ≠ [] := by
  have hX' : Lay min (.text bs!"{" :: (writeBlock (ss.map codeStmt) ++ [.text bs!"}"])) X := by
    simpa [writeBraces, codeStmts_eq] using hX
  obtain ⟨_, rfl, h1⟩ := hX'
  obtain ⟨B, _, rfl, hB, h2⟩ := h1.append
  cases h2.one
  obtain ⟨A, g1, rfl, hg1, hA⟩ := lay_block hB
  obtain ⟨m, j', s1, h3, rfl, h4, -⟩ := reads_stmts (r := g1 ++ (bs!"}" ++ r)) (ph := .stmtsTail) (Q := (· = j)) (E := (· ≠ [])) ih hA .nil
    (fun g' hg' => ⟨_, j, (emit_punct (g := g' ++ g1) bs!"}" .BraceClose (by decide +kernel) (hg'.append hg1) hs).cast (by simp),
      .stmtsClose ⟨_, _, rfl⟩, rfl, nofun, nofun, nofun⟩) (fun _ _ _ _ _ => .stmtsMore)
  have s2 := emit_punct (g := g) bs!"{" .BraceOpen (by decide +kernel) hg s1
  exact ⟨_, s2.cast (by simp), .block ⟨_, _, rfl⟩ h3 h4, rfl, rfl, by simp⟩

theorem reads_block {ss : List Stmt} (ih : ∀ s ∈ ss, ReadsBack min (.stmt s)) : ReadsBlock min (.mk l ss) := by
  intro X g r j hX hg hs
  rw [codeBlock] at hX
  rw [rereadBlock]
  exact reads_braces ih hX hg hs

/-! ### Functions -/

/-- The parameters and the body. -/
theorem reads_rest {ps : List Pattern} {b : Block} (ih : ∀ p ∈ ps, ReadsBack min (.pat p)) (hwp : ∀ p ∈ ps, WellFormed (.pat p))
    (hv : ∀ p ∈ ps, isHole p = false) (hr : ∀ p ∈ ps.dropLast, isRest p = false) (ihb : ReadsBlock min b)
    (hX : Lay min (.text bs!"(" :: (writeList (ps.map codePattern) ++ .text bs!")" :: pSp :: codeBlock b)) X) (hg : Blank g) (hs : Spells r j) :
    ∃ m q a, Spells (g ++ (X ++ r)) (.tok .ParenOpen bs!"(" a :: m) ∧ G m (.params (ps.map rereadPat)) q ∧ G q (.block (rereadBlock b)) j ∧
      next X = #b'(' ∧ X ≠ [] := by
  obtain ⟨_, rfl, h1⟩ := hX
  obtain ⟨A, _, rfl, hA, h2⟩ := h1.append
  obtain ⟨_, rfl, h3⟩ := h2
  obtain ⟨g1, B, hg1, rfl, hB⟩ := h3.sp
  obtain ⟨q, s1, h4, -⟩ := ihb hB hg1 hs
  obtain ⟨m, s2, h5⟩ := reads_params ih hwp hv hr hA .nil s1
  have s3 := emit_punct (g := g) bs!"(" .ParenOpen (by decide +kernel) hg s2
  exact ⟨m, q, _, s3.cast (by simp), h5, h4, rfl, by simp⟩

theorem reads_func {n : Name} {gen : Bool} {ps : List Pattern} {b : Block} (ih : ∀ p ∈ ps, ReadsBack min (.pat p))
    (hwp : ∀ p ∈ ps, WellFormed (.pat p)) (ihb : ReadsBlock min b) (hw : WellFormed (.func (.mk n gen ps b))) :
    ReadsFunc min (.mk n gen ps b) := by
  intro X g r j hX hg hs
  obtain ⟨hn, hv, hr⟩ := hw
  have hX' : Lay min (codeKeyword bs!"function" n ++ (codeName n ++ .text bs!"(" :: (writeList (ps.map codePattern) ++ .text bs!")" :: pSp :: codeBlock b))) X := by
    simpa [codeFunc, codePatterns_eq] using hX
  rw [rereadFunc, rereadPats_eq]
  simp only [funcName]
  match n, hn, hX' with
  | .empty, hn, hX' =>
    obtain ⟨m, q, a, s1, h1, h2, h3, h4⟩ := reads_rest ih hwp hv hr ihb hX' hg hs
    exact ⟨_, s1, h4, .func (.no nofun) .never ⟨_, _, rfl⟩ h1 h2, rfl, h3⟩
  | .optional none, hn, hX' =>
    obtain ⟨_, rfl, h1⟩ := hX'
    obtain ⟨g1, A, hg1, rfl, hA⟩ := Lay.sp (ps := .text bs!"(" :: _) h1
    obtain ⟨m, q, a, s1, h2, h3, h4, h5⟩ := reads_rest ih hwp hv hr ihb hA hg1 hs
    have b1 := blank_next (r := A ++ r) hg1 (by rw [next_append h5, h4]; rfl) (by rw [next_append h5, h4]; decide)
    have s2 := emit_keyword (g := g) bs!"function" .Function (by decide) hg b1.1 s1
    exact ⟨_, s2.cast (by simp), by simp, _, ⟨_, rfl⟩, .func (.no nofun) (.missing nofun) ⟨_, _, rfl⟩ h2 h3, rfl, rfl, rfl, by simp, rfl⟩
  | .optional (some n), hn, hX' =>
    obtain ⟨_, rfl, h1⟩ := hX'
    obtain ⟨_, rfl, h1⟩ := h1
    obtain ⟨A, rfl, hA⟩ := h1
    obtain ⟨m, q, a, s1, h2, h3, h4, h5⟩ := reads_rest ih hwp hv hr ihb hA .nil hs
    have s2 := emit_word (g := bs!" ") (v := n.name) hn .sp (by simp [next_append h5, h4]; rfl) s1
    have s3 := emit_keyword (g := g) bs!"function" .Function (by decide) hg rfl s2
    exact ⟨_, s3.cast (by simp), by simp, _, ⟨_, rfl⟩, .func (.no nofun) (.given ⟨_, rfl⟩) ⟨_, _, rfl⟩ h2 h3, rfl, rfl, rfl, by simp, rfl⟩
  | .mandatory n, hn, hX' =>
    obtain ⟨_, rfl, h1⟩ := hX'
    obtain ⟨_, rfl, h1⟩ := h1
    obtain ⟨A, rfl, hA⟩ := h1
    obtain ⟨m, q, a, s1, h2, h3, h4, h5⟩ := reads_rest ih hwp hv hr ihb hA .nil hs
    have s2 := emit_word (g := bs!" ") (v := n.name) hn .sp (by simp [next_append h5, h4]; rfl) s1
    have s3 := emit_keyword (g := g) bs!"function" .Function (by decide) hg rfl s2
    exact ⟨_, s3.cast (by simp), by simp, _, ⟨_, rfl⟩, .func (.no nofun) (.always ⟨_, rfl⟩) ⟨_, _, rfl⟩ h2 h3, rfl, rfl, rfl, by simp, rfl⟩

theorem reads_function {f : Func} (ih : ReadsFunc min f) (hw : WellFormed (.expr (.function l f))) : ReadsExpr min (.function l f) := by
  intro X g r j hX hg hs ha
  obtain ⟨i, s1, -, h1⟩ := ih (by rwa [codeExpr] at hX) hg hs
  have hw : Name.isOptional (funcName f) = true := hw
  cases hn : funcName f with
  | optional n =>
    rw [hn] at h1
    obtain ⟨m, ⟨a, h2⟩, h3, h4⟩ := h1
    refine ⟨i, s1, ?_, h4⟩
    rw [rereadExpr]
    exact .function (Nat.le_refl _) ⟨_, _, h2⟩ h3
  | _ => rw [hn] at hw; cases hw

theorem reads_class {c : Class} (ih : ReadsClass min c) (hw : WellFormed (.expr (.class l c))) : ReadsExpr min (.class l c) := by
  intro X g r j hX hg hs ha
  obtain ⟨i, s1, h1⟩ := ih (by rwa [codeExpr] at hX) hg hs
  have hw : Name.isOptional (className c) = true := hw
  cases hn : className c with
  | optional n =>
    rw [hn] at h1
    obtain ⟨m, ⟨a, h2⟩, h3, h4⟩ := h1
    refine ⟨i, s1, ?_, h4⟩
    rw [rereadExpr]
    exact .class (Nat.le_refl _) ⟨_, _, h2⟩ h3
  | _ => rw [hn] at hw; cases hw

/-! ### Classes -/

/-- The kind of a member with the given key. -/
def memberKind (s : Bool) : PropKey → MethodKind
  | .literal _ w => if s = false ∧ w = bs!"constructor" then .Constructor else .Method
  | _ => .Method

theorem word_static {t : Token} {v : Bytes} (h : Word t v) (ht : t = .Static) : v = bs!"static" := by
  subst ht
  rcases h with ⟨c, w, rfl, -, -, h⟩ | ⟨h, -⟩
  · have h1 : ∀ x ∈ keywords, x.2 = .Static → x.1 = bs!"static" := by decide +kernel
    unfold wordToken at h
    cases hl : keywords.lookup (c :: w) with
    | none => rw [hl] at h; cases h
    | some t =>
      rw [hl] at h
      exact h1 (c :: w, t) (Lex.mem_of_lookup hl) h
  · cases h

theorem number_constructor {v r : Bytes} (h : Number v r) : v ≠ bs!"constructor" := by
  rintro rfl
  have : ∀ {v r : Bytes}, Number v r → isDigit (next v) = true ∨ next v = #b'.' := by
    intro v r h
    cases h with
    | @decimal ds f e _ h0 h1 =>
      obtain ⟨d, ds, rfl⟩ := List.exists_cons_of_ne_nil h0
      exact .inl (h1 d (by simp))
    | point h0 => exact .inr rfl
    | octal => exact .inl rfl
    | hex => exact .inl rfl
  rcases this h with h | h <;> cases h

/-- What follows the key of a member. -/
def memberNext (t : Token) : Bool := t == .ParenOpen || t == .OperatorAssign

theorem reads_memberKey {k : PropKey} {s : Bool} (ih : ReadsBack min (.key k)) (hk : MemberKey k) (hst : s = false → ∀ l, k ≠ .literal l bs!"static") (hX : Lay min (codeKey k) X) (hg : Blank g) (hs : Spells r j)
    (hr : AfterKey r) (hj : memberNext (look j) = true) : ∃ i, Spells (g ++ (X ++ r)) i ∧
      (∀ i' x o, StaticAt i' s i → G j (.memberValue s (memberKind s k) (rereadKey k) x) o → G i' (.member x) o) ∧
      (s = false → look i ≠ .Static) ∧ look i ≠ .Semicolon := by
  cases k with
  | computed l e =>
    obtain ⟨i, m, n, s, ⟨a, w, rfl⟩, h2, h3⟩ := reads_computed (ih hk) hX hg hs
    exact ⟨_, s, fun i' x o hi h => .memberComputed hi ⟨_, _, rfl⟩ h2 h3 h, fun _ => nofun, nofun⟩
  | binary l v =>
    cases hX.one
    exact ⟨_, emit_binary hk hg hr.word hs, fun i' x o hi h => .memberBinary hi ⟨_, rfl⟩ h, fun _ => nofun, nofun⟩
  | literal l v =>
    cases hX.one
    rcases hk with ⟨t, h1, h2⟩ | ⟨r', h1⟩
    · refine ⟨_, emit_word h1 hg hr.word hs, fun i' x o hi h => .memberWord hi ⟨_, rfl⟩ h2 ?_ h, fun hs ht => hst hs l (by rw [word_static h1 ht]), ?_⟩
      · revert hj
        have : ∀ t ∈ Token.all, memberNext t = true → t.isWord = false := by decide +kernel
        exact this _ (Token.mem_all _)
      · intro ht
        change t = _ at ht
        subst ht
        cases h2
    · refine ⟨_, emit_numberKey h1 hg hs hr, fun i' x o hi h => .memberNumber hi ⟨_, rfl⟩ ?_, fun _ => nofun, nofun⟩
      rw [memberKind, if_neg (fun h => number_constructor h1 h.2)] at h
      exact h

theorem reads_static {s : Bool} {ps : List Piece} (hX : Lay min ((if s then [.text bs!"static "] else []) ++ ps) X) (hg : Blank g) :
    ∃ g' Y, Blank g' ∧ Lay min ps Y ∧ ∀ i, Spells (g' ++ (Y ++ r)) i → (s = false → look i ≠ .Static) → look i ≠ .Semicolon →
      ∃ i', Spells (g ++ (X ++ r)) i' ∧ StaticAt i' s i ∧ look i' ≠ .Semicolon := by
  cases s with
  | false => exact ⟨g, X, hg, hX, fun i hs h1 h2 => ⟨i, hs, .no (h1 rfl), h2⟩⟩
  | true =>
    obtain ⟨Y, rfl, hY⟩ := hX
    exact ⟨bs!" ", Y, .sp, hY, fun i hs h1 h2 => ⟨_, (emit_keyword (g := g) bs!"static" .Static (by decide) hg rfl hs).cast (by simp), .yes ⟨_, _, rfl⟩, nofun⟩⟩

theorem reads_member_literal {s : Bool} {k : PropKey} {e : Expr} (ihk : ReadsBack min (.key k)) (ih : ReadsBack min (.expr e))
    (hw : WellFormed (.member (.literal l s k e))) (hsf : Legible min (.member (.literal l s k e))) : ReadsMember min (.literal l s k e) := by
  intro X g r j hX hg hs hj
  obtain ⟨hk, he⟩ := hw
  have hX' : Lay min ((if s then [.text bs!"static "] else []) ++ (codeKey k ++ ((pSp :: .text bs!"=" :: pSp :: codeExpr e) ++ [.text bs!";"]))) X := by
    simpa [codeMember] using hX
  obtain ⟨g', Y, hg', hY, next⟩ := reads_static (r := r) hX' hg
  obtain ⟨A, _, rfl, hA, h1⟩ := hY.append
  obtain ⟨B, _, rfl, hB, h2⟩ := h1.append
  cases h2.one
  have s1 := emit_punct (g := []) bs!";" .Semicolon (by decide +kernel) .nil hs
  obtain ⟨n, w, a, s2, h3, -⟩ := reads_default (ih.expr he) hsf.1 hB s1 (.close rfl (by simp [Spec.next]) (by simp [look, Item.token]))
  have hk' : AfterKey (B ++ ([] ++ (bs!";" ++ r))) := by
    obtain ⟨g1, _, hg1, rfl, t1⟩ := hB.sp
    obtain ⟨_, rfl, t2⟩ := t1
    rw [List.append_assoc]
    exact AfterKey.gap hg1 ⟨rfl, by simp [Spec.next], by simp [Spec.next], by simp [Spec.next]⟩
  obtain ⟨i, s3, h4, h5, h6⟩ := reads_memberKey ihk hk hsf.2 hA hg' s2 hk' rfl
  obtain ⟨i', s4, h7, h8⟩ := next i (s3.cast (by simp)) h5 h6
  refine ⟨i', s4, h4 _ _ _ h7 ?_, h8⟩
  rw [rereadMember]
  exact .memberField ⟨_, _, rfl⟩ h3 (.written ⟨_, _, rfl⟩)

theorem reads_member_method {s : Bool} {k : PropKey} {kd : MethodKind} {l' : Loc} {f : Func} (ihk : ReadsBack min (.key k)) (ih : ReadsFunc min f)
    (hw : WellFormed (.member (.method l s k kd l' f))) : ReadsMember min (.method l s k kd l' f) := by
  intro X g r j hX hg hs hj
  obtain ⟨hk, hkd, he⟩ := hw
  have hX' : Lay min ((if s then [.text bs!"static "] else []) ++ ((match kd with
      | .Get => [.text bs!"get "]
      | .Set => [.text bs!"set "]
      | _ => []) ++ (codeKey k ++ codeFunc f))) X := by
    have : codeMember (.method l s k kd l' f) = codeMethodPrefix s kd ++ codeKey k ++ codeFunc f := by rw [codeMember]
    rw [this] at hX
    cases kd <;> simpa [codeMethodPrefix] using hX
  obtain ⟨g', Y, hg', hY, next⟩ := reads_static (r := r) hX' hg
  obtain ⟨P, _, rfl, hP, h1⟩ := hY.append
  obtain ⟨A, B, rfl, hA, hB⟩ := h1.append
  obtain ⟨n, s1, hne, t1⟩ := ih hB .nil hs
  rw [he] at t1
  obtain ⟨t1, t2, t3⟩ := t1
  have hn : Spec.next (B ++ r) = #b'(' := by rw [next_append hne, t3]
  have hak : AfterKey (B ++ r) := by refine ⟨?_, ?_, ?_, ?_⟩ <;> rw [hn] <;> decide
  have hval : ∀ kd, G n (.memberValue s kd (rereadKey k) (.method z s (rereadKey k) kd z (rereadFunc f))) j :=
    fun kd => .memberMethod t2 t1 (.absent hj)
  rw [rereadMember]
  have plain : P = [] → memberKind s k = kd → (s = false → ∀ l, k ≠ .literal l bs!"static") → ∃ i, Spells (g ++ (X ++ r)) i ∧ G i (.member (.method z s (rereadKey k) kd z (rereadFunc f))) j ∧ look i ≠ .Semicolon := by
    intro hP hmk hst
    subst hP
    obtain ⟨i, s3, h4, h5, h6⟩ := reads_memberKey ihk hk hst hA hg' s1 hak (by rw [t2]; rfl)
    obtain ⟨i', s4, h7, h8⟩ := next i (s3.cast (by simp)) h5 h6
    exact ⟨i', s4, h4 _ _ _ h7 (by rw [hmk]; exact hval kd), h8⟩
  cases kd with
  | Constructor =>
    obtain ⟨rfl, l, rfl⟩ := hkd
    exact plain hP rfl (fun _ => by nofun)
  | Method =>
    refine plain hP ?_ (fun hs l he => (hkd l _ he hs).2 rfl)
    unfold memberKind
    split
    · rename_i w
      split
      · rename_i hc
        obtain ⟨rfl, rfl⟩ := hc
        exact absurd rfl (hkd _ _ rfl rfl).1
      · rfl
    · rfl
  | Get =>
    obtain ⟨l, v, rfl, t, hv, ht⟩ := hkd
    cases hA.one
    cases hP.one
    have s2 := emit_word (g := bs!" ") hv .sp hak.word s1
    have s3 := emit_keyword (g := g') bs!"get" .Identifier (by decide) hg' rfl s2
    obtain ⟨i', s4, h7, h8⟩ := next _ (s3.cast (by simp)) (fun _ => nofun) nofun
    exact ⟨i', s4, .memberGet h7 ⟨_, rfl⟩ rfl ⟨_, rfl⟩ ht (hval _), h8⟩
  | Set =>
    obtain ⟨l, v, rfl, t, hv, ht⟩ := hkd
    cases hA.one
    cases hP.one
    have s2 := emit_word (g := bs!" ") hv .sp hak.word s1
    have s3 := emit_keyword (g := g') bs!"set" .Identifier (by decide) hg' rfl s2
    obtain ⟨i', s4, h7, h8⟩ := next _ (s3.cast (by simp)) (fun _ => nofun) nofun
    exact ⟨i', s4, .memberSet h7 ⟨_, rfl⟩ rfl ⟨_, rfl⟩ ht (hval _), h8⟩

theorem reads_members {ms : List ClassMember} (ih : ∀ m ∈ ms, ReadsMember min m) {g1 : Bytes}
    (hX : Lay min (writeLines (ms.map codeMember)) X) (hg : Blank g) (hg1 : Blank g1) (hs : Spells r j) :
    ∃ i, Spells (g ++ (X ++ (g1 ++ (bs!"}" ++ r)))) i ∧ G i (.membersTail (ms.map rereadMember)) j ∧ look i ≠ .Semicolon ∧ (ms = [] → i ≠ []) := by
  induction ms generalizing X g with
  | nil =>
    cases hX
    exact ⟨_, (emit_punct (g := g ++ g1) bs!"}" .BraceClose (by decide +kernel) (hg.append hg1) hs).cast (by simp), .membersClose ⟨_, _, rfl⟩, nofun, fun _ => nofun⟩
  | cons m ms ihl =>
    have hX' : Lay min (.newLine :: (codeMember m ++ writeLines (ms.map codeMember))) X := hX
    obtain ⟨g2, _, hg2, rfl, h1⟩ := hX'.line
    obtain ⟨A, B, rfl, hA, hB⟩ := h1.append
    obtain ⟨n, s1, h2, h3, -⟩ := ihl (fun s h => ih s (by simp [h])) hB .nil
    obtain ⟨i, s2, h4, h5⟩ := ih m (by simp) hA (hg.append hg2) s1 h3
    exact ⟨i, s2.cast (by simp), .membersMore h4 h2, h5, nofun⟩

theorem reads_classBody {ms : List ClassMember} (ih : ∀ m ∈ ms, ReadsMember min m) (hX : Lay min (writeBraces (codeMembers ms)) X) (hg : Blank g)
    (hs : Spells r j) :
    ∃ m a, Spells (g ++ (X ++ r)) (.tok .BraceOpen bs!"{" a :: m) ∧ G m (.membersTail (ms.map rereadMember)) j ∧ (ms.map rereadMember = [] → m ≠ []) ∧
      next X = #b'{' ∧ X ≠ [] := by
  have hX' : Lay min (.text bs!"{" :: (writeBlock (ms.map codeMember) ++ [.text bs!"}"])) X := by
    simpa [writeBraces, codeMembers_eq] using hX
  obtain ⟨_, rfl, h1⟩ := hX'
  obtain ⟨B, _, rfl, hB, h2⟩ := h1.append
  cases h2.one
  obtain ⟨A, g1, rfl, hg1, hA⟩ := lay_block hB
  obtain ⟨m, s1, h3, -, h4⟩ := reads_members ih hA .nil hg1 hs
  have s2 := emit_punct (g := g) bs!"{" .BraceOpen (by decide +kernel) hg s1
  exact ⟨m, _, s2.cast (by simp), h3, fun h => h4 (by simpa using h), rfl, by simp⟩

/-- `extends e`. -/
def extendsCode : Option Expr → List Piece
  | some e => .text bs!" extends " :: codeExpr e
  | none => []

/-- `extends e` and the body. -/
theorem reads_heritage {n : Name} {sup : Option Expr} {l' : Loc} {ms : List ClassMember} (ihe : ∀ e ∈ sup, ReadsExpr min e) (hf : ∀ e ∈ sup, fits 1 e = true)
    (ih : ∀ m ∈ ms, ReadsMember min m)
    (hX : Lay min (extendsCode sup ++ pSp :: writeBraces (codeMembers ms)) X) (hg : Blank g) (hs : Spells r j) :
    ∃ i, Spells (g ++ (X ++ r)) i ∧ (∀ i' nk, NameAt nk i' (bareName n) i → G i' (.cls nk (rereadClass (.mk n sup l' ms))) j) ∧
      wordByte (next (X ++ r)) = false ∧ look i ≠ .Identifier := by
  cases sup with
  | none =>
    obtain ⟨g1, A, hg1, rfl, hA⟩ := Lay.sp hX
    obtain ⟨m, a, s1, h1, h2, h3, h4⟩ := reads_classBody ih hA (hg.append hg1) hs
    refine ⟨_, s1.cast (by simp), fun i' nk hn => ?_, ?_, nofun⟩
    · rw [rereadClass, rereadMembers_eq]
      exact .cls hn ⟨_, _, rfl⟩ h1 h2
    · rw [List.append_assoc]
      exact (blank_next (r := A ++ r) hg1 (by rw [next_append h4, h3]; rfl) (by rw [next_append h4, h3]; decide)).1
  | some e =>
    obtain ⟨Y, rfl, hY⟩ := hX
    obtain ⟨A, _, rfl, hA, h1⟩ := Lay.append (a := codeExpr e) hY
    obtain ⟨g1, B, hg1, rfl, hB⟩ := Lay.sp h1
    obtain ⟨m, a, s1, h1, h2, h3, h4⟩ := reads_classBody ih hB hg1 hs
    have b1 := blank_next (r := B ++ r) hg1 (by rw [next_append h4, h3]; rfl) (by rw [next_append h4, h3]; decide)
    obtain ⟨n1, s2, h5, -⟩ := (ihe e rfl).whole (hf e rfl) hA .sp s1 (.close b1.1 b1.2 (by simp [look, Item.token]))
    have s3 := emit_keyword (g := g ++ bs!" ") bs!"extends" .Extends (by decide) (hg.append .sp) rfl s2
    refine ⟨_, s3.cast (by simp), fun i' nk hn => ?_, rfl, nofun⟩
    rw [rereadClass, rereadMembers_eq]
    exact .clsExtends hn ⟨_, _, rfl⟩ h5 ⟨_, _, rfl⟩ h1 h2

theorem reads_cls {n : Name} {sup : Option Expr} {l' : Loc} {ms : List ClassMember} (ihe : ∀ e ∈ sup, ReadsBack min (.expr e))
    (ih : ∀ m ∈ ms, ReadsMember min m) (hw : WellFormed (.cls (.mk n sup l' ms)))
    (hsf : Legible min (.cls (.mk n sup l' ms))) : ReadsClass min (.mk n sup l' ms) := by
  intro X g r j hX hg hs
  obtain ⟨hn, he⟩ := hw
  have ihe : ∀ e ∈ sup, ReadsExpr min e := fun e h => (ihe e h).expr (he e h)
  have hX' : Lay min (codeKeyword bs!"class" n ++ (codeName n ++ (extendsCode sup ++ pSp :: writeBraces (codeMembers ms)))) X := by
    cases sup <;> simpa [codeClass, extendsCode] using hX
  simp only [className]
  match n, hn, hX' with
  | .empty, hn, hX' =>
    obtain ⟨i, s1, -⟩ := reads_heritage (n := .empty) (l' := l') ihe hsf ih hX' hg hs
    exact ⟨i, s1, trivial⟩
  | .optional none, hn, hX' =>
    obtain ⟨_, rfl, h1⟩ := hX'
    obtain ⟨g1, A, hg1, rfl, hA⟩ := Lay.sp (ps := _ ++ _) h1
    obtain ⟨i, s1, h2, h3, h4⟩ := reads_heritage (n := .optional none) (l' := l') ihe hsf ih hA hg1 hs
    have b1 : wordByte (next (g1 ++ (A ++ r))) = false := by
      cases g1 with
      | nil => exact h3
      | cons c g1 => exact (space_word (.inr (hg1 c (by simp)))).1
    have s2 := emit_keyword (g := g) bs!"class" .Class (by decide) hg b1 s1
    exact ⟨_, s2.cast (by simp), _, ⟨_, rfl⟩, h2 _ _ (.missing h4), rfl, rfl, rfl, by simp, rfl⟩
  | .optional (some n), hn, hX' =>
    obtain ⟨_, rfl, h1⟩ := hX'
    obtain ⟨_, rfl, h1⟩ := h1
    obtain ⟨A, rfl, hA⟩ := h1
    obtain ⟨i, s1, h2, h3, h4⟩ := reads_heritage (n := .optional (some n)) (l' := l') ihe hsf ih hA .nil hs
    have s2 := emit_word (g := bs!" ") (v := n.name) hn .sp h3 s1
    have s3 := emit_keyword (g := g) bs!"class" .Class (by decide) hg rfl s2
    exact ⟨_, s3.cast (by simp), _, ⟨_, rfl⟩, h2 _ _ (.given ⟨_, rfl⟩), rfl, rfl, rfl, by simp, rfl⟩
  | .mandatory n, hn, hX' =>
    obtain ⟨_, rfl, h1⟩ := hX'
    obtain ⟨_, rfl, h1⟩ := h1
    obtain ⟨A, rfl, hA⟩ := h1
    obtain ⟨i, s1, h2, h3, h4⟩ := reads_heritage (n := .mandatory n) (l' := l') ihe hsf ih hA .nil hs
    have s2 := emit_word (g := bs!" ") (v := n.name) hn .sp h3 s1
    have s3 := emit_keyword (g := g) bs!"class" .Class (by decide) hg rfl s2
    exact ⟨_, s3.cast (by simp), _, ⟨_, rfl⟩, h2 _ _ (.always ⟨_, rfl⟩), rfl, rfl, rfl, by simp, rfl⟩

end Ratel
