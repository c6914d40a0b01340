import Verif.Lemmas.PrintOps
/-! Reading back generated code: templates, arrow functions, objects and patterns. -/
namespace Ratel
open Spec

set_option linter.unusedSectionVars false
variable [Unicode] {min : Bool} {X g r : Bytes} {j : List Item} {l : Loc}

/-! ### Templates -/

theorem reads_templateRest {es : List Expr} {qs : List Ident} (ih : ∀ e ∈ es, ReadsBack min (.expr e))
    (hp : ∀ e ∈ es, proper e = true) (hq : ∀ q ∈ qs, TplBody q.name) (hl : qs.length = es.length)
    (hX : Lay min (writeTemplateRest qs (es.map codeExpr)) X) (hs : Spells r j) :
    ∃ Y i, X ++ (bs!"`" ++ r) = tplEnd es.isEmpty ++ Y ∧ Spells Y i ∧
      (∀ w, G (.resume es.isEmpty w :: i) (.templateTail (es.map rereadExpr) (⟨z, w⟩ :: qs.map bareIdent)) j) ∧
      (∀ w a, G (.tok (tplToken es.isEmpty) w a :: i) (.template (es.map rereadExpr) (⟨z, w⟩ :: qs.map bareIdent)) j) := by
  induction es generalizing X qs with
  | nil =>
    cases qs with
    | nil =>
      cases hX
      exact ⟨r, j, rfl, hs, fun w => .templateEnd, fun w a => .templateClosed ⟨_, rfl⟩⟩
    | cons => simp at hl
  | cons e es ihl =>
    cases qs with
    | nil => simp at hl
    | cons q qs =>
      have hX' : Lay min (.text bs!"${" :: pSp :: (codeExpr e ++ pSp :: .text bs!"}" :: .text q.name :: writeTemplateRest qs (es.map codeExpr))) X := by
        simpa [writeTemplateRest] using hX
      obtain ⟨_, rfl, h1⟩ := hX'
      obtain ⟨g1, _, hg1, rfl, h2⟩ := h1.sp
      obtain ⟨A, _, rfl, hA, h3⟩ := h2.append
      obtain ⟨g2, _, hg2, rfl, h4⟩ := h3.sp
      obtain ⟨_, rfl, h5⟩ := h4
      obtain ⟨B, rfl, hB⟩ := h5
      obtain ⟨Y, m, e1, s1, t1, t2⟩ := ihl (qs := qs) (fun e h => ih e (by simp [h])) (fun e h => hp e (by simp [h]))
        (fun q h => hq q (by simp [h])) (by simpa using hl) hB
      have s2 := emit_resume (g := g2) es.isEmpty (hq q (by simp)) hg2 s1
      have b2 := blank_next (r := bs!"}" ++ (q.name ++ (tplEnd es.isEmpty ++ Y))) hg2 rfl (by simp [next])
      obtain ⟨i, s3, h6, -⟩ := ((ih e (by simp)).expr (hp e (by simp))).any hA hg1 s2 (.close b2.1 b2.2 (by simp [look, Item.token]))
      refine ⟨_, i, ?_, s3, fun w => .templateMore h6 (t1 _), fun w a => .templateOpen ⟨_, rfl⟩ h6 (t1 _)⟩
      rw [← e1]
      simp [tplEnd]

theorem reads_templateBody {es : List Expr} {qs : List Ident} (ih : ∀ e ∈ es, ReadsBack min (.expr e))
    (hp : ∀ e ∈ es, proper e = true) (hq : ∀ q ∈ qs, TplBody q.name) (hl : qs.length = es.length + 1)
    (hX : Lay min (.text bs!"`" :: (writeTemplate qs (es.map codeExpr) ++ [.text bs!"`"])) X) (hg : Blank g) (hs : Spells r j) :
    ∃ i, Spells (g ++ (X ++ r)) i ∧ G i (.template (es.map rereadExpr) (qs.map bareIdent)) j ∧
      Starts g X (if es.isEmpty then .TemplateClosed else .TemplateOpen) i ∧ next X = #b'`' := by
  obtain ⟨q, qs, rfl⟩ := List.exists_cons_of_ne_nil (l := qs) (by rintro rfl; simp at hl)
  have hX' : Lay min (.text bs!"`" :: .text q.name :: (writeTemplateRest qs (es.map codeExpr) ++ [.text bs!"`"])) X := by
    cases qs with
    | nil =>
      cases es with
      | nil => exact hX
      | cons => simp at hl
    | cons q' qs => exact hX
  obtain ⟨_, rfl, h1⟩ := hX'
  obtain ⟨_, rfl, h2⟩ := h1
  obtain ⟨A, B, rfl, hA, hB⟩ := h2.append
  cases hB.one
  obtain ⟨Y, m, e1, s1, -, t2⟩ := reads_templateRest (qs := qs) ih hp (fun q h => hq q (by simp [h])) (by simpa using hl) hA hs
  have s2 := emit_template es.isEmpty (hq q (by simp)) hg s1
  refine ⟨_, s2.cast ?_, t2 _ _, ⟨?_, ?_, ?_, by simp, ?_⟩, rfl⟩
  · rw [← e1]; simp
  · rfl
  · rfl
  · cases es.isEmpty <;> rfl
  · cases es.isEmpty <;> rfl

theorem reads_template {es : List Expr} {qs : List Ident} (ih : ∀ e ∈ es, ReadsBack min (.expr e))
    (hw : WellFormed (.expr (.template l es qs))) : ReadsExpr min (.template l es qs) := by
  intro X g r j hX hg hs ha
  obtain ⟨h1, h2, h3⟩ := hw
  obtain ⟨i, s1, t1, t2, -⟩ := reads_templateBody ih h1 h3 h2 (X := X) (by simpa [codeExpr, codeExprs_eq] using hX) hg hs
  refine ⟨i, s1, ?_, ?_⟩
  · rw [rereadExpr, rereadExprs_eq]
    exact .template (Nat.le_refl _) t1
  · rw [firstToken]; exact t2

theorem reads_tagged {t : Expr} {l' : Loc} {es : List Expr} {qs : List Ident} (iht : ReadsBack min (.expr t)) (ih : ∀ e ∈ es, ReadsBack min (.expr e))
    (hw : WellFormed (.expr (.tagged l t l' es qs))) (hsf : Legible min (.expr (.tagged l t l' es qs))) : ReadsExpr min (.tagged l t l' es qs) := by
  intro X g r j hX hg hs ha
  obtain ⟨h0, h1, h2, h3⟩ := hw
  have hsf : fitsHead t = true := hsf
  simp [fitsHead] at hsf
  have hX' : Lay min (codeExpr t ++ .text bs!"`" :: (writeTemplate qs (es.map codeExpr) ++ [.text bs!"`"])) X := by
    simpa [codeExpr, codeExprs_eq] using hX
  obtain ⟨A, B, rfl, hA, hB⟩ := hX'.append
  obtain ⟨m, s1, t1, t2, t3⟩ := reads_templateBody ih h1 h3 h2 hB .nil hs
  obtain ⟨i, s2, h4, h5⟩ := iht.expr h0 hA hg s1 (.head hsf.2 (by simp [next_append t2.ne, t3]; decide) (by simp [next_append t2.ne, t3]))
  refine ⟨i, s2.cast (by simp), ?_, h5.append⟩
  rw [rereadExpr, rereadExprs_eq]
  rw [hsf.1] at h4
  exact .tagged (Nat.le_refl _) h4 t1

theorem reads_spread {e : Expr} (ih : ReadsBack min (.expr e)) (hw : WellFormed (.expr (.spread l e))) (hsf : Legible min (.expr (.spread l e))) :
    ReadsSpread min l e := by
  intro X g r j hX hg hs ha
  obtain ⟨Y, rfl, hY⟩ := hX
  obtain ⟨i, s1, h1, -⟩ := (ih.expr hw).whole hsf hY .nil hs ha
  have s2 := emit_punct (g := g) bs!"..." .OperatorSpread (by decide +kernel) hg s1
  refine ⟨_, s2.cast (by simp), ?_, ?_, rfl⟩ <;> rw [rereadExpr]
  · exact .argSpread ⟨_, _, rfl⟩ h1
  · exact .elemSpread ⟨_, _, rfl⟩ h1

/-! ### Lists -/

/-- Texts separated by commas and blanks. -/
inductive Listed (min : Bool) : List (List Piece) → Bytes → Prop where
  | one {x : List Piece} {X : Bytes} (h : Lay min x X) : Listed min [x] X
  | more {x y : List Piece} {l : List (List Piece)} {A s B : Bytes} (h : Lay min x A) (hs : Blank s) (hB : Listed min (y :: l) B) :
      Listed min (x :: y :: l) (A ++ (bs!"," ++ (s ++ B)))

theorem listed_list {x : List Piece} {ls : List (List Piece)} (h : Lay min (writeList (x :: ls)) X) : Listed min (x :: ls) X := by
  induction ls generalizing x X with
  | nil => exact .one h
  | cons y ls ih =>
    obtain ⟨A, s, B, hsp, rfl, hA, hB⟩ := Lay.cons_list h
    exact .more hA hsp (ih hB)

theorem listed_props {x : List Piece} {ls : List (List Piece)} (h : Lay min (x ++ writeProps ls) X) : Listed min (x :: ls) X := by
  induction ls generalizing x X with
  | nil => exact .one (by simpa [writeProps] using h)
  | cons y ls ih =>
    have h' : Lay min (x ++ .text bs!"," :: .newLine :: (y ++ writeProps ls)) X := by simpa [writeProps] using h
    obtain ⟨A, _, rfl, hA, h1⟩ := h'.append
    obtain ⟨_, rfl, h2⟩ := h1
    obtain ⟨s, B, hsp, rfl, hB⟩ := h2.line
    exact .more hA hsp (ih hB)

/-! ### Objects -/

theorem reads_props {ps : List Property} {g' : Bytes} (ih : ∀ p ∈ ps, ReadsProp min p) (hX : Listed min (ps.map codeProperty) X) (hg : Blank g)
    (hg' : Blank g') (hs : Spells r j) :
    ∃ i m, Spells (g ++ (X ++ (g' ++ (bs!"}" ++ r)))) i ∧ G i (.props (ps.map rereadProp)) m ∧ Tk .BraceClose m j := by
  induction ps generalizing X g with
  | nil => cases hX
  | cons p ps ihl =>
    cases ps with
    | nil =>
      cases hX with
      | one hX =>
      have s1 := emit_punct (g := g') bs!"}" .BraceClose (by decide +kernel) hg' hs
      have b1 := blank_next (r := bs!"}" ++ r) hg' rfl (by simp [next])
      obtain ⟨i, s2, h1⟩ := ih p (by simp) hX hg s1 b1.1 b1.2 (.inr rfl)
      exact ⟨i, _, s2, .propsLast h1 rfl, _, _, rfl⟩
    | cons p' ps =>
      cases hX with
      | more hA hsp hB =>
      obtain ⟨i, m, h1, h2, h0⟩ := ihl (fun e h => ih e (by simp [h])) hB hsp
      have s1 := emit_punct (g := []) bs!"," .Comma (by decide +kernel) .nil h1
      obtain ⟨i', s2, h3⟩ := ih p (by simp) hA hg s1 rfl (by simp [next]) (.inl rfl)
      exact ⟨i', m, s2.cast (by simp), .propsMore h3 ⟨_, _, rfl⟩ h2, h0⟩

theorem reads_object {ps : List Property} (ih : ∀ p ∈ ps, ReadsProp min p) : ReadsExpr min (.object l ps) := by
  intro X g r j hX hg hs ha
  rw [codeExpr, codeProperties_eq] at hX
  rw [rereadExpr, rereadProps_eq]
  cases ps with
  | nil =>
    cases hX.one
    have s1 := emit_punct (g := []) bs!"}" .BraceClose (by decide +kernel) .nil hs
    have s2 := emit_punct (g := g) bs!"{" .BraceOpen (by decide +kernel) hg s1
    exact ⟨_, s2.cast (by simp), .object (Nat.le_refl _) ⟨_, _, rfl⟩ (.propsNone rfl) ⟨_, _, rfl⟩, rfl, rfl, rfl, by simp, rfl⟩
  | cons p ps =>
    have hX' : Lay min (.text bs!"{" :: .indent :: .newLine :: ((codeProperty p ++ writeProps (ps.map codeProperty)) ++
      .dedent :: .newLine :: [.text bs!"}"])) X := by simpa [writeObject] using hX
    obtain ⟨_, rfl, h1⟩ := hX'
    obtain ⟨g1, _, hg1, rfl, h2⟩ := Lay.line (ps := _ ++ _) h1
    obtain ⟨A, _, rfl, hA, h3⟩ := h2.append
    obtain ⟨g2, _, hg2, rfl, h4⟩ := Lay.line (ps := [_]) h3
    cases h4.one
    obtain ⟨i, m, s1, h5, h6⟩ := reads_props ih (listed_props hA) hg1 hg2 hs
    have s2 := emit_punct (g := g) bs!"{" .BraceOpen (by decide +kernel) hg s1
    exact ⟨_, s2.cast (by simp), .object (Nat.le_refl _) ⟨_, _, rfl⟩ h5 h6, rfl, rfl, rfl, by simp, rfl⟩

/-! ### Patterns -/

theorem reads_plain_ident {n : Bytes} (hw : WellFormed (.pat (.ident l n))) : ReadsPlain min (.ident l n) := by
  intro X g r j hX hg hs ha
  cases hX.one
  exact ⟨_, emit_word hw hg ha hs, .patIdent ⟨_, rfl⟩, rfl⟩

theorem reads_plain_object {ps : List Property} (ih : ∀ p ∈ ps, ReadsProp min p) : ReadsPlain min (.object l ps) := by
  intro X g r j hX hg hs ha
  have hX' : Lay min (.text bs!"{" :: (writeList (ps.map codeProperty) ++ [.text bs!"}"])) X := by
    simpa [codePattern, codeProperties_eq] using hX
  obtain ⟨_, rfl, h1⟩ := hX'
  obtain ⟨A, _, rfl, hA, h3⟩ := h1.append
  cases h3.one
  rw [rereadPat, rereadProps_eq]
  cases ps with
  | nil =>
    cases hA
    have s1 := emit_punct (g := []) bs!"}" .BraceClose (by decide +kernel) .nil hs
    have s2 := emit_punct (g := g) bs!"{" .BraceOpen (by decide +kernel) hg s1
    exact ⟨_, s2.cast (by simp), .patObject ⟨_, _, rfl⟩ (.propsNone rfl) ⟨_, _, rfl⟩, rfl⟩
  | cons p ps =>
    obtain ⟨i, m, s1, h5, h6⟩ := reads_props (g := []) (g' := []) ih (listed_list hA) .nil .nil hs
    have s2 := emit_punct (g := g) bs!"{" .BraceOpen (by decide +kernel) hg s1
    exact ⟨_, s2.cast (by simp), .patObject ⟨_, _, rfl⟩ h5 h6, rfl⟩

theorem patStart_ne {t : Token} (h : patStart t = true) : t ≠ .BracketClose ∧ t ≠ .ParenClose ∧ t ≠ .OperatorSpread := by
  refine ⟨?_, ?_, ?_⟩ <;> rintro rfl <;> cases h

theorem reads_patElems {ps : List Pattern} (ih : ∀ p ∈ ps, isHole p = false → ReadsParam min p) 
    (hX : Listed min (ps.map codePattern) X) (hg : Blank g) (hs : Spells r j) :
    ∃ i m, Spells (g ++ (X ++ (bs!"]" ++ r))) i ∧ G i (.patElems (ps.map rereadPat)) m ∧ Tk .BracketClose m j ∧
      ((∀ l, ps ≠ [.void l]) → look i ≠ .BracketClose) := by
  induction ps generalizing X g with
  | nil => cases hX
  | cons p ps ihl =>
    cases ps with
    | nil =>
      cases hX with
      | one hX =>
      cases hv : isHole p with
      | true =>
        cases p <;> cases hv
        cases hX
        exact ⟨_, _, emit_punct bs!"]" .BracketClose (by decide +kernel) hg hs, .patElemsLast (.patHole (.inr rfl)) rfl,
          ⟨_, _, rfl⟩, fun h => absurd rfl (h _)⟩
      | false =>
        have s1 := emit_punct (g := []) bs!"]" .BracketClose (by decide +kernel) .nil hs
        obtain ⟨i, h1, h2, h3, -⟩ := ih p (by simp) hv hX hg s1 (.close rfl (by simp [next]) (.inr (.inl rfl)))
        exact ⟨i, _, h1, .patElemsLast (.patElem h2) rfl, ⟨_, _, rfl⟩, fun _ => (patStart_ne h3).1⟩
    | cons p' ps =>
      cases hX with
      | more hA hsp hB =>
      obtain ⟨i, m, h1, h2, h0, -⟩ := ihl (fun e h => ih e (by simp [h])) hB hsp
      cases hv : isHole p with
      | true =>
        cases p <;> cases hv
        cases hA
        have s1 := emit_punct (g := g) bs!"," .Comma (by decide +kernel) hg h1
        exact ⟨_, m, s1.cast (by simp), .patElemsMore (.patHole (.inl rfl)) ⟨_, _, rfl⟩ h2, h0, fun _ => nofun⟩
      | false =>
        have s1 := emit_punct (g := []) bs!"," .Comma (by decide +kernel) .nil h1
        obtain ⟨i', s2, h3, h4, -⟩ := ih p (by simp) hv hA hg s1 ⟨rfl, by simp [next], rfl⟩
        exact ⟨i', m, s2.cast (by simp), .patElemsMore (.patElem h3) ⟨_, _, rfl⟩ h2, h0, fun _ => (patStart_ne h4).1⟩

theorem reads_plain_array {ps : List Pattern} (ih : ∀ p ∈ ps, ReadsBack min (.pat p)) (hw : WellFormed (.pat (.array l ps))) :
    ReadsPlain min (.array l ps) := by
  intro X g r j hX hg hs ha
  obtain ⟨hw1, hw2⟩ := hw
  have hX' : Lay min (.text bs!"[" :: (writeList (ps.map codePattern) ++ [.text bs!"]"])) X := by
    simpa [codePattern, codePatterns_eq] using hX
  obtain ⟨_, rfl, h1⟩ := hX'
  obtain ⟨A, _, rfl, hA, h3⟩ := h1.append
  cases h3.one
  rw [rereadPat, rereadPats_eq]
  cases ps with
  | nil =>
    cases hA
    have s1 := emit_punct (g := []) bs!"]" .BracketClose (by decide +kernel) .nil hs
    have s2 := emit_punct (g := g) bs!"[" .BracketOpen (by decide +kernel) hg s1
    exact ⟨_, s2.cast (by simp), .patEmptyArray ⟨_, _, rfl⟩ ⟨_, _, rfl⟩, rfl⟩
  | cons p ps =>
    obtain ⟨i, m, s1, h5, h6, h7⟩ := reads_patElems (g := []) (fun p hp hv => (ih p hp).2 hv (hw1 p hp)) (listed_list hA) .nil hs
    have s2 := emit_punct (g := g) bs!"[" .BracketOpen (by decide +kernel) hg s1
    exact ⟨_, s2.cast (by simp), .patArray ⟨_, _, rfl⟩ (h7 hw2) h5 h6, rfl⟩

theorem Apart.assign (h : Apart 1 r j) : look j ≠ .OperatorAssign := by
  intro hc
  have := h.ends
  rw [continues, hc] at this
  cases this

theorem reads_param_plain {p : Pattern} (hp : plain p = true) (hw : WellFormed (.pat p)) (ih : ReadsPlain min p) : ReadsParam min p := by
  intro X g r j hX hg hs ha
  obtain ⟨i, s1, h1, h2⟩ := ih hX hg hs ha.word
  cases p with
  | ident l n =>
    cases hX.one
    exact ⟨_, emit_word hw hg ha.word hs, .param (.patIdent ⟨_, rfl⟩) ha.assign, rfl, fun _ => ⟨_, rfl, .ident (by omega) ⟨_, rfl⟩⟩⟩
  | assign => cases hp
  | _ => exact ⟨i, s1, .param h1 ha.assign, h2, nofun⟩

/-- ` = e` -/
theorem reads_default {e : Expr} (ih : ReadsExpr min e) (hf : fits 1 e = true) 
    (hX : Lay min (pSp :: .text bs!"=" :: pSp :: codeExpr e) X) (hs : Spells r j) (ha : Apart 1 r j) :
    ∃ n w a, Spells (X ++ r) (.tok .OperatorAssign w a :: n) ∧ G n (.whole 1 (rereadExpr e)) j ∧
      wordByte (next (X ++ r)) = false ∧ next (X ++ r) ≠ #b'.' := by
  obtain ⟨g1, _, hg1, rfl, h1⟩ := hX.sp
  obtain ⟨_, rfl, h2⟩ := h1
  obtain ⟨g2, A, hg2, rfl, hA⟩ := h2.sp
  obtain ⟨n, s1, h3, h4⟩ := ih.whole hf hA hg2 hs ha
  have hl : Lexeme .OperatorAssign bs!"=" (g2 ++ (A ++ r)) := by
    cases g2 with
    | nil => exact op_lexeme (op := .Assign) (.inr (.inr rfl)) (by decide) h4.append.lead rfl
    | cons c g2 => exact (op_spaced (op := .Assign) (.inr (.inr rfl))).2 _ (.inr (hg2 c (by simp)))
  have s2 := emit hl rfl hg1 s1
  have b := blank_next (r := bs!"=" ++ (g2 ++ (A ++ r))) hg1 rfl (by simp [next])
  exact ⟨n, _, _, s2.cast (by simp), h3, by simpa using b.1, by simpa using b.2⟩

theorem reads_param_assign {p : Pattern} {e : Expr} (ihp : ReadsPlain min p) (ih : ReadsBack min (.expr e))
    (hw : WellFormed (.pat (.assign l p e))) (hwp : WellFormed (.pat p)) (hsf : Legible min (.pat (.assign l p e))) : ReadsParam min (.assign l p e) := by
  intro X g r j hX hg hs ha
  obtain ⟨hp, he⟩ := hw
  have hX' : Lay min (codePattern p ++ pSp :: .text bs!"=" :: pSp :: codeExpr e) X := by simpa [codePattern] using hX
  obtain ⟨A, B, rfl, hA, hB⟩ := hX'.append
  obtain ⟨n, w, a, s1, h1, h2, h3⟩ := reads_default (ih.expr he) hsf hB hs ha
  rw [rereadPat]
  cases p with
  | ident l n =>
    cases hA.one
    exact ⟨_, (emit_word hwp hg h2 s1).cast (by simp), .paramDefault (.patIdent ⟨_, rfl⟩) ⟨_, _, rfl⟩ h1, rfl,
      fun _ => ⟨.binary z .Assign (.ident z A) (rereadExpr e), rfl, .assign (Nat.le_refl _) (.ident (by omega) ⟨_, rfl⟩) rfl ⟨_, _, rfl⟩ rfl h1⟩⟩
  | _ =>
    obtain ⟨i, s2, h4, h5⟩ := ihp hA hg s1 h2
    exact ⟨i, s2.cast (by simp), .paramDefault h4 ⟨_, _, rfl⟩ h1, h5, nofun⟩

theorem reads_params {ps : List Pattern} (ih : ∀ p ∈ ps, ReadsBack min (.pat p)) (hw : ∀ p ∈ ps, WellFormed (.pat p))
    (hv : ∀ p ∈ ps, isHole p = false) (hr : ∀ p ∈ ps.dropLast, isRest p = false)
    (hX : Lay min (writeList (ps.map codePattern)) X) (hg : Blank g) (hs : Spells r j) :
    ∃ i, Spells (g ++ (X ++ (bs!")" ++ r))) i ∧ G i (.params (ps.map rereadPat)) j := by
  induction ps generalizing X g with
  | nil =>
    cases hX
    exact ⟨_, emit_punct bs!")" .ParenClose (by decide +kernel) hg hs, .paramsNone ⟨_, _, rfl⟩⟩
  | cons p ps ihl =>
    cases ps with
    | nil =>
      have s1 := emit_punct (g := []) bs!")" .ParenClose (by decide +kernel) .nil hs
      cases hrp : isRest p with
      | false =>
        obtain ⟨i, h1, h2, -⟩ := (ih p (by simp)).2 (hv p (by simp)) hrp hX hg s1 (.close rfl (by simp [next]) (.inl rfl))
        exact ⟨i, h1, .paramsLast h2 ⟨_, _, rfl⟩⟩
      | true =>
        cases p <;> cases hrp
        rename_i l a
        obtain ⟨_, rfl, h1⟩ := hX
        cases h1.one
        have hwa : WellFormed (.pat (.rest l a)) := hw _ (by simp)
        have s2 := emit_word (g := []) (v := a.name) hwa .nil rfl s1
        have s3 := emit_punct (g := g) bs!"..." .OperatorSpread (by decide +kernel) hg s2
        exact ⟨_, s3.cast (by simp), .paramsRest ⟨_, _, rfl⟩ ⟨_, rfl⟩ ⟨_, _, rfl⟩⟩
    | cons p' ps =>
      obtain ⟨A, s, B, hsp, rfl, hA, hB⟩ := Lay.cons_list hX
      obtain ⟨i, h1, h2⟩ := ihl (fun e h => ih e (by simp [h])) (fun e h => hw e (by simp [h])) (fun e h => hv e (by simp [h]))
        (fun e h => hr e (by rw [List.dropLast_cons_of_ne_nil (by simp)]; simp [h])) hB hsp
      have s1 := emit_punct (g := []) bs!"," .Comma (by decide +kernel) .nil h1
      obtain ⟨i', s2, h3, -⟩ := (ih p (by simp)).2 (hv p (by simp)) (hr p (by rw [List.dropLast_cons_of_ne_nil (by simp)]; simp)) hA hg s1 ⟨rfl, by simp [next], rfl⟩
      exact ⟨i', s2.cast (by simp), .paramsMore h3 ⟨_, _, rfl⟩ h2⟩

/-! ### Arrow functions -/

theorem arrowParam_back {p : Pattern} (ih : ReadsBack min (.pat p)) (hp : arrowParam p = true) : ReadsParam min p := by
  refine ih.2 ?_ ?_ <;> cases p <;> first | rfl | cases hp

theorem paramOf_single {e : Expr} {p : Pattern} (h : paramOf e = some p) : paramsOf e = some [p] := by
  cases e <;> first | (simp [paramOf] at h; done) | (simp [paramsOf, h])

theorem reads_arrowTail {ps : List Pattern} (ih : ∀ p ∈ ps, ReadsParam min p) (hp : ∀ p ∈ ps, arrowParam p = true) (hne : ps ≠ [])
    (hX : Lay min (writeList (ps.map codePattern)) X) (hg : Blank g) (hs : Spells r j) :
    ∃ i es, Spells (g ++ (X ++ (bs!")" ++ r))) i ∧ es.mapM paramOf = some (ps.map rereadPat) ∧
      G i (.commaTail es) (.tok .ParenClose bs!")" (asiBefore .ParenClose false) :: j) := by
  induction ps generalizing X g with
  | nil => exact absurd rfl hne
  | cons p ps ihl =>
    cases ps with
    | nil =>
      have s1 := emit_punct (g := []) bs!")" .ParenClose (by decide +kernel) .nil hs
      obtain ⟨i, s2, -, -, h2⟩ := ih p (by simp) hX hg s1 (.close rfl (by simp [next]) (.inl rfl))
      obtain ⟨e, h3, h4⟩ := h2 (hp p (by simp))
      exact ⟨i, [e], s2, by simp [h3], .commaLast (.whole h4 (continues_close (.inl rfl))) nofun⟩
    | cons p' ps =>
      obtain ⟨A, s, B, hsp, rfl, hA, hB⟩ := Lay.cons_list hX
      obtain ⟨i, es, h1, h0, h2⟩ := ihl (fun e h => ih e (by simp [h])) (fun e h => hp e (by simp [h])) (by simp) hB hsp
      have s1 := emit_punct (g := []) bs!"," .Comma (by decide +kernel) .nil h1
      obtain ⟨i', s2, -, -, h3⟩ := ih p (by simp) hA hg s1 ⟨rfl, by simp [next], rfl⟩
      obtain ⟨e, h4, h5⟩ := h3 (hp p (by simp))
      exact ⟨i', e :: es, s2.cast (by simp), by simp [h4, h0], .commaMore (.whole h5 rfl) ⟨_, _, rfl⟩ h2⟩

/-- The parameters of an arrow function as they are written. -/
def arrowCode (ps : List Pattern) : List Piece :=
  match onlyIdent ps with
  | some n => [.text n]
  | none => [.text bs!"("] ++ writeList (codePatterns ps) ++ [.text bs!")"]

theorem reads_arrowParams {ps : List Pattern} (ih : ∀ p ∈ ps, ReadsBack min (.pat p)) (hp : ∀ p ∈ ps, arrowParam p = true)
    (hw : ∀ p ∈ ps, WellFormed (.pat p))
    (hX : Lay min (arrowCode ps) X) (hg : Blank g) (hs : Spells r j) (hr : wordByte (next r) = false) :
    ∃ i, Spells (g ++ (X ++ r)) i ∧ Starts g X (if (onlyIdent ps).isSome then .Identifier else .ParenOpen) i ∧
      ((∃ e, paramsOf e = some (ps.map rereadPat) ∧ G i (.expr 17 e) j) ∨
        (ps = [] ∧ ∃ m, Tk .ParenOpen i m ∧ Tk .ParenClose m j)) := by
  unfold arrowCode at hX
  match ps, ih, hp, hw, hX with
  | [.ident l n], ih, hp, hw, hX =>
    cases hX.one
    have hw := hw (.ident l X) (by simp)
    refine ⟨_, emit_word hw hg hr hs, ⟨rfl, rfl, ?_, (Word.ne hw).1, rfl⟩, .inl ⟨.ident z X, rfl, .ident (Nat.le_refl _) ⟨_, rfl⟩⟩⟩
    simp [lead, onlyIdent, (Word.ne hw).2]
  | [], ih, hp, hw, hX =>
    have hX' : Lay min (.text bs!"(" :: [.text bs!")"]) X := hX
    obtain ⟨_, rfl, h1⟩ := hX'
    cases h1.one
    have s1 := emit_punct (g := []) bs!")" .ParenClose (by decide +kernel) .nil hs
    have s2 := emit_punct (g := g) bs!"(" .ParenOpen (by decide +kernel) hg s1
    exact ⟨_, s2.cast (by simp), ⟨rfl, rfl, rfl, by simp, rfl⟩, .inr ⟨rfl, _, ⟨_, _, rfl⟩, ⟨_, _, rfl⟩⟩⟩
  | [.assign l p e], ih, hp, hw, hX =>
    have hX' : Lay min (.text bs!"(" :: (codePattern (.assign l p e) ++ [.text bs!")"])) X := hX
    obtain ⟨_, rfl, h1⟩ := hX'
    obtain ⟨A, _, rfl, hA, h2⟩ := h1.append
    cases h2.one
    have s1 := emit_punct (g := []) bs!")" .ParenClose (by decide +kernel) .nil hs
    have ha := hp (.assign l p e) (by simp)
    obtain ⟨i, s2, -, -, h3⟩ := arrowParam_back (ih _ (by simp)) ha hA .nil s1 (.close rfl (by simp [next]) (.inl rfl))
    obtain ⟨e', h4, h5⟩ := h3 ha
    have s3 := emit_punct (g := g) bs!"(" .ParenOpen (by decide +kernel) hg s2
    exact ⟨_, s3.cast (by simp), ⟨rfl, rfl, rfl, by simp, rfl⟩,
      .inl ⟨e', paramOf_single h4, .paren (Nat.le_refl _) ⟨_, _, rfl⟩ (.whole (h5.mono (by omega)) (continues_close (.inl rfl))) ⟨_, _, rfl⟩⟩⟩
  | p :: p' :: ps, ih, hp, hw, hX =>
    have hX' : Lay min (.text bs!"(" :: (writeList ((p :: p' :: ps).map codePattern) ++ [.text bs!")"])) X := by
      rw [← codePatterns_eq]; simpa [onlyIdent] using hX
    obtain ⟨_, rfl, h1⟩ := hX'
    obtain ⟨A, _, rfl, hA, h2⟩ := h1.append
    cases h2.one
    obtain ⟨A, s, B, hsp, rfl, hA, hB⟩ := Lay.cons_list hA
    obtain ⟨i, es, s1, h3, h4⟩ := reads_arrowTail (ps := p' :: ps) (fun q hq => arrowParam_back (ih q (by simp_all)) (hp q (by simp_all)))
      (fun q hq => hp q (by simp_all)) (by simp) hB hsp hs
    have s2 := emit_punct (g := []) bs!"," .Comma (by decide +kernel) .nil s1
    obtain ⟨i', s3, -, -, h5⟩ := arrowParam_back (ih p (by simp)) (hp p (by simp)) hA .nil s2 ⟨rfl, by simp [next], rfl⟩
    obtain ⟨e, h6, h7⟩ := h5 (hp p (by simp))
    have s4 := emit_punct (g := g) bs!"(" .ParenOpen (by decide +kernel) hg s3
    have ho : onlyIdent (p :: p' :: ps) = none := by cases p <;> rfl
    rw [ho]
    refine ⟨_, s4.cast (by simp), ⟨rfl, rfl, rfl, by simp, rfl⟩,
      .inl ⟨.seq z (e :: es), ?_, .paren (Nat.le_refl _) ⟨_, _, rfl⟩ (.whole (.comma h7 ⟨_, _, rfl⟩ h4) (continues_close (.inl rfl))) ⟨_, _, rfl⟩⟩⟩
    simp only [paramsOf, List.mapM_cons, h6, h3]
    rfl
  | [.void l], ih, hp, hw, hX => cases hp (.void l) (by simp)
  | [.object l p], ih, hp, hw, hX => cases hp (.object l p) (by simp)
  | [.array l p], ih, hp, hw, hX => cases hp (.array l p) (by simp)
  | [.rest l p], ih, hp, hw, hX => cases hp (.rest l p) (by simp)

theorem reads_arrowE {ps : List Pattern} {b : Expr} (ih : ∀ p ∈ ps, ReadsBack min (.pat p)) (hwp : ∀ p ∈ ps, WellFormed (.pat p))
    (ihb : ReadsBack min (.expr b)) (hw : WellFormed (.expr (.arrowE l ps b))) (hsf : Legible min (.expr (.arrowE l ps b))) :
    ReadsExpr min (.arrowE l ps b) := by
  intro X g r j hX hg hs ha
  obtain ⟨hw1, hw2⟩ := hw
  obtain ⟨hs1, hs2⟩ := hsf
  have hX' : Lay min (arrowCode ps ++ pSp :: .text bs!"=>" :: pSp :: codeExpr b) X := by
    rw [codeExpr, List.append_assoc] at hX
    unfold arrowCode
    cases h : onlyIdent ps <;> rw [h] at hX <;> exact hX
  obtain ⟨A, _, rfl, hA, h1⟩ := hX'.append
  obtain ⟨g1, _, hg1, rfl, h2⟩ := h1.sp
  obtain ⟨_, rfl, h3⟩ := h2
  obtain ⟨g2, B, hg2, rfl, hB⟩ := h3.sp
  have hap := ha.apart (by simp [reach])
  obtain ⟨n, s1, h4, h5⟩ := (ihb.expr hw2).whole hs1 hB hg2 hs hap
  have s2 := emit_punct (g := g1) bs!"=>" .OperatorFatArrow (by decide +kernel) hg1 s1
  have b1 := blank_next (r := bs!"=>" ++ (g2 ++ (B ++ r))) hg1 rfl (by simp [next])
  obtain ⟨i, s3, h6, h7⟩ := reads_arrowParams ih hw1 hwp hA hg s2 b1.1
  refine ⟨i, s3.cast (by simp), ?_, by rw [firstToken, singleName_eq]; exact h6.append⟩
  rw [rereadExpr, rereadPats_eq]
  have hl : look n ≠ .BraceOpen := by rw [h5.look]; exact hs2
  rcases h7 with ⟨e, h7, h8⟩ | ⟨rfl, m, h7, h8⟩
  · exact .arrow (Nat.le_refl _) h8 h7 ⟨_, _, rfl⟩ hl h4
  · exact .arrow0 (Nat.le_refl _) h7 h8 ⟨_, _, rfl⟩ hl h4

theorem reads_arrowB {ps : List Pattern} {b : Block} (ih : ∀ p ∈ ps, ReadsBack min (.pat p)) (hwp : ∀ p ∈ ps, WellFormed (.pat p))
    (ihb : ReadsBlock min b) (hw : WellFormed (.expr (.arrowB l ps b))) :
    ReadsExpr min (.arrowB l ps b) := by
  intro X g r j hX hg hs ha
  have hX' : Lay min (arrowCode ps ++ pSp :: .text bs!"=>" :: pSp :: codeBlock b) X := by
    rw [codeExpr, List.append_assoc] at hX
    unfold arrowCode
    cases h : onlyIdent ps <;> rw [h] at hX <;> exact hX
  obtain ⟨A, _, rfl, hA, h1⟩ := hX'.append
  obtain ⟨g1, _, hg1, rfl, h2⟩ := h1.sp
  obtain ⟨_, rfl, h3⟩ := h2
  obtain ⟨g2, B, hg2, rfl, hB⟩ := h3.sp
  obtain ⟨n, s1, h4, h5⟩ := ihb hB hg2 hs
  have s2 := emit_punct (g := g1) bs!"=>" .OperatorFatArrow (by decide +kernel) hg1 s1
  have b1 := blank_next (r := bs!"=>" ++ (g2 ++ (B ++ r))) hg1 rfl (by simp [next])
  obtain ⟨i, s3, h6, h7⟩ := reads_arrowParams ih hw hwp hA hg s2 b1.1
  refine ⟨i, s3.cast (by simp), ?_, by rw [firstToken, singleName_eq]; exact h6.append⟩
  rw [rereadExpr, rereadPats_eq]
  rcases h7 with ⟨e, h7, h8⟩ | ⟨rfl, m, h7, h8⟩
  · exact .arrowBlock (Nat.le_refl _) h8 h7 ⟨_, _, rfl⟩ h4
  · exact .arrowBlock0 (Nat.le_refl _) h7 h8 ⟨_, _, rfl⟩ h4

end Ratel
