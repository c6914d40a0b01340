import Verif.Lemmas.PrintClaims
/-! Reading back generated code: expressions. -/
namespace Ratel
open Spec

set_option linter.unusedSectionVars false
variable [Unicode] {min : Bool} {X g r : Bytes} {j : List Item} {l : Loc}

theorem Starts.append {Y Z : Bytes} {t : Token} {i : List Item} (h : Starts g Y t i) : Starts g (Y ++ Z) t i :=
  ⟨h.look, h.asi, by rw [next_append h.ne]; exact h.lead, by simp [h.ne], h.starter⟩

theorem After.apart {e : Expr} (h : After e r j) (he : reach e < 18) : Apart (reach e) r j :=
  ⟨h.word, fun hd => by have := (h.dot hd).1; omega, h.ends he⟩

theorem Apart.mono {k k' : Nat} (h : Apart k r j) (hk : k ≤ k') : Apart k' r j := ⟨h.word, h.dot, continues_mono hk h.ends⟩

theorem Lay.cons_list {x y : List Piece} {l : List (List Piece)} (h : Lay min (writeList (x :: y :: l)) X) :
    ∃ A s B, Blank s ∧ X = A ++ (bs!"," ++ (s ++ B)) ∧ Lay min x A ∧ Lay min (writeList (y :: l)) B := by
  rw [writeList, List.append_assoc] at h
  obtain ⟨A, C, rfl, h1, h2⟩ := h.append
  obtain ⟨C, rfl, h3⟩ := h2
  obtain ⟨s, B, hs, rfl, h4⟩ := Lay.sp h3
  exact ⟨A, s, B, hs, rfl, h1, h4⟩

theorem blank_next (hg : Blank g) (h1 : wordByte (next r) = false) (h2 : next r ≠ #b'.') :
    wordByte (next (g ++ r)) = false ∧ next (g ++ r) ≠ #b'.' := by
  cases g with
  | nil => exact ⟨h1, h2⟩
  | cons c g =>
    have := hg c (by simp)
    simp only [List.cons_append, next]
    revert this
    exact byte_forall (P := fun c => isSpace c = true → wordByte c = false ∧ c ≠ #b'.') (by decide +kernel) c

/-! ### Leaves -/

theorem reads_ident {n : Bytes} (hw' : WellFormed (.expr (.ident l n))) (hi : Legible min (.expr (.ident l n))) : ReadsExpr min (.ident l n) := by
  intro X g r j hX hg hs ha
  have hw : Word .Identifier n := hw'.resolve_right hi
  cases hX.one
  refine ⟨_, emit_word hw hg ha.word hs, .ident (Nat.le_refl _) ⟨_, rfl⟩, rfl, rfl, ?_, hw.ne.1, rfl⟩
  simp [lead, firstToken, hw.ne.2]

theorem reads_this : ReadsExpr min (.this l) := by
  intro X g r j hX hg hs ha
  cases hX.one
  exact ⟨_, emit_keyword _ .This (by decide) hg ha.word hs, .this (Nat.le_refl _) ⟨_, _, rfl⟩, rfl, rfl, rfl, nofun, rfl⟩

theorem reads_lit {v : Literal} (hw : WellFormed (.expr (.lit l v))) (hs : Legible min (.expr (.lit l v))) :
    ReadsExpr min (.lit l v) := by
  intro X g r j hX hg hs' ha
  cases v with
  | Undefined =>
    cases hX.one
    exact ⟨_, emit_keyword _ .LiteralUndefined (by decide) hg ha.word hs', .lit (Nat.le_refl _) ⟨_, rfl⟩ rfl,
      rfl, rfl, rfl, nofun, rfl⟩
  | Null =>
    cases hX.one
    exact ⟨_, emit_keyword _ .LiteralNull (by decide) hg ha.word hs', .lit (Nat.le_refl _) ⟨_, rfl⟩ rfl,
      rfl, rfl, rfl, nofun, rfl⟩
  | True =>
    cases hX.one
    exact ⟨_, emit_keyword _ .LiteralTrue (by decide) hg ha.word hs', .lit (Nat.le_refl _) ⟨_, rfl⟩ rfl,
      rfl, rfl, rfl, nofun, rfl⟩
  | False =>
    cases hX.one
    exact ⟨_, emit_keyword _ .LiteralFalse (by decide) hg ha.word hs', .lit (Nat.le_refl _) ⟨_, rfl⟩ rfl,
      rfl, rfl, rfl, nofun, rfl⟩
  | Number v =>
    cases hX.one
    obtain ⟨r', hn⟩ := hw
    have hsf : bareExponent X = false := hs
    have hl : X ≠ [] ∧ (lead .LiteralNumber (next X) = true) := by
      cases hn with
      | @decimal ds f e _ h0 h1 =>
        obtain ⟨d, ds, rfl⟩ := List.exists_cons_of_ne_nil h0
        have := h1 d (by simp)
        simp [lead, next, wordByte, this]
      | point h0 => simp [lead, next]
      | octal => simp [lead, next]; decide
      | hex => simp [lead, next]; decide
    exact ⟨_, emit_number hn hg ha.word (fun hd => (ha.dot hd).2 _ _ rfl) (by simp [hsf]) hs', .lit (Nat.le_refl _) ⟨_, rfl⟩ rfl,
      rfl, rfl, hl.2, hl.1, rfl⟩
  | Binary v =>
    cases hX.one
    have hl : X ≠ [] ∧ (lead .LiteralBinary (next X) = true) := by
      obtain ⟨x, ds, rfl, -⟩ := hw
      exact ⟨nofun, by simp [lead, next]; decide⟩
    exact ⟨_, emit_binary hw hg ha.word hs', .lit (Nat.le_refl _) ⟨_, rfl⟩ rfl, rfl, rfl, hl.2, hl.1, rfl⟩
  | String v =>
    cases hX.one
    have hl : X ≠ [] ∧ (lead .LiteralString (next X) = true) := by
      obtain ⟨q, s, rfl, hq, -⟩ := hw
      exact ⟨nofun, by rcases hq with rfl | rfl <;> simp [lead, next]⟩
    exact ⟨_, emit_string hw hg hs', .lit (Nat.le_refl _) ⟨_, rfl⟩ rfl, rfl, rfl, hl.2, hl.1, rfl⟩
  | RegEx v =>
    cases hX.one
    have hl : X ≠ [] ∧ (lead .OperatorDivision (next X) = true) := by
      obtain ⟨q, s, f, rfl, -⟩ := hw
      exact ⟨nofun, by simp [lead, next]⟩
    exact ⟨_, emit_regex hw hg ha.word hs', .regex (Nat.le_refl _), rfl, rfl, hl.2, hl.1, rfl⟩

theorem reads_metaProp {m p : Ident} (hw : WellFormed (.expr (.metaProp l m p))) : ReadsExpr min (.metaProp l m p) := by
  intro X g r j hX hg hs ha
  obtain ⟨h1, h2⟩ := hw
  rw [codeExpr, h1, h2] at hX
  obtain ⟨Y, rfl, hX⟩ := hX
  obtain ⟨Y, rfl, hX⟩ := hX
  cases hX.one
  have s1 := emit_dot (v := bs!"target") ⟨_, _, rfl, by decide, by decide⟩ ha.word hs
  have s2 := emit_keyword (g := g) bs!"new" .OperatorNew (by decide) hg rfl s1
  refine ⟨_, s2.cast (by simp), ?_, rfl, rfl, rfl, nofun, rfl⟩
  rw [rereadExpr, bareIdent, bareIdent, h1, h2]
  exact .newTarget (Nat.le_refl _) ⟨_, _, rfl⟩ ⟨_, rfl⟩

/-! ### Lists -/

section
variable {es : List Expr}

/-- Sequences after the first expression. -/
theorem reads_commaTail (ih : ∀ e ∈ es, ReadsExpr min e) (hf : ∀ e ∈ es, fits 1 e = true) (hne : es ≠ [])
    (hX : Lay min (writeList (es.map codeExpr)) X) (hg : Blank g) (hs : Spells r j) (ha : Apart 0 r j) :
    ∃ i, Spells (g ++ (X ++ r)) i ∧ G i (.commaTail (es.map rereadExpr)) j := by
  induction es generalizing X g with
  | nil => exact absurd rfl hne
  | cons e es ihl =>
    cases es with
    | nil =>
      obtain ⟨i, h1, h2, -⟩ := (ih e (by simp)).whole (hf e (by simp)) hX hg hs (ha.mono (by omega))
      refine ⟨i, h1, .commaLast h2 fun hc => ?_⟩
      have := ha.ends
      rw [continues, hc] at this
      cases this
    | cons e' es =>
      obtain ⟨A, s, B, hsp, rfl, hA, hB⟩ := Lay.cons_list hX
      obtain ⟨i, h1, h2⟩ := ihl (fun e h => ih e (by simp [h])) (fun e h => hf e (by simp [h])) (by simp) hB hsp
      have s1 := emit_punct (g := []) bs!"," .Comma (by decide +kernel) .nil h1
      obtain ⟨i', s2, h3, -⟩ := (ih e (by simp)).whole (hf e (by simp)) hA hg s1 ⟨rfl, by simp [next], rfl⟩
      exact ⟨i', s2.cast (by simp), .commaMore h3 ⟨_, _, rfl⟩ h2⟩

theorem reads_seq (ih : ∀ e ∈ es, ReadsBack min (.expr e)) (hw : WellFormed (.expr (.seq l es))) (hf : Legible min (.expr (.seq l es))) :
    ReadsExpr min (.seq l es) := by
  intro X g r j hX hg hs ha
  obtain ⟨hw, hp⟩ := hw
  have ih : ∀ e ∈ es, ReadsExpr min e := fun e he => (ih e he).expr (hp e he)
  have hf : ∀ e ∈ es, fits 1 e = true := hf
  have hap := ha.apart (by simp [reach])
  match es, hw, ih, hf, hX with
  | e :: e' :: es, hw, ih, hf, hX =>
    rw [codeExpr, codeExprs_eq] at hX
    obtain ⟨A, s, B, hsp, rfl, hA, hB⟩ := Lay.cons_list hX
    obtain ⟨i, h1, h2⟩ := reads_commaTail (es := e' :: es) (fun e h => ih e (by simp_all)) (fun e h => hf e (by simp_all)) (by simp) hB hsp hs hap
    have s1 := emit_punct (g := []) bs!"," .Comma (by decide +kernel) .nil h1
    have hfe := hf e (by simp)
    simp [fits] at hfe
    obtain ⟨i', s2, h3, h4⟩ := ih e (by simp) hA hg s1 ⟨rfl, by simp [next], fun _ => continues_comma rfl hfe.2⟩
    refine ⟨i', s2.cast (by simp), ?_, h4.append⟩
    rw [rereadExpr, rereadExprs_eq]
    exact .comma (h3.mono hfe.1) ⟨_, _, rfl⟩ h2

/-- An argument or an element of an array. -/
theorem reads_item {e : Expr} (ih : ReadsBack min (.expr e)) (hv : isVoid e = false) (hf : fits 1 e = true)
    (hX : Lay min (codeExpr e) X) (hg : Blank g) (hs : Spells r j) (ha : Apart 1 r j) :
    ∃ i, Spells (g ++ (X ++ r)) i ∧ G i (.arg (rereadExpr e)) j ∧ G i (.elem (rereadExpr e)) j ∧ look i ≠ .BracketClose := by
  cases hp : proper e with
  | true =>
    obtain ⟨i, h1, h2, h3⟩ := (ih.expr hp).whole hf hX hg hs ha
    refine ⟨i, h1, .arg h2, .elem h2, fun hc => ?_⟩
    have := h3.starter
    rw [← h3.look, hc] at this
    cases this
  | false =>
    cases e <;> try cases hp
    · cases hv
    · obtain ⟨i, h1, h2, h3, h4⟩ := ih hX hg hs ha
      exact ⟨i, h1, h2, h3, by rw [h4]; nofun⟩

theorem reads_args (ih : ∀ e ∈ es, ReadsBack min (.expr e)) (hv : ∀ e ∈ es, isVoid e = false) (hf : ∀ e ∈ es, fits 1 e = true)
    (hX : Lay min (writeList (es.map codeExpr)) X) (hg : Blank g) (hs : Spells r j) :
    ∃ i m, Spells (g ++ (X ++ (bs!")" ++ r))) i ∧ G i (.args (es.map rereadExpr)) m ∧ Tk .ParenClose m j := by
  induction es generalizing X g with
  | nil =>
    cases hX
    exact ⟨_, _, emit_punct bs!")" .ParenClose (by decide +kernel) hg hs, .argsNone rfl, _, _, rfl⟩
  | cons e es ihl =>
    cases es with
    | nil =>
      have s1 := emit_punct (g := []) bs!")" .ParenClose (by decide +kernel) .nil hs
      obtain ⟨i, h1, h2, -⟩ := reads_item (ih e (by simp)) (hv e (by simp)) (hf e (by simp)) hX hg s1 (.close rfl (by simp [next]) (.inl rfl))
      exact ⟨i, _, h1, .argsLast h2 rfl, _, _, rfl⟩
    | cons e' es =>
      obtain ⟨A, s, B, hsp, rfl, hA, hB⟩ := Lay.cons_list hX
      obtain ⟨i, m, h1, h2, h0⟩ := ihl (fun e h => ih e (by simp [h])) (fun e h => hv e (by simp [h])) (fun e h => hf e (by simp [h])) hB hsp
      have s1 := emit_punct (g := []) bs!"," .Comma (by decide +kernel) .nil h1
      obtain ⟨i', s2, h3, -⟩ := reads_item (ih e (by simp)) (hv e (by simp)) (hf e (by simp)) hA hg s1 ⟨rfl, by simp [next], rfl⟩
      exact ⟨i', m, s2.cast (by simp), .argsMore h3 ⟨_, _, rfl⟩ h2, h0⟩

theorem reads_elems (ih : ∀ e ∈ es, ReadsBack min (.expr e)) (hf : ∀ e ∈ es, fits 1 e = true) (hne : es ≠ [])
    (hX : Lay min (writeList (es.map codeExpr)) X) (hg : Blank g) (hs : Spells r j) :
    ∃ i m, Spells (g ++ (X ++ (bs!"]" ++ r))) i ∧ G i (.elems (es.map rereadExpr)) m ∧ Tk .BracketClose m j ∧
      ((∀ l, es ≠ [.void l]) → look i ≠ .BracketClose) := by
  induction es generalizing X g with
  | nil => exact absurd rfl hne
  | cons e es ihl =>
    cases es with
    | nil =>
      cases hv : isVoid e with
      | true =>
        cases e <;> cases hv
        cases hX
        exact ⟨_, _, emit_punct bs!"]" .BracketClose (by decide +kernel) hg hs, .elemsLast (.elemHole (.inr rfl)) rfl,
          ⟨_, _, rfl⟩, fun h => absurd rfl (h _)⟩
      | false =>
        have s1 := emit_punct (g := []) bs!"]" .BracketClose (by decide +kernel) .nil hs
        obtain ⟨i, h1, -, h2, h3⟩ := reads_item (ih e (by simp)) hv (hf e (by simp)) hX hg s1 (.close rfl (by simp [next]) (.inr (.inl rfl)))
        exact ⟨i, _, h1, .elemsLast h2 rfl, ⟨_, _, rfl⟩, fun _ => h3⟩
    | cons e' es =>
      obtain ⟨A, s, B, hsp, rfl, hA, hB⟩ := Lay.cons_list hX
      obtain ⟨i, m, h1, h2, h0, -⟩ := ihl (fun e h => ih e (by simp [h])) (fun e h => hf e (by simp [h])) (by simp) hB hsp
      cases hv : isVoid e with
      | true =>
        cases e <;> cases hv
        cases hA
        have s1 := emit_punct (g := g) bs!"," .Comma (by decide +kernel) hg h1
        exact ⟨_, m, s1.cast (by simp), .elemsMore (.elemHole (.inl rfl)) ⟨_, _, rfl⟩ h2, h0, fun _ => nofun⟩
      | false =>
        have s1 := emit_punct (g := []) bs!"," .Comma (by decide +kernel) .nil h1
        obtain ⟨i', s2, -, h3, h4⟩ := reads_item (ih e (by simp)) hv (hf e (by simp)) hA hg s1 ⟨rfl, by simp [next], rfl⟩
        exact ⟨i', m, s2.cast (by simp), .elemsMore h3 ⟨_, _, rfl⟩ h2, h0, fun _ => h4⟩

theorem reads_array (ih : ∀ e ∈ es, ReadsBack min (.expr e)) (hw : WellFormed (.expr (.array l es))) (hf : Legible min (.expr (.array l es))) :
    ReadsExpr min (.array l es) := by
  intro X g r j hX hg hs ha
  rw [codeExpr, codeExprs_eq] at hX
  obtain ⟨Y, rfl, hX⟩ := hX
  obtain ⟨Y, Z, rfl, hY, hZ⟩ := Lay.append (a := writeList (es.map codeExpr)) (b := [.text bs!"]"]) hX
  cases hZ.one
  have hf : ∀ e ∈ es, fits 1 e = true := hf
  rw [rereadExpr, rereadExprs_eq]
  cases es with
  | nil =>
    cases hY
    have s1 := emit_punct (g := []) bs!"]" .BracketClose (by decide +kernel) .nil hs
    have s2 := emit_punct (g := g) bs!"[" .BracketOpen (by decide +kernel) hg s1
    exact ⟨_, s2.cast (by simp), .emptyArray (Nat.le_refl _) ⟨_, _, rfl⟩ ⟨_, _, rfl⟩, rfl, rfl, rfl, nofun, rfl⟩
  | cons e es =>
    obtain ⟨i, m, s1, h1, h2, h3⟩ := reads_elems ih hf (by simp) hY .nil hs
    have s2 := emit_punct (g := g) bs!"[" .BracketOpen (by decide +kernel) hg s1
    exact ⟨_, s2.cast (by simp), .array (Nat.le_refl _) ⟨_, _, rfl⟩ (h3 hw) h1 h2, rfl, rfl, rfl, nofun, rfl⟩

end
end Ratel
