import Verif.Lemmas.PrintExpr
/-! Reading back generated code: members, calls and operators. -/
namespace Ratel
open Spec

set_option linter.unusedSectionVars false
variable [Unicode] {min : Bool} {X g r : Bytes} {j : List Item} {l : Loc}

theorem op_power (op : Op) : op.bindingPower < 19 := by
  have h1 : ∀ op ∈ Op.all, op.bindingPower < 19 := by decide +kernel
  exact h1 op op.mem_all

/-- What is written without parentheses in front of `.` and `[`. -/
theorem head_object {e : Expr} (hb : ¬ e.bindingPower < 19) : strength e = 17 ∧ reach e = 18 := by
  cases e with
  | binary l op a b => exact absurd (op_power op) hb
  | «postfix» l op a => exact absurd (op_power op) hb
  | _ => first | exact ⟨rfl, rfl⟩ | exact absurd (by simp [Expr.bindingPower]) hb

theorem head_target {e : Expr} (h : target e = true) : strength e = 17 ∧ reach e = 18 ∧ (∀ l v, e ≠ .lit l v) ∧ proper e = true := by
  cases e <;> first | cases h; done | exact ⟨rfl, rfl, nofun, rfl⟩

theorem After.head {e : Expr} (hr : reach e = 18) (hw : wordByte (next r) = false) (hd : next r ≠ #b'.') : After e r j :=
  ⟨hw, fun h => absurd h hd, fun h => by omega⟩

theorem reads_member {o : Expr} {p : Ident} (ih : ReadsBack min (.expr o)) (hw : WellFormed (.expr (.member l o p)))
    (hs : Legible min (.expr (.member l o p))) : ReadsExpr min (.member l o p) := by
  intro X g r j hX hg hs' ha
  obtain ⟨hp, hw⟩ := hw
  rw [codeExpr] at hX
  obtain ⟨A, B, rfl, hA, hB⟩ := hX.append
  obtain ⟨B, rfl, hB⟩ := hB
  cases hB.one
  have s1 := emit_dot hw ha.word hs'
  obtain ⟨i, s2, h2, h3⟩ := (ih.expr hp).operand hA hg s1 fun hb => by
    refine ⟨rfl, fun _ => ⟨(head_object hb).2, ?_⟩, fun h => by rw [(head_object hb).2] at h; omega⟩
    rintro l v rfl
    exact hs
  refine ⟨i, s2.cast (by simp), ?_, by rw [firstToken, codePower_eq]; exact h3.append⟩
  rw [rereadExpr]
  exact .member (Nat.le_refl _) (h2 17 (by omega) fun hb => Nat.le_of_eq (head_object hb).1.symm) ⟨_, rfl⟩

theorem reads_cmember {o p : Expr} (ih : ReadsBack min (.expr o)) (ihp : ReadsBack min (.expr p))
    (hw : WellFormed (.expr (.cmember l o p))) : ReadsExpr min (.cmember l o p) := by
  intro X g r j hX hg hs' ha
  obtain ⟨hp, hw⟩ := hw
  have hX' : Lay min (writeExpression o (codeExpr o) 19 ++ .text bs!"[" :: (codeExpr p ++ [.text bs!"]"])) X := by
    simpa [codeExpr] using hX
  obtain ⟨A, B, rfl, hA, hB'⟩ := hX'.append
  obtain ⟨B, rfl, hB'⟩ := hB'
  obtain ⟨B, C, rfl, hB, hC⟩ := hB'.append
  cases hC.one
  have s1 := emit_punct (g := []) bs!"]" .BracketClose (by decide +kernel) .nil hs'
  obtain ⟨m, s2, h2, -⟩ := (ihp.expr hw).any hB .nil s1 (.close rfl (by simp [next]) (.inr (.inl rfl)))
  have s3 := emit_punct (g := []) bs!"[" .BracketOpen (by decide +kernel) .nil s2
  obtain ⟨i, s4, h4, h5⟩ := (ih.expr hp).operand hA hg s3 fun hb => .head (head_object hb).2 rfl (by simp [next])
  refine ⟨i, s4.cast (by simp), ?_, by rw [firstToken, codePower_eq]; exact h5.append⟩
  rw [rereadExpr]
  exact .index (Nat.le_refl _) (h4 17 (by omega) fun hb => Nat.le_of_eq (head_object hb).1.symm) ⟨_, _, rfl⟩ h2 ⟨_, _, rfl⟩

theorem reads_call {c : Expr} {args : List Expr} (ih : ReadsBack min (.expr c)) (iha : ∀ e ∈ args, ReadsBack min (.expr e))
    (hw : WellFormed (.expr (.call l c args))) (hs : Legible min (.expr (.call l c args))) : ReadsExpr min (.call l c args) := by
  intro X g r j hX hg hs' ha
  obtain ⟨hp, hw⟩ := hw
  obtain ⟨hc, hf⟩ := hs
  simp [fitsHead] at hc
  have hX' : Lay min (codeExpr c ++ .text bs!"(" :: (writeList (args.map codeExpr) ++ [.text bs!")"])) X := by
    simpa [codeExpr, codeExprs_eq] using hX
  obtain ⟨A, B, rfl, hA, hB'⟩ := hX'.append
  obtain ⟨B, rfl, hB'⟩ := hB'
  obtain ⟨B, C, rfl, hB, hC⟩ := hB'.append
  cases hC.one
  obtain ⟨n, m, s1, h1, h2⟩ := reads_args iha hw hf hB .nil hs'
  have s3 := emit_punct (g := []) bs!"(" .ParenOpen (by decide +kernel) .nil s1
  obtain ⟨i, s4, h4, h5⟩ := ih.expr hp hA hg s3 (.head hc.2 rfl (by simp [next]))
  refine ⟨i, s4.cast (by simp), ?_, h5.append⟩
  rw [rereadExpr, rereadExprs_eq]
  rw [hc.1] at h4
  exact .call (Nat.le_refl _) h4 ⟨_, _, rfl⟩ h1 h2

/-! ### Operators -/

theorem continues_op {op : Op} {p k : Nat} (h : precedence op = some p) (hl : look j = opTok op) (hk : p < k) : continues k j = false := by
  have h1 := (op_binary h).1
  unfold continues
  rw [hl]
  generalize opTok op = t at h1
  unfold binaryOp at h1
  split at h1 <;> cases h1 <;> simp [assignOp, binaryOp] <;> omega

/-- The byte after an operand. -/
theorem op_next {op : Op} (h : (precedence op).isSome ∨ unaryOperator op = true ∨ assignOperator op = true) (hw : op.category ≠ .Word)
    {r : Bytes} : wordByte (next (op.asStr ++ r)) = false ∧ next (op.asStr ++ r) ≠ #b'.' := by
  have h1 : ∀ op ∈ Op.all, ((precedence op).isSome ∨ unaryOperator op = true ∨ assignOperator op = true) → op.category ≠ .Word →
      op.asStr ≠ [] ∧ wordByte (next op.asStr) = false ∧ next op.asStr ≠ #b'.' := by decide +kernel
  obtain ⟨h1, h2⟩ := h1 op op.mem_all h hw
  rw [next_append h1]
  exact h2

theorem binarySpacing_word {op : Op} {a b : Expr} (h : op.category = .Word) : binarySpacing op a b = (true, true) := by
  unfold binarySpacing
  rw [h]

theorem lay_space {m : Bool} {ps : List Piece} (h : Lay min (space m :: ps) X) :
    (∃ Y, X = bs!" " ++ Y ∧ Lay min ps Y) ∨ (m = false ∧ min = true ∧ Lay min ps X) := by
  cases m with
  | true => exact .inl h
  | false =>
    cases min with
    | true =>
      obtain ⟨Y, rfl, h⟩ := h
      exact .inr ⟨rfl, rfl, h⟩
    | false => exact .inl h

/-- An operator between its operands. -/
theorem reads_operator {op : Op} {a b : Expr} {t : Token} {B : Bytes} {Q : List Item → Prop}
    (h : (precedence op).isSome ∨ assignOperator op = true)
    (hX : Lay min ([space (binarySpacing op a b).1] ++ ([.text op.asStr] ++ ([space (binarySpacing op a b).2] ++ []))) X)
    (hg : ∀ g, Blank g → ∃ n, Spells (g ++ B) n ∧ Q n ∧ lead t (next B) = true)
    (hglue : min = true → glues op t = true → (binarySpacing op a b).2 = true) :
    ∃ n w s, Spells (X ++ B) (.tok (opTok op) w s :: n) ∧ Q n ∧ wordByte (next (X ++ B)) = false ∧ next (X ++ B) ≠ #b'.' := by
  have hop : (precedence op).isSome ∨ unaryOperator op = true ∨ assignOperator op = true := by
    rcases h with h | h <;> simp [h]
  obtain ⟨g1, Y, hg1, rfl, hY, hg1'⟩ : ∃ g1 Y, Blank g1 ∧ X = g1 ++ Y ∧ Lay min ([.text op.asStr] ++ ([space (binarySpacing op a b).2] ++ [])) Y ∧
      (g1 = bs!" " ∨ g1 = [] ∧ op.category ≠ .Word) := by
    rcases lay_space hX with ⟨Y, rfl, hY⟩ | ⟨h1, h2, hY⟩
    · exact ⟨_, Y, .sp, rfl, hY, .inl rfl⟩
    · refine ⟨[], X, .nil, rfl, hY, .inr ⟨rfl, fun hc => ?_⟩⟩
      rw [binarySpacing_word hc] at h1
      cases h1
  obtain ⟨Y, rfl, hY⟩ := hY
  have hb : wordByte (next ((g1 ++ (op.asStr ++ Y)) ++ B)) = false ∧ next ((g1 ++ (op.asStr ++ Y)) ++ B) ≠ #b'.' := by
    rcases hg1' with rfl | ⟨rfl, hw⟩
    · exact ⟨rfl, by simp [next]⟩
    · simpa using op_next hop hw (r := Y ++ B)
  rcases lay_space hY with ⟨Z, rfl, hZ⟩ | ⟨h1, h2, hZ⟩
  · cases hZ
    obtain ⟨n, hs, hq, -⟩ := hg _ .sp
    have s1 := emit ((op_spaced hop).2 (bs!" " ++ B) (.inr rfl)) (op_spaced hop).1 hg1 hs
    exact ⟨n, _, _, s1.cast (by simp), hq, hb⟩
  · cases hZ
    obtain ⟨n, hs, hq, hl⟩ := hg _ .nil
    have hw : op.category ≠ .Word := fun hc => by rw [binarySpacing_word hc] at h1; cases h1
    have hgl : glues op t = false := by
      cases hgl : glues op t with
      | false => rfl
      | true => rw [hglue h2 hgl] at h1; cases h1
    have s1 := emit (op_lexeme hop hw hl hgl) (op_spaced hop).1 hg1 hs
    exact ⟨n, _, _, s1.cast (by simp), hq, hb⟩

theorem glues_paren (op : Op) : glues op .ParenOpen = false := by cases op <;> rfl

theorem glues_assign {op : Op} {t : Token} (h : assignOperator op = true) : glues op t = false := by
  cases op <;> first | rfl | cases h

theorem reads_binary {op : Op} {a b : Expr} (iha : ReadsBack min (.expr a)) (ihb : ReadsBack min (.expr b))
    (hw : WellFormed (.expr (.binary l op a b))) (hs : Legible min (.expr (.binary l op a b)))
    (hrb : 1 ≤ strength b → 1 ≤ reach b) : ReadsExpr min (.binary l op a b) := by
  intro X g r j hX hg hs' ha
  obtain ⟨hpa, hpb, hop⟩ := hw
  have hX' : Lay min (writeExpression a (codeExpr a) op.bindingPower ++ (([space (binarySpacing op a b).1] ++ ([.text op.asStr] ++
      ([space (binarySpacing op a b).2] ++ []))) ++ writeExpression b (codeExpr b) (op.bindingPower + 1))) X := by
    simpa [codeExpr] using hX
  obtain ⟨A, M, rfl, hA, hM'⟩ := hX'.append
  obtain ⟨M, B, rfl, hM, hB⟩ := hM'.append
  cases hpr : precedence op with
  | some p =>
    obtain ⟨hsa, hsb⟩ := hs p hpr
    rw [codePower_eq, codeOp_eq] at hsa hsb
    rw [blankAfter_eq op a b] at hsb
    have hrl : reach (.binary l op a b) = Nat.min (p + 1) (if b.bindingPower < op.bindingPower + 1 then 18 else reach b) := by
      rw [reach, hpr, codePower_eq, codeOp_eq]
    have hp := (op_binary hpr).2
    have hap := ha.apart (by rw [hrl]; exact Nat.lt_of_le_of_lt (Nat.min_le_left _ _) (by omega))
    obtain ⟨n, w, s, s1, ⟨h1, -⟩, h2, h3⟩ := reads_operator (B := B ++ r) (t := if b.bindingPower < op.bindingPower + 1 then .ParenOpen else firstToken b)
      (Q := fun n => G n (.whole (p + 1) (rereadExpr b)) j ∧ True)
      (.inl (by rw [hpr]; rfl)) hM
      (fun g' hg' => by
        obtain ⟨n, s, h1, h2⟩ := (ihb.expr hpb).operand hB hg' hs' fun hb => by
          rw [hrl, if_neg hb] at hap
          exact hap.after (Nat.min_le_right _ _)
        refine ⟨n, s, ⟨.whole (h1 (p + 1) (by omega) fun hb => ?_) (continues_mono ?_ hap.ends), trivial⟩, h2.append.lead⟩
        · rcases hsb with hc | hc
          · exact absurd hc hb
          · exact hc.1
        · rw [hrl]; exact Nat.min_le_left _ _)
      (fun hmin hgl => by
        split at hgl
        · rw [glues_paren] at hgl; cases hgl
        · rename_i hb
          rcases hsb with hc | hc
          · exact absurd hc hb
          · exact hc.2 hmin hgl)
    have hleft : ¬ a.bindingPower < op.bindingPower → p ≤ strength a ∧ p < reach a := fun hb => by
      rcases hsa with hc | hc
      · exact absurd hc hb
      · simpa [fitsLeft] using hc
    obtain ⟨i, s2, h4, h5⟩ := (iha.expr hpa).operand hA hg s1 fun hb =>
      ⟨h2, fun hd => absurd hd h3, fun _ => continues_op hpr rfl (hleft hb).2⟩
    refine ⟨i, s2.cast (by simp), ?_, by rw [firstToken, codePower_eq, codeOp_eq]; exact h5.append⟩
    rw [rereadExpr, strength, hpr]
    exact .binary (op_binary hpr).1 (Nat.le_refl _) (h4 p (by omega) fun hb => (hleft hb).1) ⟨_, _, rfl⟩ h1
  | none =>
    rw [hpr] at hop
    simp at hop
    obtain ⟨hop, hta⟩ := hop
    have hrl : reach (.binary l op a b) = 1 := by rw [reach, hpr]
    have hap := ha.apart (by rw [hrl]; omega)
    rw [hrl] at hap
    have hbp : op.bindingPower = 3 := by
      have h1 : ∀ op ∈ Op.all, assignOperator op = true → op.bindingPower = 3 := by decide +kernel
      exact h1 op op.mem_all hop
    have hbs : ¬ b.bindingPower < op.bindingPower + 1 → 1 ≤ strength b := fun hb => by
      rw [hbp] at hb
      cases b with
      | seq => simp [Expr.bindingPower] at hb
      | binary _ o => 
        have h1 : ∀ op ∈ Op.all, 1 ≤ (precedence op).getD 1 := by decide +kernel
        exact h1 o o.mem_all
      | _ => simp [strength]
    obtain ⟨n, w, s, s1, h1, h2, h3⟩ := reads_operator (B := B ++ r) (t := if b.bindingPower < op.bindingPower + 1 then .ParenOpen else firstToken b)
      (Q := fun n => G n (.whole 1 (rereadExpr b)) j)
      (.inr hop) hM
      (fun g' hg' => by
        obtain ⟨n, s, h1, h2⟩ := (ihb.expr hpb).operand hB hg' hs' fun hb => hap.after (hrb (hbs hb))
        exact ⟨n, s, .whole (h1 1 (by omega) hbs) hap.ends, h2.append.lead⟩)
      (fun hmin hgl => by rw [glues_assign hop] at hgl; cases hgl)
    obtain ⟨e1, e2, e3, -⟩ := head_target hta
    obtain ⟨i, s2, h4, h5⟩ := (iha.expr hpa).operand hA hg s1 fun hb => .head e2 h2 h3
    refine ⟨i, s2.cast (by simp), ?_, by rw [firstToken, codePower_eq, codeOp_eq]; exact h5.append⟩
    rw [rereadExpr, strength, hpr]
    refine .assign (Nat.le_refl _) (h4 17 (by omega) fun hb => Nat.le_of_eq e1.symm) ?_ ⟨_, _, rfl⟩ (op_assign hop) h1
    cases a <;> first | rfl | cases hta

theorem unary_tok {op : Op} (h : unaryOperator op = true ∨ op = .New) : opToken op = opTok op ∧ starter (opTok op) = true ∧
    lead (opTok op) (next op.asStr) = true ∧ op.asStr ≠ [] := by
  have h1 : ∀ op ∈ Op.all, unaryOperator op = true ∨ op = .New → opToken op = opTok op ∧ starter (opTok op) = true ∧
    lead (opTok op) (next op.asStr) = true ∧ op.asStr ≠ [] := by decide +kernel
  exact h1 op op.mem_all h

theorem reads_prefix {op : Op} {e : Expr} (ih : ReadsBack min (.expr e))
    (hw : WellFormed (.expr (.prefix l op e))) (hs : Legible min (.expr (.prefix l op e))) : ReadsExpr min (.prefix l op e) := by
  intro X g r j hX hg hs' ha
  obtain ⟨hp, hop⟩ := hw
  obtain ⟨hst, hgl⟩ := hs
  have hrl : reach (.prefix l op e) = Nat.min 16 (reach e) := by rw [reach]
  have hap := ha.apart (by rw [hrl]; exact Nat.lt_of_le_of_lt (Nat.min_le_left _ _) (by omega))
  have hend : continues 16 j = false := continues_mono (by rw [hrl]; exact Nat.min_le_left _ _) hap.ends
  have hae : After e r j := hap.after (by rw [hrl]; exact Nat.min_le_right _ _)
  rw [codeExpr] at hX
  obtain ⟨Y, rfl, hX⟩ := hX
  obtain ⟨e1, e2, e3, e4⟩ := unary_tok hop
  have key : ∃ n, Spells (g ++ (op.asStr ++ Y ++ r)) (.tok (opTok op) op.asStr (asiBefore (opTok op) (nl g)) :: n) ∧
      G n (.expr (strength e) (rereadExpr e)) j ∧ look n ≠ .Accessor := by
    by_cases hc : op.category = .Word
    · rw [if_pos hc] at hX
      obtain ⟨Y, rfl, hX⟩ := hX
      obtain ⟨n, s1, h1, h2⟩ := ih.expr hp hX .sp hs' hae
      refine ⟨n, ?_, h1, fun h => ?_⟩
      · rcases hop with hop | rfl
        · have hop' : (precedence op).isSome ∨ unaryOperator op = true ∨ assignOperator op = true := .inr (.inl hop)
          exact (emit ((op_spaced hop').2 (bs!" " ++ (Y ++ r)) (.inr rfl)) (op_spaced hop').1 hg s1).cast (by simp)
        · exact (emit_keyword bs!"new" (opTok .New) (by decide) hg rfl s1).cast (by simp [Op.asStr])
      · rw [← h2.look, h] at h2; cases h2.starter
    · rw [if_neg hc] at hX
      obtain ⟨n, s1, h1, h2⟩ := ih.expr hp hX .nil hs' hae
      have hop' : unaryOperator op = true := by
        rcases hop with hop | rfl
        · exact hop
        · exact absurd rfl hc
      refine ⟨n, ?_, h1, fun h => ?_⟩
      · exact (emit (op_lexeme (r := Y ++ r) (.inr (.inl hop')) hc h2.append.lead hgl) (op_spaced (.inr (.inl hop'))).1 hg s1).cast (by simp)
      · rw [← h2.look, h] at h2; cases h2.starter
  obtain ⟨n, s1, h1, h2⟩ := key
  refine ⟨_, s1, ?_, ?_⟩
  · rw [rereadExpr, strength]
    rcases hop with hop | rfl
    · exact .prefix (Nat.le_refl _) ⟨_, _, rfl⟩ (op_unary hop) (.whole (h1.mono hst) hend)
    · exact .new (Nat.le_refl _) ⟨_, _, rfl⟩ h2 (.whole (h1.mono hst) hend)
  · rw [firstToken, e1]
    exact ⟨rfl, rfl, by rw [next_append e4]; exact e3, by simp [e4], e2⟩

theorem reads_postfix {op : Op} {e : Expr} (ih : ReadsBack min (.expr e)) (hw : WellFormed (.expr (.postfix l op e))) :
    ReadsExpr min (.postfix l op e) := by
  intro X g r j hX hg hs' ha
  obtain ⟨hop, ht⟩ := hw
  obtain ⟨e1, e2, e3, e4⟩ := head_target ht
  rw [codeExpr] at hX
  obtain ⟨A, B, rfl, hA, hB⟩ := hX.append
  cases hB.one
  have ht' : target (rereadExpr e) = true := by cases e <;> first | rfl | cases ht
  rw [rereadExpr, show strength (.postfix l op e) = 17 from rfl]
  rcases hop with rfl | rfl
  · have s1 := emit_punct (g := []) bs!"++" .OperatorIncrement (by decide +kernel) .nil hs'
    obtain ⟨i, s2, h1, h2⟩ := ih.expr e4 hA hg s1 (.head e2 rfl (by simp [next]))
    rw [e1] at h1
    exact ⟨i, s2.cast (by simp [Op.asStr]), .postfix (Nat.le_refl _) h1 ht' rfl nofun, h2.append⟩
  · have s1 := emit_punct (g := []) bs!"--" .OperatorDecrement (by decide +kernel) .nil hs'
    obtain ⟨i, s2, h1, h2⟩ := ih.expr e4 hA hg s1 (.head e2 rfl (by simp [next]))
    rw [e1] at h1
    exact ⟨i, s2.cast (by simp [Op.asStr]), .postfix (Nat.le_refl _) h1 ht' rfl nofun, h2.append⟩

theorem strength_two {e : Expr} (h : 2 ≤ strength e) : 5 ≤ strength e := by
  cases e with
  | binary _ op _ _ =>
    have h1 : ∀ op ∈ Op.all, 2 ≤ (precedence op).getD 1 → 5 ≤ (precedence op).getD 1 := by decide +kernel
    exact h1 op op.mem_all h
  | _ => simp [strength] at h ⊢

theorem reads_cond {t c a : Expr} (iht : ReadsBack min (.expr t)) (ihc : ReadsBack min (.expr c)) (iha : ReadsBack min (.expr a))
    (hw : WellFormed (.expr (.cond l t c a))) (hs : Legible min (.expr (.cond l t c a))) : ReadsExpr min (.cond l t c a) := by
  intro X g r j hX hg hs' ha
  obtain ⟨hw1, hw2, hw3⟩ := hw
  obtain ⟨f1, f2, f3⟩ := hs
  simp [fitsLeft] at f1
  have hX' : Lay min (codeExpr t ++ pSp :: .text bs!"?" :: pSp :: (codeExpr c ++ pSp :: .text bs!":" :: pSp :: codeExpr a)) X := by
    simpa [codeExpr] using hX
  obtain ⟨T, _, rfl, hT, h1⟩ := hX'.append
  obtain ⟨g1, _, hg1, rfl, h2⟩ := h1.sp
  obtain ⟨_, rfl, h3⟩ := h2
  obtain ⟨g2, _, hg2, rfl, h4⟩ := h3.sp
  obtain ⟨C, _, rfl, hC, h5⟩ := h4.append
  obtain ⟨g3, _, hg3, rfl, h6⟩ := h5.sp
  obtain ⟨_, rfl, h7⟩ := h6
  obtain ⟨g4, A, hg4, rfl, hA⟩ := h7.sp
  have hap := ha.apart (by simp [reach])
  obtain ⟨i1, s1, h1, -⟩ := (iha.expr hw3).whole f3 hA hg4 hs' hap
  have s2 := emit_punct (g := g3) bs!":" .Colon (by decide +kernel) hg3 s1
  have b3 := blank_next (r := bs!":" ++ (g4 ++ (A ++ r))) hg3 rfl (by simp [next])
  obtain ⟨i3, s3, h3, -⟩ := (ihc.expr hw2).whole f2 hC hg2 s2 (.close b3.1 b3.2 (by simp [look, Item.token]))
  have s4 := emit_punct (g := g1) bs!"?" .OperatorConditional (by decide +kernel) hg1 s3
  have b1 := blank_next (r := bs!"?" ++ (g2 ++ (C ++ (g3 ++ (bs!":" ++ (g4 ++ (A ++ r))))))) hg1 rfl (by simp [next])
  obtain ⟨i5, s5, h5, h6⟩ := iht.expr hw1 hT hg s4 ⟨b1.1, fun h => absurd h b1.2, fun _ => by
    simp [continues, look, Item.token]; omega⟩
  refine ⟨i5, s5.cast (by simp), ?_, h6.append⟩
  rw [rereadExpr, strength]
  exact .cond (Nat.le_refl _) (h5.mono (strength_two f1.1)) ⟨_, _, rfl⟩ h3 ⟨_, _, rfl⟩ h1

end Ratel
