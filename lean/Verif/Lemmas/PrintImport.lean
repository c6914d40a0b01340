import Verif.Lemmas.PrintFor
/-! Reading back generated code: imports. -/
namespace Ratel
open Spec

set_option linter.unusedSectionVars false
variable [Unicode] {min : Bool} {X g r : Bytes} {j : List Item} {l : Loc}

/-- The source of an import in its new quotes. -/
theorem emit_source {src : Bytes} (h : StrBody #b'\'' src) (hg : Blank g) (hs : Spells r j) :
    ∃ w a, Spells (g ++ (bs!"'" ++ (src ++ (bs!"'" ++ r)))) (.tok .LiteralString w a :: j) ∧ unquoted w = src ∧ 2 ≤ w.length := by
  have s1 := emit_string (g := g) (v := #b'\'' :: src ++ [#b'\'']) ⟨#b'\'', src, rfl, .inr rfl, h⟩ hg hs
  exact ⟨_, _, s1.cast (by simp), by simp [unquoted], by simp⟩

theorem emit_star (hg : Blank g) {i : List Item} (hs : Spells (bs!" " ++ r) i) :
    Spells (g ++ (bs!"*" ++ (bs!" " ++ r))) (.tok .OperatorMultiplication bs!"*" (asiBefore .OperatorMultiplication (nl g)) :: i) :=
  emit (t := .OperatorMultiplication) ((op_spaced (op := .Multiplication) (.inl rfl)).2 _ (.inr rfl)) rfl hg hs

theorem reads_namespace {n : Ident} (hw : Word .Identifier n.name) (hX : Lay min (codeImportSpec (.namespace l n)) X) (hg : Blank g)
    (hs : Spells r j) (hr : wordByte (next r) = false) :
    ∃ i, Spells (g ++ (X ++ r)) i ∧ ImportGroup i [bareSpec (.namespace l n)] j := by
  obtain ⟨_, rfl, h1⟩ := hX
  cases h1.one
  have s1 := emit_word (g := bs!" ") hw .sp hr hs
  have s2 := emit_keyword (g := bs!" ") bs!"as" .Identifier (by decide) .sp rfl s1
  have s3 := emit_star hg s2
  exact ⟨_, s3.cast (by simp), .all ⟨_, _, rfl⟩ ⟨_, rfl⟩ ⟨_, rfl⟩⟩

theorem reads_importName {s : ImportSpec} (hn : s.isNamed = true) (hw : SpecText s) (hX : Lay min (codeImportSpec s) X) (hg : Blank g)
    (hs : Spells r j) (hr : wordByte (next r) = false) (hj : look j ≠ .Identifier) :
    ∃ i, Spells (g ++ (X ++ r)) i ∧ ImportName i (bareSpec s) j := by
  cases s with
  | default => cases hn
  | «namespace» => cases hn
  | named l' a b =>
    obtain ⟨w1, w2⟩ := hw
    rw [codeImportSpec] at hX
    split at hX
    · rename_i he
      cases hX.one
      refine ⟨_, emit_word w1 hg hr hs, ?_⟩
      simp only [bareSpec, bareIdent, ← he]
      refine .plain ⟨_, rfl⟩ ?_
      rintro n ⟨a, rfl⟩
      exact hj rfl
    · obtain ⟨_, rfl, h1⟩ := hX
      obtain ⟨_, rfl, h2⟩ := h1
      cases h2.one
      have s1 := emit_word (g := bs!" ") w2 .sp hr hs
      have s2 := emit_keyword (g := bs!" ") bs!"as" .Identifier (by decide) .sp rfl s1
      have s3 := emit_word w1 hg rfl s2
      exact ⟨_, s3.cast (by simp), .renamed ⟨_, rfl⟩ ⟨_, rfl⟩ ⟨_, rfl⟩⟩

theorem reads_importNames {ss : List ImportSpec} (hn : ∀ s ∈ ss, s.isNamed = true) (hw : ∀ s ∈ ss, SpecText s)
    (hX : Listed min (ss.map codeImportSpec) X) (hg : Blank g) (hs : Spells r j) :
    ∃ i, Spells (g ++ (X ++ (bs!"}" ++ r))) i ∧ ImportNames i (ss.map bareSpec) j := by
  induction ss generalizing X g with
  | nil => cases hX
  | cons s ss ihl =>
    cases ss with
    | nil =>
      cases hX with
      | one hX =>
      have s1 := emit_punct (g := []) bs!"}" .BraceClose (by decide +kernel) .nil hs
      obtain ⟨i, s2, t1⟩ := reads_importName (hn s (by simp)) (hw s (by simp)) hX hg s1 rfl (by simp [look, Item.token])
      exact ⟨i, s2, .last t1 ⟨_, _, rfl⟩⟩
    | cons s' ss =>
      cases hX with
      | more hA hsp hB =>
      obtain ⟨n, s1, t1⟩ := ihl (fun e h => hn e (by simp [h])) (fun e h => hw e (by simp [h])) hB hsp
      have s2 := emit_punct (g := []) bs!"," .Comma (by decide +kernel) .nil s1
      obtain ⟨i, s3, t2⟩ := reads_importName (hn s (by simp)) (hw s (by simp)) hA hg s2 rfl (by simp [look, Item.token])
      exact ⟨i, s3.cast (by simp), .more t2 ⟨_, _, rfl⟩ t1⟩

theorem reads_importBraces {ss : List ImportSpec} (hne : ss ≠ []) (hn : ∀ s ∈ ss, s.isNamed = true) (hw : ∀ s ∈ ss, SpecText s)
    (hX : Lay min (.text bs!"{" :: (writeList (ss.map codeImportSpec) ++ [.text bs!"}"])) X) (hg : Blank g) (hs : Spells r j) :
    ∃ i, Spells (g ++ (X ++ r)) i ∧ ImportGroup i (ss.map bareSpec) j := by
  obtain ⟨_, rfl, h1⟩ := hX
  obtain ⟨A, _, rfl, hA, h2⟩ := h1.append
  cases h2.one
  have hA' : Listed min (ss.map codeImportSpec) A := by
    cases ss with
    | nil => exact absurd rfl hne
    | cons s ss => exact listed_list hA
  obtain ⟨m, s1, t1⟩ := reads_importNames hn hw hA' .nil hs
  have s2 := emit_punct (g := g) bs!"{" .BraceOpen (by decide +kernel) hg s1
  exact ⟨_, s2.cast (by simp), .names ⟨_, _, rfl⟩ t1⟩

theorem named_filter {ss : List ImportSpec} (hn : ∀ s ∈ ss, s.isNamed = true) :
    ss.filter (fun s => s.isNamed) = ss ∧ ss.filter (fun s => !s.isNamed) = [] := by
  refine ⟨List.filter_eq_self.mpr hn, List.filter_eq_nil_iff.mpr fun s hs => ?_⟩
  simp [hn s hs]

theorem reads_stmt_import {ss : List ImportSpec} {src : Bytes} (hw : WellFormed (.stmt (.import l ss src)))
    (hsf : Legible min (.stmt (.import l ss src))) : ReadsStmt min (.import l ss src) := by
  intro X g r j hX hg hs h1 h2
  rw [rereadStmt]
  rw [codeStmt] at hX
  obtain ⟨w1, w2, -⟩ := hw
  have hsf : StrBody #b'\'' src := hsf
  -- With names
  have done : ∀ {H : Bytes}, X = bs!"import " ++ (H ++ (bs!" from '" ++ (src ++ bs!"'"))) →
      (∀ r j, Spells r j → wordByte (next r) = false → look j ≠ .Comma → ∃ m, Spells (bs!" " ++ (H ++ r)) m ∧ ImportHead m (ss.map bareSpec) j) →
      ∃ i, Spells (g ++ (X ++ r)) i ∧ G i (.stmt (.import z (ss.map bareSpec) src)) j ∧ stmtStart (look i) = true ∧
        ((Stmt.import l ss src).isBlock = true → next X = #b'{') ∧ X ≠ [] := by
    intro H hX hh
    obtain ⟨w, a, s1, e1, e2⟩ := emit_source (g := bs!" ") hsf .sp hs
    have s2 := emit_keyword (g := bs!" ") bs!"from" .Identifier (by decide) .sp rfl s1
    obtain ⟨m, s3, t1⟩ := hh _ _ s2 rfl (by simp [look, Item.token])
    have s4 := emit_keyword (g := g) bs!"import" .Import (by decide) hg rfl s3
    refine ⟨_, s4.cast (by simp [hX]), ?_, rfl, nofun, by simp [hX]⟩
    rw [← e1]
    exact .importFrom ⟨_, _, rfl⟩ t1 ⟨_, rfl⟩ ⟨_, rfl⟩ e2
  have fin : ∀ {Y : Bytes}, Lay min [.text bs!" from '", .text src, .text bs!"'"] Y → Y = bs!" from '" ++ (src ++ bs!"'") := by
    rintro _ ⟨_, rfl, _, rfl, _, rfl, rfl⟩
    simp
  cases w1 with
  | none =>
    obtain ⟨_, rfl, _, rfl, _, rfl, _, rfl, rfl⟩ := hX
    obtain ⟨w, a, s1, e1, e2⟩ := emit_source (g := bs!" ") hsf .sp hs
    have s2 := emit_keyword (g := g) bs!"import" .Import (by decide) hg rfl s1
    refine ⟨_, s2.cast (by simp), ?_, rfl, nofun, by simp⟩
    rw [← e1]
    exact .importBare ⟨_, _, rfl⟩ ⟨_, rfl⟩ e2
  | @one l' n =>
    have hX' : Lay min (.text bs!"import " :: ([.text n.name] ++ [.text bs!" from '", .text src, .text bs!"'"])) X := by
      simpa [codeImport, ImportSpec.isNamed, writeList, codeImportSpec] using hX
    obtain ⟨_, rfl, h3⟩ := hX'
    obtain ⟨H, F, rfl, hH, hF⟩ := h3.append
    cases hH.one
    cases fin hF
    refine done rfl fun r j hs hr hj => ?_
    have hw : Word .Identifier n.name := w2 (.default l' n) (by simp)
    exact ⟨_, emit_word (g := bs!" ") hw .sp hr hs, .one ⟨_, rfl⟩ hj⟩
  | rest hr =>
    rcases hr with ⟨hne, hn⟩ | ⟨l', n, rfl⟩
    · have hX' : Lay min (.text bs!"import " :: ((.text bs!"{" :: (writeList (ss.map codeImportSpec) ++ [.text bs!"}"])) ++ [.text bs!" from '", .text src, .text bs!"'"])) X := by
        simpa [codeImport, named_filter hn, hne, writeList] using hX
      obtain ⟨_, rfl, h3⟩ := hX'
      obtain ⟨H, F, rfl, hH, hF⟩ := h3.append
      cases fin hF
      refine done rfl fun r j hs hr hj => ?_
      obtain ⟨i, s1, t1⟩ := reads_importBraces hne hn w2 hH .sp hs
      exact ⟨i, s1, .group t1⟩
    · have hX' : Lay min (.text bs!"import " :: (codeImportSpec (.namespace l' n) ++ [.text bs!" from '", .text src, .text bs!"'"])) X := by
        simpa [codeImport, ImportSpec.isNamed, writeList] using hX
      obtain ⟨_, rfl, h3⟩ := hX'
      obtain ⟨H, F, rfl, hH, hF⟩ := h3.append
      cases fin hF
      refine done rfl fun r j hs hr hj => ?_
      obtain ⟨i, s1, t1⟩ := reads_namespace (w2 (.namespace l' n) (by simp)) hH .sp hs hr
      exact ⟨i, s1, .group t1⟩
  | @both l' n ss' hr =>
    have hw : Word .Identifier n.name := w2 (.default l' n) (by simp)
    rcases hr with ⟨hne, hn⟩ | ⟨l'', n', rfl⟩
    · have hX' : Lay min (.text bs!"import " :: ((.text n.name :: .text bs!"," :: .text bs!"{" :: (writeList (ss'.map codeImportSpec) ++ [.text bs!"}"])) ++ [.text bs!" from '", .text src, .text bs!"'"])) X := by
        have e := named_filter hn
        have e1 : (ImportSpec.default l' n :: ss').filter (fun s => s.isNamed) = ss' := by
          rw [List.filter_cons_of_neg (by simp [ImportSpec.isNamed]), e.1]
        have e2 : (ImportSpec.default l' n :: ss').filter (fun s => !s.isNamed) = [.default l' n] := by
          rw [List.filter_cons_of_pos (by simp [ImportSpec.isNamed]), e.2]
        unfold codeImport at hX
        simp only [e1, e2] at hX
        simpa [hne, writeList, codeImportSpec] using hX
      obtain ⟨_, rfl, h3⟩ := hX'
      obtain ⟨H, F, rfl, hH, hF⟩ := h3.append
      cases fin hF
      refine done rfl fun r j hs hr hj => ?_
      obtain ⟨_, rfl, h4⟩ := hH
      obtain ⟨B, rfl, hB⟩ := h4
      obtain ⟨m, s1, t1⟩ := reads_importBraces hne hn (fun s h => w2 s (by simp [h])) hB .nil hs
      have s2 := emit_punct (g := []) bs!"," .Comma (by decide +kernel) .nil s1
      have s3 := emit_word (g := bs!" ") hw .sp rfl s2
      exact ⟨_, s3.cast (by simp), .both ⟨_, rfl⟩ ⟨_, _, rfl⟩ t1⟩
    · have hX' : Lay min (.text bs!"import " :: ((.text n.name :: .text bs!"," :: pSp :: codeImportSpec (.namespace l'' n')) ++ [.text bs!" from '", .text src, .text bs!"'"])) X := by
        simpa [codeImport, ImportSpec.isNamed, writeList, codeImportSpec] using hX
      obtain ⟨_, rfl, h3⟩ := hX'
      obtain ⟨H, F, rfl, hH, hF⟩ := h3.append
      cases fin hF
      refine done rfl fun r j hs hr hj => ?_
      obtain ⟨_, rfl, h4⟩ := hH
      obtain ⟨_, rfl, h5⟩ := h4
      obtain ⟨g2, B, hg2, rfl, hB⟩ := h5.sp
      obtain ⟨m, s1, t1⟩ := reads_namespace (w2 (.namespace l'' n') (by simp)) hB hg2 hs hr
      have s2 := emit_punct (g := []) bs!"," .Comma (by decide +kernel) .nil s1
      have s3 := emit_word (g := bs!" ") hw .sp rfl s2
      exact ⟨_, s3.cast (by simp), .both ⟨_, rfl⟩ ⟨_, _, rfl⟩ t1⟩

end Ratel
