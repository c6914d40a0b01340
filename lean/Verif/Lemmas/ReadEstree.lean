import Verif.Spec.ReadEstree
import Verif.Spec.Printable
import Verif.Props.AstGen
import Verif.Lemmas.Handlers
/-! Reading back what the serialiser wrote (C51). -/
namespace Ratel
open Spec

/-! ### Documents -/

/-- A node with its fields. -/
def jnode (ty : String) (fs : List (String × Json)) (l : Loc) : Json :=
  .obj ([("type", .sym ty)] ++ fs ++ [("start", .int l.start), ("end", .int l.stop)])

theorem withLoc_ok {l : Loc} {x : Out Item} {j : Json} :
    withLoc l x = .ok j ↔ ∃ i, x = .ok i ∧ j = jnode i.1 i.2 l := by
  simp only [withLoc, Out.bind_eq_ok]
  constructor
  · rintro ⟨⟨ty, fs⟩, h1, h2⟩
    exact ⟨_, h1, (Out.ok.inj h2).symm⟩
  · rintro ⟨⟨ty, fs⟩, h1, rfl⟩
    exact ⟨_, h1, rfl⟩

theorem inLoc_ok {ty : String} {fs : List (String × Out Json)} {i : Item} :
    inLoc ty fs = .ok i ↔ ∃ js, fields fs = .ok js ∧ i = (ty, js) := by
  simp only [inLoc, Out.bind_eq_ok, Out.ok.injEq]
  constructor
  · rintro ⟨a, h, rfl⟩; exact ⟨a, h, rfl⟩
  · rintro ⟨a, h, rfl⟩; exact ⟨a, h, rfl⟩

theorem fields_nil {js : List (String × Json)} : fields [] = .ok js ↔ js = [] := by
  simp [fields, eq_comm]

theorem fields_cons {k : String} {x : Out Json} {r : List (String × Out Json)} {js : List (String × Json)} :
    fields ((k, x) :: r) = .ok js ↔ ∃ a, x = .ok a ∧ ∃ b, fields r = .ok b ∧ js = (k, a) :: b := by
  simp only [fields, Out.bind_eq_ok, Out.ok.injEq]
  constructor
  · rintro ⟨a, h, b, h', rfl⟩; exact ⟨a, h, b, h', rfl⟩
  · rintro ⟨a, h, b, h', rfl⟩; exact ⟨a, h, b, h', rfl⟩

theorem withLoc_obj {l : Loc} {x : Out Item} {j : Json} (h : withLoc l x = .ok j) : ∃ fs, j = .obj fs := by
  obtain ⟨i, -, rfl⟩ := withLoc_ok.1 h
  exact ⟨_, rfl⟩

theorem orNull_obj {j : Json} (h : ∃ fs, j = .obj fs) (f : Json → Option α) : orNull f j = (f j).map some := by
  obtain ⟨fs, rfl⟩ := h
  rfl

theorem sequence_ok {xs : List α} {f : α → Out Json} {g : Json → Option β} {h : α → β} {js : List Json}
    (H : ∀ x ∈ xs, ∀ j, f x = .ok j → g j = some (h x)) (hs : sequence (xs.map f) = .ok js) :
    js.mapM g = some (xs.map h) := by
  induction xs generalizing js with
  | nil =>
    simp only [List.map_nil, sequence, Out.ok.injEq] at hs
    subst hs
    rfl
  | cons x xs ih =>
    simp only [List.map_cons, sequence, Out.bind_eq_ok, Out.ok.injEq] at hs
    obtain ⟨a, ha, b, hb, rfl⟩ := hs
    rw [List.mapM_cons, H x (by simp) a ha, ih (fun x hx => H x (by simp [hx])) hb]
    rfl

theorem list_read {xs : List α} {f : α → Out Json} {g : Json → Option β} {h : α → β} {j : Json}
    (H : ∀ x ∈ xs, ∀ j, f x = .ok j → g j = some (h x)) (hs : array (xs.map f) = .ok j) :
    listOf g j = some (xs.map h) := by
  simp only [array, Out.bind_eq_ok, Out.ok.injEq] at hs
  obtain ⟨js, hs, rfl⟩ := hs
  exact sequence_ok H hs

theorem ident_read {i : Ident} {j : Json} (h : genIdent i = .ok j) : readIdent j = some i := by
  simp only [genIdent, withLoc_ok, Out.ok.injEq] at h
  obtain ⟨i, rfl, rfl⟩ := h
  rfl

theorem label_read {n : Option Ident} {j : Json} (h : optional (n.map genIdent) = .ok j) : orNull readIdent j = some n := by
  cases n with
  | none => simp [optional] at h; subst h; rfl
  | some i =>
    simp only [Option.map_some, optional] at h
    rw [orNull_obj (withLoc_obj h), ident_read h]
    rfl

theorem spec_read {s : ImportSpec} {j : Json} (h : genImportSpec s = .ok j) : readImportSpec j = some s := by
  cases s with
  | named l i n =>
    simp only [genImportSpec, withLoc_ok, Out.bind_eq_ok, Out.ok.injEq] at h
    obtain ⟨_, ⟨a, ha, b, hb, rfl⟩, rfl⟩ := h
    show ((readIdent a).bind fun i => (readIdent b).bind fun n => some (ImportSpec.named l i n)) = _
    rw [ident_read ha, ident_read hb]
    rfl
  | default l n =>
    simp only [genImportSpec, withLoc_ok, Out.bind_eq_ok, Out.ok.injEq] at h
    obtain ⟨_, ⟨a, ha, rfl⟩, rfl⟩ := h
    show (readIdent a).map (ImportSpec.default l) = _
    rw [ident_read ha]
    rfl
  | «namespace» l n =>
    simp only [genImportSpec, withLoc_ok, Out.bind_eq_ok, Out.ok.injEq] at h
    obtain ⟨_, ⟨a, ha, rfl⟩, rfl⟩ := h
    show (readIdent a).map (ImportSpec.namespace l) = _
    rw [ident_read ha]
    rfl

theorem quasis_read {qs : List Ident} {js : List Json} (h : sequence (genQuasis qs) = .ok js) : readQuasis js = some qs := by
  induction qs generalizing js with
  | nil => simp [genQuasis, sequence] at h; subst h; rfl
  | cons q qs ih =>
    simp only [genQuasis, sequence, Out.bind_eq_ok, Out.ok.injEq] at h
    obtain ⟨a, ha, b, hb, rfl⟩ := h
    split at ha
    · simp at ha
    · rename_i hq
      simp only [withLoc_ok, Out.ok.injEq] at ha
      obtain ⟨_, rfl, rfl⟩ := ha
      have hb' := ih hb
      have he : (qs.isEmpty == b.isEmpty) = true := by
        cases qs with
        | nil => simp [genQuasis, sequence] at hb; subst hb; rfl
        | cons p ps =>
          simp only [genQuasis, sequence, Out.bind_eq_ok, Out.ok.injEq] at hb
          obtain ⟨a, -, c, -, rfl⟩ := hb
          rfl
      show ((must (decide (1 ≤ q.loc.start + 1))).bind fun _ => (must (qs.isEmpty == b.isEmpty)).bind fun _ =>
        (must (q.name == q.name)).bind fun _ => (readQuasis b).bind fun r =>
          some ((⟨⟨q.loc.start + 1 - 1, q.loc.stop - 1 + 1⟩, q.name⟩ : Ident) :: r)) = _
      rw [he, hb']
      have : q.loc.stop - 1 + 1 = q.loc.stop := by omega
      simp [must, this]

theorem quasis_array {qs : List Ident} {j : Json} (h : array (genQuasis qs) = .ok j) :
    ∃ js, j = .arr js ∧ readQuasis js = some qs := by
  simp only [array, Out.bind_eq_ok, Out.ok.injEq] at h
  obtain ⟨js, hs, rfl⟩ := h
  exact ⟨js, rfl, quasis_read hs⟩

theorem mapM_some (js : List Json) : js.mapM some = some js := by
  induction js with
  | nil => rfl
  | cons x xs ih => rw [List.mapM_cons, ih]; rfl

theorem template_read {expr : Json → Option Expr} {es : List Expr} {qs : List Ident} {a b : Json} {l : Loc}
    (ha : array (genQuasis qs) = .ok a) (hb : listOf expr b = some es) :
    readTemplate expr (jnode "TemplateLiteral" [("quasis", a), ("expressions", b)] l) = some (es, qs) := by
  obtain ⟨js, rfl, hq⟩ := quasis_array ha
  show ((js.mapM some).bind fun qs => (readQuasis qs).bind fun qs => (listOf expr b).bind fun es => some (es, qs)) = _
  rw [mapM_some]
  simp [hq, hb]

theorem block_read {stmt : Json → Option Stmt} {l : Loc} {ss : List Stmt} {j : Json} {f : Stmt → Stmt}
    (H : ∀ s ∈ ss, ∀ j, genStmt s = .ok j → stmt j = some (f s)) (h : genBlock (.mk l ss) = .ok j) :
    readBlock stmt j = some (.mk l (ss.map f)) := by
  simp only [genBlock, withLoc_ok, inLoc_ok, fields_cons, fields_nil] at h
  obtain ⟨_, ⟨_, ⟨a, ha, _, rfl, rfl⟩, rfl⟩, rfl⟩ := h
  rw [genStmts_eq] at ha
  show ((listOf stmt a).bind fun b => some (Block.mk l b)) = _
  rw [list_read H ha]
  rfl

/-! ### Literals -/

theorem digit_eq {b : Byte} {d : Nat} (h : digitValue b = some d) : digit b = d := by
  have : digitValue b = none ∨ digitValue b = some (digit b) := by
    revert b
    intro b _
    exact byte_forall (P := fun b => digitValue b = none ∨ digitValue b = some (digit b)) (by decide +kernel) b
  rw [h] at this
  simpa using this.symm.symm.elim (fun h => by simp at h) (fun h => (Option.some.inj h).symm)

theorem parseInt_numeral {limit radix : Nat} {s : Bytes} {v : Nat} (h : parseInt limit radix s = some v) :
    v = numeral radix s := by
  have hd : ∀ (s : Bytes) (acc : Nat), digitsValue radix acc s = some v →
      v = s.foldl (fun acc b => acc * radix + digit b) acc := by
    intro s
    induction s with
    | nil => intro acc h; simpa [digitsValue] using h.symm
    | cons b s ih =>
      intro acc h
      simp only [digitsValue] at h
      cases hb : digitValue b with
      | none => simp [hb] at h
      | some d =>
        simp only [hb] at h
        split at h
        · rw [List.foldl_cons, digit_eq hb]
          exact ih _ h
        · simp at h
  unfold parseInt at h
  split at h
  · simp at h
  · split at h
    · rename_i v' hv
      split at h
      · simp only [Option.some.injEq] at h
        subst h
        exact hd _ _ hv
      · simp at h
    · simp at h

theorem number_noBinary {v r : Bytes} (h : Number v r) : binaryPrefix v = false := by
  cases h with
  | @decimal ds f e r h0 hd hf he hr hn hz =>
    cases ds with
    | nil => exact absurd rfl h0
    | cons d ds =>
      have hx : ∀ x, x = #b'b' ∨ x = #b'B' → ∀ t, d :: ds ++ f ++ e ≠ #b'0' :: x :: t := by
        rintro x hx t he'
        cases ds with
        | cons d' ds =>
          simp only [List.cons_append, List.cons.injEq] at he'
          have := hd d' (by simp)
          rw [he'.2.1] at this
          rcases hx with rfl | rfl <;> simp [isDigit] at this
        | nil =>
          cases hf with
          | some hf =>
            simp only [List.cons_append, List.nil_append, List.cons.injEq] at he'
            rcases hx with rfl | rfl <;> simp at he'
          | none =>
            cases he with
            | none => simp at he'
            | some he =>
              simp only [List.cons_append, List.nil_append, List.cons.injEq] at he'
              rcases hx with rfl | rfl <;> rcases he with rfl | rfl <;> simp at he'
      unfold binaryPrefix
      generalize hv : d :: ds ++ f ++ e = v at hx
      match v with
      | [] => rfl
      | [x] => simp
      | x :: y :: t =>
        simp only [List.take_succ_cons, List.take_zero, Bool.or_eq_false_iff, beq_eq_false_iff_ne, ne_eq, List.cons.injEq, and_true, not_and]
        exact ⟨fun h1 h2 => hx y (.inl h2) t (by rw [h1]), fun h1 h2 => hx y (.inr h2) t (by rw [h1])⟩
  | point h0 hd he hr => simp [binaryPrefix]
  | octal hx hd hr => rcases hx with rfl | rfl <;> simp [binaryPrefix]
  | hex hx hd hr => rcases hx with rfl | rfl <;> simp [binaryPrefix]

theorem binary_prefix {v : Bytes} (h : BinaryText v) : binaryPrefix v = true := by
  obtain ⟨x, ds, rfl, hx, -⟩ := h
  rcases hx with rfl | rfl <;> simp [binaryPrefix]

theorem int_read {raw : Bytes} {o : Option Nat} {fs : List (String × Json)} {l : Loc} {v : Literal}
    (h : expectNumber raw o = .ok fs) (hi : ∀ n, o = some n → n = integer raw)
    (hv : v = if binaryPrefix raw then .Binary raw else .Number raw) : readLiteral (jnode "Literal" fs l) = some v := by
  cases o with
  | none => simp [expectNumber] at h
  | some n =>
    simp only [expectNumber, Out.ok.injEq] at h
    subst h
    show ((must (n == integer raw)).bind fun _ => some (if binaryPrefix raw then Literal.Binary raw else .Number raw)) = _
    rw [← hi n rfl, ← hv]
    simp [must]

theorem literal_read [Unicode] {v : Literal} {i : Item} {l : Loc} (hw : LiteralText v) (h : genLiteral v = .ok i) :
    i.1 = "Literal" ∧ readLiteral (jnode i.1 i.2 l) = some v := by
  cases v with
  | Undefined | Null | True | False =>
    simp only [genLiteral, Out.ok.injEq] at h
    subst h
    exact ⟨rfl, rfl⟩
  | Number v =>
    simp only [genLiteral, Out.bind_eq_ok, Out.ok.injEq] at h
    obtain ⟨fs, h, rfl⟩ := h
    refine ⟨rfl, ?_⟩
    obtain ⟨r, hw⟩ := hw
    have hb := number_noBinary hw
    simp only [genNumber] at h
    split at h
    · rename_i hc
      refine int_read h (fun n hn => ?_) (by simp [hb])
      rw [parseInt_numeral hn, integer, if_pos hc.2]
    · rename_i hc
      split at h
      · rename_i hc'
        refine int_read h (fun n hn => ?_) (by simp [hb])
        have : ¬(v.take 2 = bs!"0x" ∨ v.take 2 = bs!"0X") := by
          rcases hc'.2 with h | h <;> rw [h] <;> decide
        rw [parseInt_numeral hn, integer, if_neg this, if_pos hc'.2]
      · rename_i hc'
        split at h
        · split at h
          · simp only [Out.ok.injEq] at h
            subst h
            show ((must (v == v)).bind fun _ => some (Literal.Number v)) = _
            simp [must]
          · simp at h
        · refine int_read h (fun n hn => ?_) (by simp [hb])
          have short : ∀ x ∈ bs!"xXoO", v.take 2 ≠ [#b'0', x] := by
            intro x hx he
            have hl : v = [#b'0', x] := by
              have hlen : v.length ≤ 2 := by
                apply Classical.byContradiction
                intro hl
                rw [he] at hc hc'
                simp only [not_and, Nat.not_le] at hc hc' hl
                simp only [List.mem_cons, List.not_mem_nil, or_false] at hx
                rcases hx with rfl | rfl | rfl | rfl
                · exact hc (by omega) (.inl rfl)
                · exact hc (by omega) (.inr rfl)
                · exact hc' (by omega) (.inl rfl)
                · exact hc' (by omega) (.inr rfl)
              rw [List.take_of_length_le hlen] at he
              exact he
            rw [hl] at hn
            revert hn
            simp only [List.mem_cons, List.not_mem_nil, or_false] at hx
            rcases hx with rfl | rfl | rfl | rfl <;> simp [parseInt, digitsValue, digitValue]
          rw [parseInt_numeral hn, integer, if_neg, if_neg, hb]
          · rfl
          · rintro (h | h)
            · exact short _ (by simp) h
            · exact short _ (by simp) h
          · rintro (h | h)
            · exact short _ (by simp) h
            · exact short _ (by simp) h
  | Binary v =>
    simp only [genLiteral] at h
    split at h
    · simp at h
    · simp only [Out.bind_eq_ok, Out.ok.injEq] at h
      obtain ⟨fs, h, rfl⟩ := h
      have hb := binary_prefix hw
      refine ⟨rfl, int_read h (fun n hn => ?_) (by simp [hb])⟩
      rw [parseInt_numeral hn, integer, if_neg, if_neg, hb]
      · rfl
      all_goals
        obtain ⟨x, ds, rfl, hx, -⟩ := hw
        rcases hx with rfl | rfl <;> simp
  | String v =>
    simp only [genLiteral] at h
    split at h
    · simp at h
    · simp only [Out.ok.injEq] at h
      subst h
      refine ⟨rfl, ?_⟩
      obtain ⟨q, s, rfl, hq, -⟩ := hw
      show ((must (q :: s ++ [q] == #b'"' :: ((q :: s ++ [q]).drop 1).dropLast ++ [#b'"'] ||
        q :: s ++ [q] == #b'\'' :: ((q :: s ++ [q]).drop 1).dropLast ++ [#b'\''])).bind fun _ => some (Literal.String (q :: s ++ [q]))) = _
      rcases hq with rfl | rfl <;> simp [must]
  | RegEx v =>
    simp only [genLiteral, Out.bind_eq_ok] at h
    obtain ⟨⟨p, f⟩, hp, h⟩ := h
    simp only [Out.ok.injEq] at h
    subst h
    refine ⟨rfl, ?_⟩
    show ((must (v == #b'/' :: p ++ #b'/' :: f)).bind fun _ => some (Literal.RegEx v)) = _
    have : v = #b'/' :: p ++ #b'/' :: f := by
      obtain ⟨c, q, g, rfl, -⟩ := hw
      unfold parseRegex at hp
      simp only [List.cons_append] at hp
      split at hp
      · rename_i flags before hl
        obtain ⟨h1, -⟩ := (lastSlash_spec _).2 _ _ hl
        split at hp
        · simp at hp
        · simp only [Out.ok.injEq, Prod.mk.injEq] at hp
          obtain ⟨rfl, rfl⟩ := hp
          have h2 := congrArg List.reverse h1
          simp only [List.reverse_reverse, List.reverse_append, List.reverse_cons, List.append_assoc, List.singleton_append] at h2
          cases hb : before.reverse with
          | nil => simp at hb; simp_all
          | cons b bs =>
            rw [hb] at h2
            simp only [List.reverse_nil, List.nil_append, List.cons_append, List.cons.injEq] at h2
            simpa using h2.2
      · rename_i hl
        exact absurd ((lastSlash_spec _).1.1 hl) (by simp)
    rw [this]
    simp [must]

end Ratel
