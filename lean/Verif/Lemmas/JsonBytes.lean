import Verif.Lemmas.TypedJson
import Verif.Lemmas.Utf8
/-! The bytes of JSON texts: valid UTF-8, no control characters. -/
namespace Ratel
open Spec Spec.Rfc8259

/-- All strings of a document are good. -/
inductive Texts (S : Bytes → Prop) : Json → Prop where
  | null : Texts S .null
  | bool (b) : Texts S (.bool b)
  | int (i) : Texts S (.int i)
  | float (v) : Texts S (.float v)
  | str {s} (h : S s) : Texts S (.str s)
  | sym (s) : Texts S (.sym s)
  | arr {xs : List Json} (h : ∀ x ∈ xs, Texts S x) : Texts S (.arr xs)
  | obj {fs : List (String × Json)} (h : ∀ f ∈ fs, Texts S f.2) : Texts S (.obj fs)

theorem Plainly.texts {S : Bytes → Prop} {j : Json} (h : Plainly S j) : Texts S j := by
  induction h with
  | null => exact .null
  | bool => exact .bool _
  | int => exact .int _
  | str h => exact .str h
  | arr _ ih => exact .arr ih
  | obj h1 h2 h3 h4 ih =>
    refine .obj fun f hf => ?_
    by_cases hk : f.1 = "type" ∨ f.1 = "kind"
    · obtain ⟨s, hs⟩ := h1 f hf hk
      rw [hs]; exact .sym _
    · by_cases hv : ∃ v, f.2 = .float v
      · obtain ⟨v, hv⟩ := hv
        rw [hv]; exact .float _
      · exact ih f hf hk fun v hx => hv ⟨v, hx⟩

mutual
theorem texts_all : ∀ j : Json, Texts (fun _ => True) j
  | .null => .null
  | .bool b => .bool b
  | .int i => .int i
  | .float v => .float v
  | .str _ => .str trivial
  | .sym s => .sym s
  | .arr xs => .arr (texts_list xs)
  | .obj fs => .obj (texts_fields fs)
theorem texts_list : ∀ xs : List Json, ∀ x ∈ xs, Texts (fun _ => True) x
  | [] => by simp
  | x :: xs => List.forall_mem_cons.2 ⟨texts_all x, texts_list xs⟩
theorem texts_fields : ∀ fs : List (String × Json), ∀ f ∈ fs, Texts (fun _ => True) f.2
  | [] => by simp
  | (_, x) :: fs => List.forall_mem_cons.2 ⟨texts_all x, texts_fields fs⟩
end

/-- Printable ASCII. -/
def isInk (b : Byte) : Bool := 32 ≤ b && b < 128

theorem isInk_atom (b : Byte) (h : isAtom b = true) : isInk b = true :=
  byte_forall (P := fun b => isAtom b = true → isInk b = true) (by decide +kernel) b h

section
variable [Floats] [hl : LawfulFloats] {S Q : Bytes → Prop}

theorem floats_ink (v : Bytes) : (Floats.text v).all isInk = true := by
  rcases hl.number v with h | h
  · rw [h]; rfl
  · rw [List.all_eq_true] at h ⊢
    exact fun b hb => isInk_atom b (h.2 b hb)

theorem writeJson_closed (p : Bool) (ha : ∀ {s t}, Q s → Q t → Q (s ++ t)) (hi : ∀ s : Bytes, s.all isInk = true → Q s)
    (hb : ∀ k, Q (breakLine p k)) (hs : ∀ s, S s → Q (writeString s)) (hc : ∀ l, Q (writeString (constant l))) {j : Json}
    (h : Texts S j) : ∀ k, Q (writeJson p k j) := by
  have hc' : ∀ c t, isInk c = true → Q t → Q (c :: t) := fun c t h1 h2 => ha (s := [c]) (hi _ (by simp [h1])) h2
  have hl' : Q (if p then bs!": " else bs!":") := by cases p <;> exact hi _ (by decide)
  have hd : ∀ n, Q (decimal n) := fun n => hi _ (by
    have := decimal_atoms n
    rw [List.all_eq_true] at this ⊢
    exact fun b hb => isInk_atom b (this b hb))
  induction h with
  | null => intro k; rw [writeJson]; exact hi _ (by decide)
  | bool b => intro k; cases b <;> rw [writeJson] <;> exact hi _ (by decide)
  | int i =>
    intro k
    cases i with
    | ofNat n => exact hd n
    | negSucc n => exact hc' _ _ (by decide) (hd _)
  | float v => intro k; exact hi _ (floats_ink v)
  | str h => intro k; exact hs _ h
  | sym s => intro k; exact hc s
  | @arr xs h ih =>
    intro k
    have items : ∀ ys : List Json, (∀ y ∈ ys, ∀ k, Q (writeJson p k y)) → Q (writeItems p k ys) := by
      intro ys
      induction ys with
      | nil => intro _; rw [writeItems]; exact hi _ (by decide)
      | cons y ys ihy =>
        intro hy
        rw [writeItems]
        exact ha (ha (hc' _ _ (by decide) (hb _)) (hy y (by simp) _)) (ihy fun z hz => hy z (by simp [hz]))
    cases xs with
    | nil => rw [writeJson]; exact hi _ (by decide)
    | cons x xs =>
      rw [writeJson]
      exact ha (ha (ha (ha (hc' _ _ (by decide) (hb _)) (ih x (by simp) _)) (items xs fun z hz => ih z (by simp [hz])))
        (hb _)) (hi _ (by decide))
  | @obj fs h ih =>
    intro k
    have members : ∀ ys : List (String × Json), (∀ y ∈ ys, ∀ k, Q (writeJson p k y.2)) → Q (writeMembers p k ys) := by
      intro ys
      induction ys with
      | nil => intro _; rw [writeMembers]; exact hi _ (by decide)
      | cons y ys ihy =>
        intro hy
        obtain ⟨l, y⟩ := y
        rw [writeMembers]
        exact ha (ha (ha (ha (hc' _ _ (by decide) (hb _)) (hc l)) hl') (hy (l, y) (by simp) _))
          (ihy fun z hz => hy z (by simp [hz]))
    cases fs with
    | nil => rw [writeJson]; exact hi _ (by decide)
    | cons f fs =>
      obtain ⟨l, x⟩ := f
      rw [writeJson]
      exact ha (ha (ha (ha (ha (ha (hc' _ _ (by decide) (hb _)) (hc l)) hl') (ih (l, x) (by simp) _))
        (members fs fun z hz => ih z (by simp [hz]))) (hb _)) (hi _ (by decide))
end

theorem escapeJson_high (b : Byte) (h : ¬b < 128) : escapeJson b = [b] :=
  byte_forall (P := fun b => ¬b < 128 → escapeJson b = [b]) (by decide +kernel) b h

theorem escapeJson_ink (b : Byte) (h : b < 128) : (escapeJson b).all (fun x => 32 ≤ x && x < 128) = true :=
  byte_forall (P := fun b => b < 128 → (escapeJson b).all (fun x => 32 ≤ x && x < 128) = true) (by decide +kernel) b h

theorem escapeJson_visible (b : Byte) : ∀ x ∈ escapeJson b, 32 ≤ x :=
  byte_forall (P := fun b => ∀ x ∈ escapeJson b, 32 ≤ x) (by decide +kernel) b

theorem writeString_utf8 {s : Bytes} (h : Utf8 s) : Utf8 (writeString s) := by
  obtain ⟨cs, rfl⟩ := h
  have : Utf8 ((utf8 cs).flatMap escapeJson) := by
    induction cs with
    | nil => exact .nil
    | cons c cs ih =>
      rw [utf8_cons, List.flatMap_append]
      refine Utf8.append ?_ ih
      obtain ⟨b, r, he, hb, hr, hlt⟩ := encode_shape c
      by_cases h : b < 128
      · have := hlt.1 h
        subst this
        rw [he]
        refine Utf8.ascii fun x hx => ?_
        have h2 := escapeJson_ink b h
        rw [List.all_eq_true] at h2
        simp only [List.flatMap_cons, List.flatMap_nil, List.append_nil] at hx
        have := h2 x hx
        simp at this
        exact this.2
      · refine ⟨[c], ?_⟩
        simp only [utf8, List.flatMap_cons, List.flatMap_nil, List.append_nil]
        have hid : ∀ {t : Bytes}, (∀ x ∈ t, ¬x < 128) → t.flatMap escapeJson = t := by
          intro t ht
          induction t with
          | nil => rfl
          | cons x t iht =>
            rw [List.flatMap_cons, escapeJson_high x (ht x (by simp)), iht fun y hy => ht y (by simp [hy])]
            rfl
        apply hid
        rw [he, List.forall_mem_cons]
        refine ⟨h, fun x hx => ?_⟩
        have := hr x hx
        exact byte_forall (P := fun x => Lex.isCont x = true → ¬x < 128) (by decide +kernel) x this
  have hq : Utf8 [#b'"'] := Utf8.ascii (by decide)
  exact Utf8.append (Utf8.append hq this) hq

theorem breakLine_ascii (p : Bool) (k : Nat) : ∀ b ∈ breakLine p k, b < 128 := by
  have := breakLine_blank p k
  rw [List.all_eq_true] at this
  exact fun b hb => byte_forall (P := fun b => Rfc8259.isSpace b = true → b < 128) (by decide +kernel) b (this b hb)

section
variable [Floats] [hl : LawfulFloats]

theorem writeJson_utf8 (p : Bool) {j : Json} (h : Texts Utf8 j) (k : Nat) : Utf8 (writeJson p k j) := by
  refine writeJson_closed (Q := Utf8) p (fun h1 h2 => h1.append h2) (fun s hs => Utf8.ascii fun b hb => ?_)
    (fun k => Utf8.ascii (breakLine_ascii p k)) (fun s hs => writeString_utf8 hs)
    (fun l => writeString_utf8 ⟨l.toList, rfl⟩) h k
  rw [List.all_eq_true] at hs
  have := hs b hb
  simp [isInk] at this
  exact this.2

omit [Floats] hl in
theorem writeString_visible (s : Bytes) : ∀ b ∈ writeString s, 32 ≤ b := by
  simp only [writeString, List.cons_append, List.forall_mem_cons, List.forall_mem_append, List.mem_flatMap, forall_exists_index,
    and_imp, List.not_mem_nil, false_implies, implies_true, and_true]
  exact ⟨by decide, fun b a _ h => escapeJson_visible a b h, by decide⟩

theorem writeJson_lines (p : Bool) (j : Json) (k : Nat) : ∀ b ∈ writeJson p k j, 32 ≤ b ∨ (p = true ∧ b = 10) := by
  refine writeJson_closed (Q := fun s => ∀ b ∈ s, 32 ≤ b ∨ (p = true ∧ b = 10)) p
    (fun h1 h2 b hb => (List.mem_append.1 hb).elim (h1 b) (h2 b)) (fun s hs b hb => ?_) (fun k b hb => ?_)
    (fun s _ b hb => .inl (writeString_visible s b hb)) (fun l b hb => .inl (writeString_visible _ b hb)) (texts_all j) k
  · rw [List.all_eq_true] at hs
    have := hs b hb
    simp [isInk] at this
    exact .inl this.1
  · cases p
    · simp [breakLine] at hb
    · simp only [breakLine, if_true, List.mem_cons, List.mem_replicate] at hb
      rcases hb with rfl | ⟨-, rfl⟩
      · exact .inr ⟨rfl, by decide⟩
      · exact .inl (by decide)
end

end Ratel
