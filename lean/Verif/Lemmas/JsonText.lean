import Verif.JsonText
import Verif.Spec.ReadJson
import Verif.Lemmas.DebugShape
import Verif.Lemmas.Handlers
/-! The text of a JSON document reads back. -/
namespace Ratel
open Spec Spec.Rfc8259

/-! ### Strings -/

theorem readString_escape (b : Byte) (r : Bytes) :
    readString (escapeJson b ++ r) = (readString r).map fun x => (b :: x.1, x.2) := by
  have hu : b < 32 → hexValue [48, 48, hexDigit (b.toNat / 16), hexDigit (b.toNat % 16)] = some b.toNat ∧
      String.utf8EncodeChar (Char.ofNat b.toNat) = [b] :=
    byte_forall (P := fun b => b < 32 → hexValue [48, 48, hexDigit (b.toNat / 16), hexDigit (b.toNat % 16)] = some b.toNat ∧
      String.utf8EncodeChar (Char.ofNat b.toNat) = [b]) (by decide +kernel) b
  have hlt : b < 32 → b.toNat < 32 := fun h => h
  unfold escapeJson
  split
  · subst_vars
    simp only [List.cons_append, List.nil_append]
    rw [readString.eq_def]
    simp [escapes, List.lookup]
  split
  · subst_vars
    simp only [List.cons_append, List.nil_append]
    rw [readString.eq_def]
    simp [escapes, List.lookup]
  split
  · subst_vars
    simp only [List.cons_append, List.nil_append]
    rw [readString.eq_def]
    simp [escapes, List.lookup]
  split
  · subst_vars
    simp only [List.cons_append, List.nil_append]
    rw [readString.eq_def]
    simp [escapes, List.lookup]
  split
  · subst_vars
    simp only [List.cons_append, List.nil_append]
    rw [readString.eq_def]
    simp [escapes, List.lookup]
  split
  · subst_vars
    simp only [List.cons_append, List.nil_append]
    rw [readString.eq_def]
    simp [escapes, List.lookup]
  split
  · subst_vars
    simp only [List.cons_append, List.nil_append]
    rw [readString.eq_def]
    simp [escapes, List.lookup]
  split
  · rename_i h
    obtain ⟨h1, h2⟩ := hu h
    have hb : b.toNat < 32 := hlt h
    have e : bs!"\\u00" = [#b'\\', #b'u', 48, 48] := rfl
    rw [e]
    simp only [List.cons_append, List.nil_append]
    rw [readString.eq_def]
    simp [h1, h2]
    omega
  · rename_i h1 h2 h3 h4 h5 h6 h7 h8
    simp only [List.cons_append, List.nil_append]
    rw [readString.eq_def]
    simp [h1, h2, h8]

theorem readString_write (s t : Bytes) : readString (s.flatMap escapeJson ++ #b'"' :: t) = some (s, t) := by
  induction s with
  | nil => rw [readString.eq_def]; simp
  | cons b s ih => rw [List.flatMap_cons, List.append_assoc, readString_escape, ih]; rfl

/-! ### Numbers -/

theorem digitByte_toNat : ∀ d, d < 10 → (UInt8.ofNat (48 + d)).toNat - 48 = d ∧ Rfc8259.isDigit (UInt8.ofNat (48 + d)) = true := by
  decide +kernel

theorem digitByte_zero : ∀ d, d < 10 → (UInt8.ofNat (48 + d) = 48 ↔ d = 0) := by decide +kernel

theorem decimalGo_value : ∀ g n, n ≤ g → (decimalGo g n).foldl (fun acc b => acc * 10 + (b.toNat - 48)) 0 = n
  | 0, n, h => by
    obtain rfl : n = 0 := by omega
    rfl
  | g + 1, n, h => by
    rw [decimalGo]
    split
    · simp only [List.foldl_cons, List.foldl_nil, Nat.zero_mul, Nat.zero_add]
      exact (digitByte_toNat n (by omega)).1
    · rw [List.foldl_append, decimalGo_value g _ (by omega)]
      simp only [List.foldl_cons, List.foldl_nil]
      rw [(digitByte_toNat _ (by omega)).1]
      omega

theorem decimalGo_digits : ∀ g n, (decimalGo g n).all Rfc8259.isDigit = true
  | 0, n => by
    simp only [decimalGo, List.all_cons, List.all_nil, Bool.and_true]
    exact (digitByte_toNat _ (Nat.mod_lt n (by omega))).2
  | g + 1, n => by
    rw [decimalGo]
    split
    · simp only [List.all_cons, List.all_nil, Bool.and_true]
      exact (digitByte_toNat n (by omega)).2
    · rw [List.all_append, decimalGo_digits g]
      simp only [List.all_cons, List.all_nil, Bool.and_true]
      exact (digitByte_toNat _ (Nat.mod_lt n (by omega))).2

theorem decimalGo_head : ∀ g n, n ≤ g → ∃ c r, decimalGo g n = c :: r ∧ (c = 48 → n = 0 ∧ r = [])
  | 0, n, h => by
    obtain rfl : n = 0 := by omega
    exact ⟨48, [], rfl, by simp⟩
  | g + 1, n, h => by
    rw [decimalGo]
    split
    · exact ⟨_, [], rfl, fun e => ⟨(digitByte_zero n (by omega)).mp e, rfl⟩⟩
    · obtain ⟨c, r, e, hc⟩ := decimalGo_head g (n / 10) (by omega)
      rw [e]
      refine ⟨c, r ++ _, rfl, fun h => ?_⟩
      have := (hc h).1
      omega

theorem takeWhile_all {p : Byte → Bool} : ∀ {a : Bytes}, a.all p = true → a.takeWhile p = a ∧ a.dropWhile p = []
  | [], _ => ⟨rfl, rfl⟩
  | b :: a, h => by
    simp only [List.all_cons, Bool.and_eq_true] at h
    obtain ⟨h1, h2⟩ := takeWhile_all h.2
    simp [h.1, h1, h2]

theorem readNumber_decimal (n : Nat) : readNumber (decimal n) = some (.int n) := by
  obtain ⟨c, r, e, hc⟩ := decimalGo_head n n (Nat.le_refl n)
  have hd := decimalGo_digits n n
  have hv := decimalGo_value n n (Nat.le_refl n)
  obtain ⟨h1, h2⟩ := takeWhile_all hd
  have hn : c ≠ 45 := by
    rintro rfl
    simp [e, Rfc8259.isDigit] at hd
  have hz : ¬(c = 48 ∧ ¬(c = 48 ∧ r = [])) := fun h => h.2 ⟨h.1, (hc h.1).2⟩
  unfold readNumber decimal
  simp only [e] at h1 h2 hv ⊢
  simp [hn, h1, h2, hv]
  exact fun h => ⟨h, (hc h).2⟩

theorem readNumber_negative (n : Nat) : readNumber (#b'-' :: decimal (n + 1)) = some (.int (.negSucc n)) := by
  obtain ⟨c, r, e, hc⟩ := decimalGo_head (n + 1) (n + 1) (Nat.le_refl _)
  have hd := decimalGo_digits (n + 1) (n + 1)
  have hv := decimalGo_value (n + 1) (n + 1) (Nat.le_refl _)
  obtain ⟨h1, h2⟩ := takeWhile_all hd
  unfold readNumber decimal
  simp only [e] at h1 h2 hv ⊢
  simp [h1, h2, hv]
  exact ⟨fun h => ⟨h, (hc h).2⟩, rfl⟩

theorem isAtom_of_isDigit : ∀ b : Byte, Rfc8259.isDigit b = true → isAtom b = true := by simp +contextual [isAtom]

theorem decimal_atoms (n : Nat) : (decimal n).all isAtom = true := by
  have := decimalGo_digits n n
  rw [List.all_eq_true] at this ⊢
  exact fun b hb => isAtom_of_isDigit b (this b hb)

theorem readAtom_decimal (n : Nat) : readAtom (decimal n) = some (.int n) := by
  have hd := decimalGo_digits n n
  unfold readAtom
  rw [readNumber_decimal]
  have key : ∀ s : Bytes, s.all Rfc8259.isDigit = false → decimal n ≠ s := by
    rintro s hs rfl
    rw [decimal, hd] at hs
    cases hs
  simp [key bs!"null" rfl, key bs!"true" rfl, key bs!"false" rfl]

theorem readAtom_negative (n : Nat) : readAtom (#b'-' :: decimal (n + 1)) = some (.int (.negSucc n)) := by
  unfold readAtom
  rw [readNumber_negative]
  simp

/-! ### Blanks -/

theorem skipSpace_blank : ∀ {w : Bytes} (s : Bytes), w.all Rfc8259.isSpace = true → skipSpace (w ++ s) = skipSpace s
  | [], _, _ => rfl
  | b :: w, s, h => by
    simp only [List.all_cons, Bool.and_eq_true] at h
    rw [← skipSpace_blank s h.2]
    simp [skipSpace, h.1]

theorem skipSpace_cons {c : Byte} (r : Bytes) (h : Rfc8259.isSpace c = false) : skipSpace (c :: r) = c :: r := by
  simp [skipSpace, h]

theorem breakLine_blank (p : Bool) (k : Nat) : (breakLine p k).all Rfc8259.isSpace = true := by
  unfold breakLine
  split
  · simp only [List.all_cons, List.all_replicate]
    simp [Rfc8259.isSpace]
  · rfl

theorem readValue_blank {w : Bytes} (n : Nat) (s : Bytes) (h : w.all Rfc8259.isSpace = true) :
    readValue n (w ++ s) = readValue n s := by
  cases n with
  | zero => rfl
  | succ n => rw [readValue, readValue, skipSpace_blank s h]

theorem readItems_blank {w : Bytes} (n : Nat) (s : Bytes) (h : w.all Rfc8259.isSpace = true) :
    readItems n (w ++ s) = readItems n s := by
  cases n with
  | zero => rfl
  | succ n => rw [readItems, readItems, readValue_blank n s h]

theorem readMembers_blank {w : Bytes} (n : Nat) (s : Bytes) (h : w.all Rfc8259.isSpace = true) :
    readMembers n (w ++ s) = readMembers n s := by
  cases n with
  | zero => rfl
  | succ n => rw [readMembers, readMembers, skipSpace_blank s h]

/-! ### Documents -/

section
variable [Floats] [hl : LawfulFloats]
set_option linter.unusedSectionVars false
set_option linter.unusedSimpArgs false

/-- What may follow a value. -/
def Ends (t : Bytes) : Prop := ∀ c r, t = c :: r → isAtom c = false

theorem takeWhile_append {p : Byte → Bool} : ∀ {a : Bytes} (t : Bytes), a.all p = true → (∀ c r, t = c :: r → p c = false) →
    (a ++ t).takeWhile p = a ∧ (a ++ t).dropWhile p = t
  | [], t, _, h => by
    cases t with
    | nil => exact ⟨rfl, rfl⟩
    | cons c r => simp [h c r rfl]
  | b :: a, t, h, h' => by
    simp only [List.all_cons, Bool.and_eq_true] at h
    obtain ⟨h1, h2⟩ := takeWhile_append t h.2 h'
    simp [h.1, h1, h2]

/-- A word or a number is read. -/
theorem readValue_atom {n : Nat} {a t : Bytes} {j : Json} (hn : a.length ≤ n) (ha : a.all isAtom = true) (hj : readAtom a = some j)
    (ht : Ends t) : readValue n (a ++ t) = some (j, t) := by
  cases a with
  | nil => cases hj
  | cons c r =>
    simp only [List.length_cons] at hn
    obtain ⟨n, rfl⟩ : ∃ m, n = m + 1 := ⟨n - 1, by omega⟩
    obtain ⟨h1, h2⟩ := takeWhile_append t ha ht
    simp only [List.all_cons, Bool.and_eq_true] at ha
    have hc : Rfc8259.isSpace c = false ∧ c ≠ #b'[' ∧ c ≠ #b'{' ∧ c ≠ #b'"' :=
      byte_forall (P := fun c => isAtom c = true → Rfc8259.isSpace c = false ∧ c ≠ #b'[' ∧ c ≠ #b'{' ∧ c ≠ #b'"')
        (by decide +kernel) c ha.1
    rw [readValue, List.cons_append, skipSpace_cons _ hc.1]
    simp only [List.cons_append] at h1 h2
    simp only [hc.2.1, hc.2.2.1, hc.2.2.2, if_false, h1, h2, hj, Option.map_some]

theorem readAtom_float (v : Bytes) (h : readNumber (Floats.text v) = some (.float (Floats.text v))) :
    readAtom (Floats.text v) = some (.float (Floats.text v)) := by
  unfold readAtom
  split
  · rename_i e; rw [e] at h; cases h
  split
  · rename_i e; rw [e] at h; cases h
  split
  · rename_i e; rw [e] at h; cases h
  exact h

theorem readValue_string (n : Nat) (s t : Bytes) : readValue (n + 1) (writeString s ++ t) = some (.str s, t) := by
  rw [readValue, writeString, List.cons_append, List.cons_append, skipSpace_cons _ (by decide)]
  simp [readString_write]

theorem chars_constant (l : String) : String.ofList (chars (constant l)) = l := by
  have : chars (constant l) = l.toList := chars_utf8 l.toList
  rw [this, String.ofList_toList]

theorem writeJson_head (p : Bool) (k : Nat) (j : Json) : ∃ c r, writeJson p k j = c :: r ∧ Rfc8259.isSpace c = false ∧ c ≠ #b']' := by
  have atom : ∀ c, isAtom c = true → Rfc8259.isSpace c = false ∧ c ≠ #b']' := fun c =>
    byte_forall (P := fun c => isAtom c = true → Rfc8259.isSpace c = false ∧ c ≠ #b']') (by decide +kernel) c
  match j with
  | .null => exact ⟨_, _, rfl, by decide, by decide⟩
  | .bool true => exact ⟨_, _, rfl, by decide, by decide⟩
  | .bool false => exact ⟨_, _, rfl, by decide, by decide⟩
  | .int (.ofNat n) =>
    obtain ⟨c, r, e, -⟩ := decimalGo_head n n (Nat.le_refl n)
    have := decimal_atoms n
    rw [decimal, e, List.all_cons, Bool.and_eq_true] at this
    exact ⟨c, r, e, atom c this.1⟩
  | .int (.negSucc n) => exact ⟨_, _, rfl, by decide, by decide⟩
  | .float v =>
    rw [writeJson]
    rcases hl.number v with h | ⟨h, ha⟩
    · rw [h]; exact ⟨_, _, rfl, by decide, by decide⟩
    · cases e : Floats.text v with
      | nil => rw [e] at h; cases h
      | cons c r =>
        rw [e, List.all_cons, Bool.and_eq_true] at ha
        exact ⟨c, r, rfl, atom c ha.1⟩
  | .str s => exact ⟨_, _, rfl, by decide, by decide⟩
  | .sym s => exact ⟨_, _, rfl, by decide, by decide⟩
  | .arr [] => exact ⟨_, _, rfl, by decide, by decide⟩
  | .arr (x :: xs) => exact ⟨_, _, rfl, by decide, by decide⟩
  | .obj [] => exact ⟨_, _, rfl, by decide, by decide⟩
  | .obj ((l, x) :: fs) => exact ⟨_, _, rfl, by decide, by decide⟩

theorem skip_break (p : Bool) (k : Nat) (c : Byte) (t : Bytes) (h : Rfc8259.isSpace c = false) :
    skipSpace (breakLine p k ++ c :: t) = c :: t := by
  rw [skipSpace_blank _ (breakLine_blank p k), skipSpace_cons _ h]

theorem ends_break (p : Bool) (k : Nat) (c : Byte) (t : Bytes) (h : isAtom c = false) : Ends (breakLine p k ++ c :: t) := by
  intro d r e
  cases p with
  | false => cases e; exact h
  | true => cases e; rfl

theorem ends_items (p : Bool) (k : Nat) (xs : List Json) (c : Byte) (t : Bytes) (h : isAtom c = false) :
    Ends (writeItems p k xs ++ (breakLine p k ++ c :: t)) := by
  cases xs with
  | nil => exact ends_break p k c t h
  | cons x xs => intro d r e; cases e; rfl

theorem ends_members (p : Bool) (k : Nat) (fs : List (String × Json)) (c : Byte) (t : Bytes) (h : isAtom c = false) :
    Ends (writeMembers p k fs ++ (breakLine p k ++ c :: t)) := by
  cases fs with
  | nil => exact ends_break p k c t h
  | cons x xs => intro d r e; cases x; cases e; rfl

/-- The member of an object, up to its value. -/
theorem readMembers_label (n : Nat) (p : Bool) (l : String) (x : Json) (s r : Bytes) (h : readValue n s = some (x, r)) :
    readMembers (n + 1) (writeString (constant l) ++ ((if p then bs!": " else bs!":") ++ s)) =
      (match skipSpace r with
      | [] => none
      | c :: r =>
        if c = #b'}' then some ([(l, x)], r)
        else if c = #b',' then (readMembers n r).map fun y => ((l, x) :: y.1, y.2)
        else none) := by
  have e : ((if p then bs!": " else bs!":") ++ s : Bytes) = #b':' :: ((if p then [#b' '] else []) ++ s) := by
    cases p <;> rfl
  have hb : (if p then [#b' '] else [] : Bytes).all Rfc8259.isSpace = true := by cases p <;> rfl
  rw [readMembers, writeString, List.cons_append, List.cons_append, skipSpace_cons _ (by decide), e]
  simp only [ne_eq, not_true, if_false, List.append_assoc, List.cons_append, List.nil_append, readString_write]
  rw [skipSpace_cons _ (by decide)]
  simp only [not_true, if_false, readValue_blank n s hb, h, chars_constant]
  cases skipSpace r <;> rfl

mutual
/-- The text of a document reads back. -/
theorem readValue_write (p : Bool) : ∀ (j : Json) (n k : Nat) (t : Bytes), (writeJson p k j).length ≤ n → Ends t →
    readValue n (writeJson p k j ++ t) = some (plain j, t)
  | .null, n, k, t, h, ht => readValue_atom h rfl rfl ht
  | .bool true, n, k, t, h, ht => readValue_atom h rfl rfl ht
  | .bool false, n, k, t, h, ht => readValue_atom h rfl rfl ht
  | .int (.ofNat m), n, k, t, h, ht => readValue_atom h (decimal_atoms m) (readAtom_decimal m) ht
  | .int (.negSucc m), n, k, t, h, ht => by
    refine readValue_atom h ?_ (readAtom_negative m) ht
    simp [writeJson, isAtom, decimal_atoms]
  | .float v, n, k, t, h, ht => by
    rw [writeJson] at h ⊢
    rw [plain]
    rcases hl.number v with e | ⟨e, ha⟩
    · rw [e] at h ⊢
      exact readValue_atom h rfl rfl ht
    · have hne : Floats.text v ≠ bs!"null" := by
        intro e'
        rw [e'] at e
        cases e
      rw [if_neg hne]
      exact readValue_atom h ha (readAtom_float v e) ht
  | .str s, n, k, t, h, ht => by
    obtain ⟨n, rfl⟩ : ∃ m, n = m + 1 := ⟨n - 1, by simp [writeJson, writeString] at h; omega⟩
    exact readValue_string n s t
  | .sym s, n, k, t, h, ht => by
    obtain ⟨n, rfl⟩ : ∃ m, n = m + 1 := ⟨n - 1, by simp [writeJson, writeString] at h; omega⟩
    exact readValue_string n _ t
  | .arr [], n, k, t, h, ht => by
    obtain ⟨n, rfl⟩ : ∃ m, n = m + 1 := ⟨n - 1, by simp [writeJson] at h; omega⟩
    rfl
  | .arr (x :: xs), n, k, t, h, ht => by
    obtain ⟨n, rfl⟩ : ∃ m, n = m + 1 := ⟨n - 1, by simp [writeJson] at h; omega⟩
    have hi := readItems_write p x xs n k t (by simp [writeJson] at h; omega)
    obtain ⟨c, r, e, h1, h2⟩ := writeJson_head p (k + 1) x
    rw [readValue, writeJson]
    simp only [List.cons_append, List.append_assoc, List.nil_append]
    rw [skipSpace_cons _ (by decide)]
    simp only [if_true, skipSpace_blank _ (breakLine_blank p (k + 1)), readItems_blank _ _ (breakLine_blank p (k + 1)), hi,
      Option.map_some]
    rw [if_neg]
    · rfl
    · rw [e, List.cons_append, skipSpace_cons _ h1]
      simp [h2]
  | .obj [], n, k, t, h, ht => by
    obtain ⟨n, rfl⟩ : ∃ m, n = m + 1 := ⟨n - 1, by simp [writeJson] at h; omega⟩
    rfl
  | .obj ((l, x) :: fs), n, k, t, h, ht => by
    obtain ⟨n, rfl⟩ : ∃ m, n = m + 1 := ⟨n - 1, by simp [writeJson] at h; omega⟩
    have hi := readMembers_write p l x fs n k t (by simp [writeJson] at h ⊢; omega)
    rw [readValue, writeJson]
    simp only [List.cons_append, List.append_assoc, List.nil_append]
    rw [skipSpace_cons _ (by decide)]
    simp only [skipSpace_blank _ (breakLine_blank p (k + 1)), readMembers_blank _ _ (breakLine_blank p (k + 1)), hi,
      Option.map_some]
    rw [if_neg (by decide), if_pos trivial, if_neg]
    · rfl
    · rw [writeString, List.cons_append, List.cons_append, skipSpace_cons _ (by decide)]
      simp
termination_by j => sizeOf j
/-- The same for the elements of an array. -/
theorem readItems_write (p : Bool) : ∀ (x : Json) (xs : List Json) (n k : Nat) (t : Bytes),
    (writeJson p (k + 1) x).length + (writeItems p k xs).length + 1 ≤ n →
    readItems n (writeJson p (k + 1) x ++ (writeItems p k xs ++ (breakLine p k ++ #b']' :: t))) = some (plain x :: plainAll xs, t)
  | x, [], n, k, t, h => by
    obtain ⟨n, rfl⟩ : ∃ m, n = m + 1 := ⟨n - 1, by omega⟩
    rw [readItems, readValue_write p x n (k + 1) _ (by omega) (ends_items p k [] _ t (by decide))]
    simp only [writeItems, List.nil_append, skip_break p k _ t (by decide : Rfc8259.isSpace #b']' = false)]
    rfl
  | x, y :: ys, n, k, t, h => by
    obtain ⟨n, rfl⟩ : ∃ m, n = m + 1 := ⟨n - 1, by omega⟩
    have hi := readItems_write p y ys n k t (by simp [writeItems] at h; omega)
    rw [readItems, readValue_write p x n (k + 1) _ (by omega) (ends_items p k (y :: ys) _ t (by decide))]
    simp only [writeItems, List.cons_append, List.append_assoc]
    rw [skipSpace_cons _ (by decide)]
    simp only [readItems_blank _ _ (breakLine_blank p (k + 1)), hi]
    rfl
termination_by x xs => sizeOf x + sizeOf xs
/-- The same for the members of an object. -/
theorem readMembers_write (p : Bool) : ∀ (l : String) (x : Json) (fs : List (String × Json)) (n k : Nat) (t : Bytes),
    (writeJson p (k + 1) x).length + (writeMembers p k fs).length + 1 ≤ n →
    readMembers n (writeString (constant l) ++ ((if p then bs!": " else bs!":") ++ (writeJson p (k + 1) x ++
      (writeMembers p k fs ++ (breakLine p k ++ #b'}' :: t))))) = some ((l, plain x) :: plainFields fs, t)
  | l, x, [], n, k, t, h => by
    obtain ⟨n, rfl⟩ : ∃ m, n = m + 1 := ⟨n - 1, by omega⟩
    rw [readMembers_label n p l _ _ _ (readValue_write p x n (k + 1) _ (by omega) (ends_members p k [] _ t (by decide)))]
    simp only [writeMembers, List.nil_append, skip_break p k _ t (by decide : Rfc8259.isSpace #b'}' = false)]
    rfl
  | l, x, (l', y) :: fs, n, k, t, h => by
    obtain ⟨n, rfl⟩ : ∃ m, n = m + 1 := ⟨n - 1, by omega⟩
    have hi := readMembers_write p l' y fs n k t (by simp [writeMembers] at h; omega)
    rw [readMembers_label n p l _ _ _
      (readValue_write p x n (k + 1) _ (by omega) (ends_members p k ((l', y) :: fs) _ t (by decide)))]
    simp only [writeMembers, List.cons_append, List.append_assoc]
    rw [skipSpace_cons _ (by decide)]
    simp only [readMembers_blank _ _ (breakLine_blank p (k + 1)), hi]
    rfl
termination_by _ x xs => sizeOf x + sizeOf xs
end

end

end Ratel
