import Verif.Lemmas.DebugShape
/-! The text of a dump can be read in one way only. -/
namespace Ratel
open Spec

/-- The longest run of characters of a kind is determined. -/
theorem run_unique {p : Char → Bool} : ∀ {a a' t t' : List Char}, a.all p = true → a'.all p = true →
    (∀ c r, t = c :: r → p c = false) → (∀ c r, t' = c :: r → p c = false) → a ++ t = a' ++ t' → a = a' ∧ t = t'
  | [], [], t, t', _, _, _, _, h => ⟨rfl, h⟩
  | [], b :: a', t, t', _, h2, h3, _, h => by
    have := h3 b _ h
    simp [this] at h2
  | a :: as, [], t, t', h1, _, _, h4, h => by
    have := h4 a _ h.symm
    simp [this] at h1
  | a :: as, b :: bs, t, t', h1, h2, h3, h4, h => by
    simp only [List.cons_append, List.cons.injEq] at h
    simp only [List.all_cons, Bool.and_eq_true] at h1 h2
    obtain ⟨e1, e2⟩ := run_unique h1.2 h2.2 h3 h4 h.2
    exact ⟨by rw [h.1, e1], e2⟩

/-! ### Numbers -/

/-- Value of a digit. -/
def charValue (c : Char) : Nat := if c.toNat < 58 then c.toNat - 48 else c.toNat - 87

theorem charValue_digitChar : ∀ d : Nat, d < 16 → charValue (digitChar d) = d := by decide +kernel

theorem showNatGo_value (b : Nat) (hb : 2 ≤ b) (hb' : b ≤ 16) :
    ∀ g n, n ≤ g → (showNatGo b g n).foldl (fun acc c => acc * b + charValue c) 0 = n
  | 0, n, h => by
    obtain rfl : n = 0 := by omega
    simp [showNatGo, charValue_digitChar]
  | g + 1, n, h => by
    rw [showNatGo]
    split
    · simp only [List.foldl_cons, List.foldl_nil, Nat.zero_mul, Nat.zero_add]
      exact charValue_digitChar n (by omega)
    · have hd : n / b < n := Nat.div_lt_self (by omega) (by omega)
      rw [List.foldl_append, showNatGo_value b hb hb' g _ (by omega)]
      simp only [List.foldl_cons, List.foldl_nil]
      have hm : n % b < b := Nat.mod_lt _ (by omega)
      rw [charValue_digitChar _ (by omega)]
      have := Nat.div_add_mod n b
      rw [Nat.mul_comm] at this
      exact this

theorem showNat_value (b : Nat) (hb : 2 ≤ b) (hb' : b ≤ 16) (n : Nat) :
    (showNat b n).foldl (fun acc c => acc * b + charValue c) 0 = n := showNatGo_value b hb hb' n n (Nat.le_refl n)

theorem showNat_injective {b n m : Nat} (hb : 2 ≤ b) (hb' : b ≤ 16) (h : showNat b n = showNat b m) : n = m := by
  rw [← showNat_value b hb hb' n, h, showNat_value b hb hb']

theorem showNatGo_all {p : Char → Bool} (b : Nat) (hb : 2 ≤ b) (hp : ∀ d, d < b → p (digitChar d) = true) :
    ∀ g n, (showNatGo b g n).all p = true
  | 0, n => by simp [showNatGo, hp _ (Nat.mod_lt n (by omega))]
  | g + 1, n => by
    rw [showNatGo]
    split
    · simp [hp n (by omega)]
    · rw [List.all_append, showNatGo_all b hb hp g]
      simp [hp _ (Nat.mod_lt n (by omega))]

theorem showNat_all {p : Char → Bool} (b : Nat) (hb : 2 ≤ b) (hp : ∀ d, d < b → p (digitChar d) = true) (n : Nat) :
    (showNat b n).all p = true := showNatGo_all b hb hp n n

theorem showNat_ne (b n : Nat) : showNat b n ≠ [] := by
  cases n with
  | zero => simp [showNat, showNatGo]
  | succ n =>
    rw [showNat, showNatGo]
    split <;> simp

/-! ### Strings -/

section
variable [Printing]

/-- Characters with an escape of their own. -/
def escapeTable : List (Char × Char) :=
  [('\x00', '0'), ('\t', 't'), ('\r', 'r'), ('\n', 'n'), ('\\', '\\'), ('"', '"')]

theorem escapeDebug_cases (c : Char) :
    (∃ k, (c, k) ∈ escapeTable ∧ escapeDebug c = ['\\', k]) ∨
    escapeDebug c = '\\' :: 'u' :: '{' :: (showNat 16 c.toNat ++ ['}']) ∨
    (escapeDebug c = [c] ∧ c ≠ '\\' ∧ c ≠ '"') := by
  unfold escapeDebug
  split
  · exact .inl ⟨'0', by simp [escapeTable, *], rfl⟩
  split
  · exact .inl ⟨'t', by simp [escapeTable, *], rfl⟩
  split
  · exact .inl ⟨'r', by simp [escapeTable, *], rfl⟩
  split
  · exact .inl ⟨'n', by simp [escapeTable, *], rfl⟩
  split
  · exact .inl ⟨'\\', by simp [escapeTable, *], rfl⟩
  split
  · exact .inl ⟨'"', by simp [escapeTable, *], rfl⟩
  split
  · exact .inr (.inl rfl)
  · exact .inr (.inr ⟨rfl, ‹_›, ‹_›⟩)

omit [Printing] in
theorem escapeTable_unique : ∀ p ∈ escapeTable, ∀ q ∈ escapeTable, p.2 = q.2 → p.1 = q.1 := by decide +kernel
omit [Printing] in
theorem escapeTable_u : ∀ p ∈ escapeTable, p.2 ≠ 'u' := by decide +kernel

theorem escapeDebug_unique {c d : Char} {x y : List Char} (h : escapeDebug c ++ x = escapeDebug d ++ y) : c = d ∧ x = y := by
  rcases escapeDebug_cases c with ⟨k, hk, e⟩ | e | ⟨e, e1, e2⟩ <;>
    rcases escapeDebug_cases d with ⟨k', hk', e'⟩ | e' | ⟨e', e1', e2'⟩ <;> rw [e, e'] at h <;>
    simp only [List.cons_append, List.nil_append, List.append_assoc, List.cons.injEq, true_and] at h
  · exact ⟨escapeTable_unique _ hk _ hk' h.1, h.2⟩
  · exact absurd h.1 (escapeTable_u _ hk)
  · exact absurd h.1.symm e1'
  · exact absurd h.1.symm (escapeTable_u _ hk')
  · have := run_unique (p := fun c => c != '}') (showNat_all 16 (by omega) (by decide +kernel) _)
      (showNat_all 16 (by omega) (by decide +kernel) _) (by simp) (by simp) h
    exact ⟨Char.toNat_inj.mp (showNat_injective (by omega) (by omega) this.1), by simpa using this.2⟩
  · exact absurd h.1.symm e1'
  · exact absurd h.1 e1
  · exact absurd h.1 e1
  · exact h

theorem escapeDebug_quote (c : Char) (x y : List Char) : escapeDebug c ++ x ≠ '"' :: y := by
  intro h
  rcases escapeDebug_cases c with ⟨k, hk, e⟩ | e | ⟨e, e1, e2⟩ <;> rw [e] at h <;> simp at h
  exact e2 h.1

theorem escapeAll_unique : ∀ {cs ds x y : List Char}, cs.flatMap escapeDebug ++ '"' :: x = ds.flatMap escapeDebug ++ '"' :: y →
    cs = ds ∧ x = y
  | [], [], x, y, h => by simpa using h
  | [], d :: ds, x, y, h => by
    simp only [List.flatMap_nil, List.nil_append, List.flatMap_cons, List.append_assoc] at h
    exact absurd h.symm (escapeDebug_quote _ _ _)
  | c :: cs, [], x, y, h => by
    simp only [List.flatMap_nil, List.nil_append, List.flatMap_cons, List.append_assoc] at h
    exact absurd h (escapeDebug_quote _ _ _)
  | c :: cs, d :: ds, x, y, h => by
    simp only [List.flatMap_cons, List.append_assoc] at h
    obtain ⟨e, h⟩ := escapeDebug_unique h
    obtain ⟨e', h⟩ := escapeAll_unique h
    exact ⟨by rw [e, e'], h⟩

/-! ### Builders -/

/-- The end of a builder. -/
def closer (pretty : Bool) (k : Nat) (b : Char) : List Char :=
  if pretty then padding k ++ [b] else if b = '}' then [' ', '}'] else [b]

/-- What may follow a dump. -/
def DumpTail (t : List Char) : Prop :=
  t = [] ∨ (∃ c r, t = c :: r ∧ (c = ',' ∨ c = ')' ∨ c = ']' ∨ c = '\n')) ∨ ∃ r, t = ' ' :: '}' :: r

/-- What a dump begins with. -/
def charKind (c : Char) : Nat :=
  if c.isAlpha then 0 else if c.isDigit then 1 else if c = '"' then 2 else if c = '[' then 3 else 4

/-- What a dump begins with. -/
def Dbg.kind : Dbg → Nat
  | .num _ => 1
  | .str _ => 2
  | .list _ => 3
  | _ => 0

theorem render_struct (pretty : Bool) (k : Nat) (n : String) {fs : DbgItems} (h : fs.filled = true) :
    (Dbg.struct n fs).render pretty k =
      n.toList ++ ((if pretty then [' ', '{', '\n'] else [' ', '{', ' ']) ++ fs.render pretty k true ++ closer pretty k '}') := by
  cases fs with
  | nil => simp [DbgItems.filled] at h
  | cons l d r => simp [Dbg.render, closer]

theorem render_tuple (pretty : Bool) (k : Nat) (n : String) {fs : DbgItems} (h : fs.filled = true) :
    (Dbg.tuple n fs).render pretty k =
      n.toList ++ ((if pretty then ['(', '\n'] else ['(']) ++ fs.render pretty k true ++ closer pretty k ')') := by
  cases fs with
  | nil => simp [DbgItems.filled] at h
  | cons l d r => simp [Dbg.render, closer]

theorem render_list (pretty : Bool) (k : Nat) {fs : DbgItems} (h : fs.filled = true) :
    (Dbg.list fs).render pretty k =
      (if pretty then ['[', '\n'] else ['[']) ++ fs.render pretty k true ++ closer pretty k ']' := by
  cases fs with
  | nil => simp [DbgItems.filled] at h
  | cons l d r => simp [Dbg.render, closer]

omit [Printing] in
theorem isTypeName_head {n : String} (h : isTypeName n = true) : ∃ c r, n.toList = c :: r ∧ charKind c = 0 := by
  simp only [isTypeName, Bool.and_eq_true] at h
  cases hn : n.toList with
  | nil => simp [hn] at h
  | cons c r =>
    simp only [hn, List.all_cons, Bool.and_eq_true] at h
    exact ⟨c, r, rfl, by simp [charKind, h.2.1]⟩

omit [Printing] in
theorem showNat_head (n : Nat) : ∃ c r, showNat 10 n = c :: r ∧ charKind c = 1 := by
  have h := showNat_all (p := fun c => charKind c == 1) 10 (by omega) (by decide +kernel) n
  cases hn : showNat 10 n with
  | nil => exact absurd hn (showNat_ne _ _)
  | cons c r =>
    simp only [hn, List.all_cons, Bool.and_eq_true, beq_iff_eq] at h
    exact ⟨c, r, rfl, h.1⟩

theorem Dbg.render_head (pretty : Bool) (k : Nat) (d : Dbg) (h : d.shaped = true) :
    ∃ c r, d.render pretty k = c :: r ∧ charKind c = d.kind := by
  cases d with
  | word s => exact isTypeName_head h
  | num n => exact showNat_head n
  | str s => exact ⟨'"', _, rfl, rfl⟩
  | struct n fs =>
    simp only [Dbg.shaped, Bool.and_eq_true] at h
    obtain ⟨c, r, e, hc⟩ := isTypeName_head h.1.1
    rw [render_struct _ _ _ h.1.2, e]
    exact ⟨c, _, rfl, hc⟩
  | tuple n fs =>
    simp only [Dbg.shaped, Bool.and_eq_true] at h
    obtain ⟨c, r, e, hc⟩ := isTypeName_head h.1.1
    rw [render_tuple _ _ _ h.1.2, e]
    exact ⟨c, _, rfl, hc⟩
  | list fs =>
    cases fs with
    | nil => exact ⟨'[', _, rfl, by decide +kernel⟩
    | cons l d r =>
      rw [render_list _ _ rfl]
      cases pretty <;> exact ⟨'[', _, rfl, rfl⟩

omit [Printing] in
theorem DumpTail.not {p : Char → Bool} {t : List Char} (h : DumpTail t) (hp : ∀ c ∈ [',', ')', ']', '\n', ' '], p c = false) :
    ∀ c r, t = c :: r → p c = false := by
  rintro c r rfl
  rcases h with h | ⟨c', r', h, hc⟩ | ⟨r', h⟩
  · cases h
  · cases h
    rcases hc with rfl | rfl | rfl | rfl <;> exact hp _ (by simp)
  · cases h
    exact hp _ (by simp)

omit [Printing] in
theorem DumpTail.no_struct {pretty : Bool} {t x : List Char} (h : DumpTail t)
    (e : t = (if pretty then [' ', '{', '\n'] else [' ', '{', ' ']) ++ x) : False := by
  rcases h with rfl | ⟨c', r', rfl, hc⟩ | ⟨r', rfl⟩
  · cases pretty <;> simp at e
  · rcases hc with rfl | rfl | rfl | rfl <;> cases pretty <;> simp at e
  · cases pretty <;> simp at e

omit [Printing] in
theorem DumpTail.no_tuple {pretty : Bool} {t x : List Char} (h : DumpTail t)
    (e : t = (if pretty then ['(', '\n'] else ['(']) ++ x) : False := by
  rcases h with rfl | ⟨c', r', rfl, hc⟩ | ⟨r', rfl⟩
  · cases pretty <;> simp at e
  · rcases hc with rfl | rfl | rfl | rfl <;> cases pretty <;> simp at e
  · cases pretty <;> simp at e

omit [Printing] in
theorem typeName_unique {n n' : String} {t t' : List Char} (h : isTypeName n = true) (h' : isTypeName n' = true)
    (ht : ∀ c r, t = c :: r → c.isAlpha = false) (ht' : ∀ c r, t' = c :: r → c.isAlpha = false)
    (e : n.toList ++ t = n'.toList ++ t') : n = n' ∧ t = t' := by
  simp only [isTypeName, Bool.and_eq_true] at h h'
  have := run_unique h.2 h'.2 ht ht' e
  exact ⟨String.toList_inj.mp this.1, this.2⟩

omit [Printing] in
theorem closer_tail (b : Char) (hb : b = '}' ∨ b = ')' ∨ b = ']') (k : Nat) (t : List Char) : DumpTail (closer false k b ++ t) := by
  rcases hb with rfl | rfl | rfl
  · exact .inr (.inr ⟨t, rfl⟩)
  · exact .inr (.inl ⟨')', t, rfl, by simp⟩)
  · exact .inr (.inl ⟨']', t, rfl, by simp⟩)

/-- What follows a field. -/
theorem rest_tail (pretty : Bool) (k : Nat) (b : Char) (hb : b = '}' ∨ b = ')' ∨ b = ']') (r : DbgItems) (t : List Char) :
    DumpTail ((if pretty then [',', '\n'] else []) ++ (r.render pretty k false ++ (closer pretty k b ++ t))) := by
  cases pretty with
  | true => exact .inr (.inl ⟨',', _, rfl, by simp⟩)
  | false =>
    cases r with
    | nil => exact closer_tail b hb k t
    | cons l d r => exact .inr (.inl ⟨',', _, rfl, by simp⟩)

omit [Printing] in
/-- A further field does not look like the end. -/
theorem closer_ne (pretty : Bool) (k : Nat) (b : Char) (hb : b = '}' ∨ b = ')' ∨ b = ']') (t x : List Char) :
    closer pretty k b ++ t ≠ (if pretty then padding (k + 1) else [',', ' ']) ++ x := by
  intro h
  cases pretty with
  | true =>
    have e : padding (k + 1) = padding k ++ [' ', ' ', ' ', ' '] := by
      exact List.replicate_append_replicate.symm
    simp only [closer, if_true, e, List.append_assoc, List.append_cancel_left_eq, List.cons_append, List.nil_append,
      List.cons.injEq] at h
    rcases hb with rfl | rfl | rfl <;> simp at h
  | false => rcases hb with rfl | rfl | rfl <;> simp [closer] at h

mutual
/-- A dump is determined by its text. -/
theorem Dbg.render_unique (pretty : Bool) (k : Nat) : ∀ (d d' : Dbg) (t t' : List Char),
    d.shaped = true → d'.shaped = true → d.sound = true → d'.sound = true → DumpTail t → DumpTail t' →
    d.render pretty k ++ t = d'.render pretty k ++ t' → d = d' ∧ t = t'
  | d, d', t, t', h, h', hs, hs', ht, ht', e => by
    have hk : d.kind = d'.kind := by
      obtain ⟨c, r, e1, e2⟩ := Dbg.render_head pretty k d h
      obtain ⟨c', r', e1', e2'⟩ := Dbg.render_head pretty k d' h'
      rw [e1, e1'] at e
      simp only [List.cons_append, List.cons.injEq] at e
      rw [← e2, ← e2', e.1]
    have hta : ∀ c r, t = c :: r → c.isAlpha = false := ht.not (by decide +kernel)
    have hta' : ∀ c r, t' = c :: r → c.isAlpha = false := ht'.not (by decide +kernel)
    match d, d' with
    | .num n, .num n' =>
      have := run_unique (p := Char.isDigit) (showNat_all 10 (by omega) (by decide +kernel) n)
        (showNat_all 10 (by omega) (by decide +kernel) n') (ht.not (by decide +kernel)) (ht'.not (by decide +kernel)) e
      exact ⟨by rw [showNat_injective (by omega) (by omega) this.1], this.2⟩
    | .str s, .str s' =>
      simp only [Dbg.render, List.cons_append, List.append_assoc, List.nil_append, List.cons.injEq, true_and] at e
      obtain ⟨e1, e2⟩ := escapeAll_unique e
      simp only [Dbg.sound, decide_eq_true_eq] at hs hs'
      exact ⟨by rw [hs, hs', e1], e2⟩
    | .word n, .word n' =>
      have := typeName_unique h h' hta hta' e
      exact ⟨by rw [this.1], this.2⟩
    | .word n, .struct n' fs' =>
      simp only [Dbg.shaped, Bool.and_eq_true] at h'
      rw [render_struct _ _ _ h'.1.2] at e
      simp only [List.append_assoc] at e
      have := typeName_unique h h'.1.1 hta (by intro c r hc; cases pretty <;> cases hc <;> rfl) e
      exact (ht.no_struct this.2).elim
    | .word n, .tuple n' fs' =>
      simp only [Dbg.shaped, Bool.and_eq_true] at h'
      rw [render_tuple _ _ _ h'.1.2] at e
      simp only [List.append_assoc] at e
      have := typeName_unique h h'.1.1 hta (by intro c r hc; cases pretty <;> cases hc <;> rfl) e
      exact (ht.no_tuple this.2).elim
    | .struct n fs, .word n' =>
      simp only [Dbg.shaped, Bool.and_eq_true] at h
      rw [render_struct _ _ _ h.1.2] at e
      simp only [List.append_assoc] at e
      have := typeName_unique h.1.1 h' (by intro c r hc; cases pretty <;> cases hc <;> rfl) hta' e
      exact (ht'.no_struct this.2.symm).elim
    | .tuple n fs, .word n' =>
      simp only [Dbg.shaped, Bool.and_eq_true] at h
      rw [render_tuple _ _ _ h.1.2] at e
      simp only [List.append_assoc] at e
      have := typeName_unique h.1.1 h' (by intro c r hc; cases pretty <;> cases hc <;> rfl) hta' e
      exact (ht'.no_tuple this.2.symm).elim
    | .struct n fs, .struct n' fs' =>
      simp only [Dbg.shaped, Bool.and_eq_true] at h h'
      rw [render_struct _ _ _ h.1.2, render_struct _ _ _ h'.1.2] at e
      simp only [List.append_assoc] at e
      have := typeName_unique h.1.1 h'.1.1 (by intro c r hc; cases pretty <;> cases hc <;> rfl)
        (by intro c r hc; cases pretty <;> cases hc <;> rfl) e
      have e' := this.2
      simp only [List.append_cancel_left_eq] at e'
      have := DbgItems.render_unique pretty k true true '}' (.inl rfl) fs fs' t t' h.2 h'.2 hs hs' (fun _ => ⟨h.1.2, h'.1.2⟩) e'
      exact ⟨by rw [‹n = n' ∧ _›.1, this.1], this.2⟩
    | .tuple n fs, .tuple n' fs' =>
      simp only [Dbg.shaped, Bool.and_eq_true] at h h'
      rw [render_tuple _ _ _ h.1.2, render_tuple _ _ _ h'.1.2] at e
      simp only [List.append_assoc] at e
      have := typeName_unique h.1.1 h'.1.1 (by intro c r hc; cases pretty <;> cases hc <;> rfl)
        (by intro c r hc; cases pretty <;> cases hc <;> rfl) e
      have e' := this.2
      simp only [List.append_cancel_left_eq] at e'
      have := DbgItems.render_unique pretty k true false ')' (.inr (.inl rfl)) fs fs' t t' h.2 h'.2 hs hs'
        (fun _ => ⟨h.1.2, h'.1.2⟩) e'
      exact ⟨by rw [‹n = n' ∧ _›.1, this.1], this.2⟩
    | .struct n fs, .tuple n' fs' =>
      simp only [Dbg.shaped, Bool.and_eq_true] at h h'
      rw [render_struct _ _ _ h.1.2, render_tuple _ _ _ h'.1.2] at e
      simp only [List.append_assoc] at e
      have := typeName_unique h.1.1 h'.1.1 (by intro c r hc; cases pretty <;> cases hc <;> rfl)
        (by intro c r hc; cases pretty <;> cases hc <;> rfl) e
      cases pretty <;> simp at this
    | .tuple n fs, .struct n' fs' =>
      simp only [Dbg.shaped, Bool.and_eq_true] at h h'
      rw [render_tuple _ _ _ h.1.2, render_struct _ _ _ h'.1.2] at e
      simp only [List.append_assoc] at e
      have := typeName_unique h.1.1 h'.1.1 (by intro c r hc; cases pretty <;> cases hc <;> rfl)
        (by intro c r hc; cases pretty <;> cases hc <;> rfl) e
      cases pretty <;> simp at this
    | .list .nil, .list .nil => exact ⟨rfl, by simpa [Dbg.render] using e⟩
    | .list .nil, .list (.cons l d r) =>
      exfalso
      rw [render_list _ _ (fs := .cons l d r) rfl] at e
      cases pretty with
      | true => simp [Dbg.render] at e
      | false =>
        simp only [Dbg.shaped, DbgItems.shaped, Bool.and_eq_true, Bool.false_eq_true, if_false, decide_eq_true_eq] at h'
        obtain ⟨c, r', e1, e2⟩ := Dbg.render_head false (k + 1) d h'.1.2
        simp [Dbg.render, DbgItems.render, labelText, h'.1.1, e1] at e
        rw [← e.1] at e2
        cases d <;> cases e2
    | .list (.cons l d r), .list .nil =>
      exfalso
      rw [render_list _ _ (fs := .cons l d r) rfl] at e
      cases pretty with
      | true => simp [Dbg.render] at e
      | false =>
        simp only [Dbg.shaped, DbgItems.shaped, Bool.and_eq_true, Bool.false_eq_true, if_false, decide_eq_true_eq] at h
        obtain ⟨c, r', e1, e2⟩ := Dbg.render_head false (k + 1) d h.1.2
        simp [Dbg.render, DbgItems.render, labelText, h.1.1, e1] at e
        rw [e.1] at e2
        cases d <;> cases e2
    | .list (.cons l d r), .list (.cons l' d' r') =>
      rw [render_list _ _ rfl, render_list _ _ rfl] at e
      simp only [List.append_assoc, List.append_cancel_left_eq] at e
      have := DbgItems.render_unique pretty k true false ']' (.inr (.inr rfl)) (.cons l d r) (.cons l' d' r') t t' h h' hs hs'
        (fun _ => ⟨rfl, rfl⟩) e
      exact ⟨by rw [this.1], this.2⟩
    | .num _, .str _ | .num _, .word _ | .num _, .struct .. | .num _, .tuple .. | .num _, .list _
    | .str _, .num _ | .str _, .word _ | .str _, .struct .. | .str _, .tuple .. | .str _, .list _
    | .list _, .num _ | .list _, .word _ | .list _, .struct .. | .list _, .tuple .. | .list _, .str _
    | .word _, .num _ | .word _, .str _ | .word _, .list _
    | .struct .., .num _ | .struct .., .str _ | .struct .., .list _
    | .tuple .., .num _ | .tuple .., .str _ | .tuple .., .list _ => simp [Dbg.kind] at hk
/-- The same for fields and entries. -/
theorem DbgItems.render_unique (pretty : Bool) (k : Nat) (first lab : Bool) (b : Char) (hb : b = '}' ∨ b = ')' ∨ b = ']') :
    ∀ (fs fs' : DbgItems) (t t' : List Char),
    fs.shaped lab = true → fs'.shaped lab = true → fs.sound = true → fs'.sound = true →
    (first = true → fs.filled = true ∧ fs'.filled = true) →
    fs.render pretty k first ++ (closer pretty k b ++ t) = fs'.render pretty k first ++ (closer pretty k b ++ t') →
    fs = fs' ∧ t = t'
  | .nil, .nil, t, t', _, _, _, _, _, e => by simpa [DbgItems.render] using e
  | .nil, .cons l d r, t, t', _, _, _, _, hf, e => by
    cases first with
    | true => exact absurd (hf rfl).1 (by simp [DbgItems.filled])
    | false =>
      simp only [DbgItems.render, List.nil_append, List.append_assoc, Bool.false_eq_true, if_false] at e
      exact absurd e (closer_ne _ _ _ hb _ _)
  | .cons l d r, .nil, t, t', _, _, _, _, hf, e => by
    cases first with
    | true => exact absurd (hf rfl).2 (by simp [DbgItems.filled])
    | false =>
      simp only [DbgItems.render, List.nil_append, List.append_assoc, Bool.false_eq_true, if_false] at e
      exact absurd e.symm (closer_ne _ _ _ hb _ _)
  | .cons l d r, .cons l' d' r', t, t', h, h', hs, hs', hf, e => by
    simp only [DbgItems.render, List.append_assoc, List.append_cancel_left_eq] at e
    simp only [DbgItems.shaped, Bool.and_eq_true] at h h'
    simp only [DbgItems.sound, Bool.and_eq_true] at hs hs'
    have hl : l = l' ∧ d.render pretty (k + 1) ++ ((if pretty then [',', '\n'] else []) ++
        (r.render pretty k false ++ (closer pretty k b ++ t))) =
        d'.render pretty (k + 1) ++ ((if pretty then [',', '\n'] else []) ++
        (r'.render pretty k false ++ (closer pretty k b ++ t'))) := by
      cases lab with
      | false =>
        simp only [Bool.false_eq_true, if_false, decide_eq_true_eq] at h h'
        refine ⟨by rw [h.1.1, h'.1.1], ?_⟩
        simpa [labelText, h.1.1, h'.1.1] using e
      | true =>
        simp only [if_true, isFieldName, Bool.and_eq_true, decide_eq_true_eq] at h h'
        simp only [labelText, h.1.1.1, h'.1.1.1, if_false, List.append_assoc] at e
        have := run_unique h.1.1.2 h'.1.1.2 (by simp) (by simp) e
        exact ⟨String.toList_inj.mp this.1, by simpa using this.2⟩
    obtain ⟨e1, e2⟩ := Dbg.render_unique pretty (k + 1) d d' _ _ h.1.2 h'.1.2 hs.1 hs'.1 (rest_tail _ _ _ hb _ _)
      (rest_tail _ _ _ hb _ _) hl.2
    simp only [List.append_cancel_left_eq] at e2
    obtain ⟨e3, e4⟩ := DbgItems.render_unique pretty k false lab b hb r r' t t' h.2 h'.2 hs.2 hs'.2 (by simp) e2
    exact ⟨by rw [hl.1, e1, e3], e4⟩
end

end

end Ratel
