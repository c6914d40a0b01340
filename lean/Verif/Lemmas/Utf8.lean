import Verif.Spec.Utf8
import Verif.Lemmas.Lexer
/-! Valid UTF-8 and its character boundaries. -/
namespace Ratel
open Spec

/-- Continuation bytes. -/
abbrev cont (b : Byte) : Bool := Lex.isCont b

theorem ofNat_toNat {n : Nat} (h : n < 256) : (UInt8.ofNat n).toNat = n := by
  simp [UInt8.toNat_ofNat', Nat.mod_eq_of_lt h]

theorem cont_ofNat {n : Nat} : Lex.isCont (UInt8.ofNat (n % 64 + 128)) = true := by
  have h : (UInt8.ofNat (n % 64 + 128)).toNat = n % 64 + 128 := ofNat_toNat (by omega)
  simp only [Lex.isCont, Bool.and_eq_true, decide_eq_true_eq, UInt8.le_iff_toNat_le, UInt8.lt_iff_toNat_lt, h]
  have h1 : (0x80 : UInt8).toNat = 128 := rfl
  have h2 : (0xC0 : UInt8).toNat = 192 := rfl
  omega

/-- The encoding of a character: a first byte that is not a continuation byte, and continuation bytes; ASCII
characters have none. -/
theorem encode_shape (c : Char) : ∃ b r, String.utf8EncodeChar c = b :: r ∧ Lex.isCont b = false ∧ (∀ x ∈ r, Lex.isCont x = true) ∧
    (b < 128 ↔ r = []) := by
  have hc : c.val.toNat < 0x110000 := by
    have := c.valid
    rcases this with h | h <;> omega
  have lead : ∀ n : Nat, 192 ≤ n → n < 256 → Lex.isCont (UInt8.ofNat n) = false ∧ ¬ UInt8.ofNat n < 128 := by
    intro n h1 h2
    have h := ofNat_toNat h2
    have e1 : (0x80 : UInt8).toNat = 128 := rfl
    have e2 : (0xC0 : UInt8).toNat = 192 := rfl
    have e3 : (128 : UInt8).toNat = 128 := rfl
    refine ⟨?_, ?_⟩
    · simp only [Lex.isCont, UInt8.le_iff_toNat_le, UInt8.lt_iff_toNat_lt, h, e1, e2]
      simp; omega
    · simp only [UInt8.lt_iff_toNat_lt, h, e3]
      omega
  unfold String.utf8EncodeChar
  simp only
  generalize c.val.toNat = v at hc
  split
  · rename_i h
    refine ⟨_, [], rfl, ?_, by simp, ?_⟩
    · have h' := ofNat_toNat (n := v) (by omega)
      have e1 : (0x80 : UInt8).toNat = 128 := rfl
      simp only [Lex.isCont, UInt8.le_iff_toNat_le, h', e1]
      simp; omega
    · have h' := ofNat_toNat (n := v) (by omega)
      have e3 : (128 : UInt8).toNat = 128 := rfl
      simp only [UInt8.lt_iff_toNat_lt, h', e3]
      simp; omega
  · split
    · obtain ⟨h1, h2⟩ := lead (v / 64 % 32 + 192) (by omega) (by omega)
      exact ⟨_, _, rfl, h1, by simp only [List.forall_mem_cons, cont_ofNat]; simp, iff_of_false h2 (by simp)⟩
    · split
      · obtain ⟨h1, h2⟩ := lead (v / 4096 % 16 + 224) (by omega) (by omega)
        exact ⟨_, _, rfl, h1, by simp only [List.forall_mem_cons, cont_ofNat]; simp, iff_of_false h2 (by simp)⟩
      · obtain ⟨h1, h2⟩ := lead (v / 262144 % 8 + 240) (by omega) (by omega)
        exact ⟨_, _, rfl, h1, by simp only [List.forall_mem_cons, cont_ofNat]; simp, iff_of_false h2 (by simp)⟩

theorem utf8_nil : utf8 [] = [] := rfl
theorem utf8_cons (c : Char) (cs : List Char) : utf8 (c :: cs) = String.utf8EncodeChar c ++ utf8 cs := by simp [utf8]
theorem utf8_append (cs ds : List Char) : utf8 (cs ++ ds) = utf8 cs ++ utf8 ds := by simp [utf8]

theorem Spec.Utf8.nil : Utf8 [] := ⟨[], rfl⟩
theorem Spec.Utf8.append {s t : Bytes} (h : Utf8 s) (h' : Utf8 t) : Utf8 (s ++ t) := by
  obtain ⟨cs, rfl⟩ := h
  obtain ⟨ds, rfl⟩ := h'
  exact ⟨cs ++ ds, (utf8_append ..).symm⟩

theorem encode_ascii {b : Byte} (h : b < 128) : String.utf8EncodeChar (Char.ofNat b.toNat) = [b] := by
  have hb : b.toNat < 128 := h
  have hv : (Char.ofNat b.toNat).val.toNat = b.toNat := by
    have : b.toNat.isValidChar := .inl (by omega)
    simp [Char.ofNat, this, Char.ofNatAux]
  unfold String.utf8EncodeChar
  simp only [hv]
  rw [if_pos (by omega)]
  simp

theorem Spec.Utf8.ascii {s : Bytes} (h : ∀ b ∈ s, b < 128) : Utf8 s := by
  induction s with
  | nil => exact .nil
  | cons b s ih =>
    have h1 : Utf8 [b] := ⟨[Char.ofNat b.toNat], by simp [utf8, encode_ascii (h b (by simp))]⟩
    exact h1.append (ih fun x hx => h x (by simp [hx]))

/-- A valid text does not start with a continuation byte. -/
theorem Spec.Utf8.head {s : Bytes} (h : Utf8 s) : Lex.isCont (next s) = false := by
  obtain ⟨cs, rfl⟩ := h
  cases cs with
  | nil => rfl
  | cons c cs =>
    obtain ⟨b, r, he, hb, -⟩ := encode_shape c
    rw [utf8_cons, he]
    exact hb

/-- Cutting a valid text in front of a byte that is not a continuation byte. -/
theorem Spec.Utf8.cut {p r : Bytes} (h : Utf8 (p ++ r)) (hr : Lex.isCont (next r) = false) : Utf8 p ∧ Utf8 r := by
  obtain ⟨cs, h⟩ := h
  induction cs generalizing p with
  | nil =>
    rw [utf8_nil, List.append_eq_nil_iff] at h
    rw [h.1, h.2]
    exact ⟨.nil, .nil⟩
  | cons c cs ih =>
    obtain ⟨b, t, he, hb, ht, -⟩ := encode_shape c
    rw [utf8_cons] at h
    rcases List.append_eq_append_iff.1 h with ⟨q, h1, h2⟩ | ⟨q, h1, h2⟩
    · -- the cut is in the character
      cases p with
      | nil =>
        refine ⟨.nil, ?_⟩
        simp at h
        exact ⟨c :: cs, by rw [h, utf8_cons]⟩
      | cons x p =>
        cases q with
        | nil =>
          simp at h1 h2
          exact ⟨⟨[c], by rw [← h1]; simp [utf8]⟩, ⟨cs, h2⟩⟩
        | cons y q =>
          exfalso
          rw [he] at h1
          simp at h1
          have hy := ht y (by rw [h1.2]; simp)
          rw [h2] at hr
          simp [next, hy] at hr
    · -- behind it
      obtain ⟨ha, hb⟩ := ih h2.symm
      rw [h1]
      exact ⟨Utf8.append ⟨[c], by simp [utf8]⟩ ha, hb⟩

/-- Behind an ASCII byte there is no continuation byte. -/
theorem Spec.Utf8.after {p r : Bytes} {b : Byte} (h : Utf8 (p ++ b :: r)) (hb : b < 128) : Lex.isCont (next r) = false := by
  have hb' : Lex.isCont b = false := by
    have e1 : (0x80 : UInt8).toNat = 128 := rfl
    have e3 : (128 : UInt8).toNat = 128 := rfl
    simp only [UInt8.lt_iff_toNat_lt, e3] at hb
    simp only [Lex.isCont, UInt8.le_iff_toNat_le, e1]
    simp; omega
  obtain ⟨-, cs, h⟩ := h.cut (r := b :: r) hb'
  cases cs with
  | nil => simp [utf8] at h
  | cons c cs =>
    obtain ⟨b', t, he, -, -, hn⟩ := encode_shape c
    rw [utf8_cons, he] at h
    simp at h
    have : t = [] := hn.1 (h.1 ▸ hb)
    subst this
    simp at h
    exact h.2 ▸ Utf8.head ⟨cs, rfl⟩

theorem isCont_ascii {b : Byte} (h : b < 128) : Lex.isCont b = false := by
  have e1 : (0x80 : UInt8).toNat = 128 := rfl
  have e3 : (128 : UInt8).toNat = 128 := rfl
  simp only [UInt8.lt_iff_toNat_lt, e3] at h
  simp only [Lex.isCont, UInt8.le_iff_toNat_le, e1]
  simp; omega

theorem Spec.boundary_iff {s : Bytes} {p : Nat} : Boundary s p ↔ p ≤ s.length ∧ Utf8 (s.take p) ∧ Utf8 (s.drop p) := by
  constructor
  · rintro ⟨cs, ds, rfl, rfl⟩
    exact ⟨by simp, ⟨cs, by simp⟩, ⟨ds, by simp⟩⟩
  · rintro ⟨hp, ⟨cs, hc⟩, ⟨ds, hd⟩⟩
    exact ⟨cs, ds, by rw [← hc, ← hd, List.take_append_drop], by rw [← hc, List.length_take]; omega⟩

/-- The part of a text between two boundaries is valid. -/
theorem Spec.Boundary.slice {s : Bytes} {p q : Nat} (hp : Boundary s p) (hq : Boundary s q) : Utf8 (slice s p q) := by
  rw [boundary_iff] at hp hq
  unfold Spec.slice
  rcases Nat.lt_or_ge q p with h | h
  · rw [List.drop_eq_nil_of_le (by simp; omega)]
    exact .nil
  · have e : s.take q = s.take p ++ (s.take q).drop p := by
      have := (List.take_append_drop p (s.take q)).symm
      rwa [List.take_take, Nat.min_eq_left h] at this
    have hn : Lex.isCont (next ((s.take q).drop p)) = false := by
      have hd := hp.2.2.head
      rw [List.drop_take]
      cases hs : s.drop p with
      | nil => rw [List.take_nil]; rfl
      | cons x xs =>
        rw [hs] at hd
        cases q - p with
        | zero => rfl
        | succ k => exact hd
    have := hq.2.1
    rw [e] at this
    exact (this.cut hn).2

/-- Valid texts lose ASCII bytes at the ends and stay valid. -/
theorem Spec.Utf8.strip_left {a s : Bytes} (h : Utf8 (a ++ s)) (ha : ∀ b ∈ a, b < 128) : Utf8 s := by
  induction a with
  | nil => exact h
  | cons x a ih =>
    refine ih ?_ fun b hb => ha b (by simp [hb])
    exact (Utf8.cut (p := [x]) h (Utf8.after (p := []) h (ha x (by simp)))).2

theorem Spec.Utf8.strip_right {a s : Bytes} (h : Utf8 (s ++ a)) (ha : ∀ b ∈ a, b < 128) : Utf8 s := by
  refine (h.cut ?_).1
  cases a with
  | nil => rfl
  | cons x a => exact isCont_ascii (ha x (by simp))

end Ratel
