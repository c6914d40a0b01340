import Verif.Lemmas.Utf8
/-! Decoding the first character of valid UTF-8, and what follows: the encoding is injective. -/
namespace Ratel
open Spec

theorem Lex.decodeFirst_encode (c : Char) (r : Bytes) :
    Lex.decodeFirst (String.utf8EncodeChar c ++ r) = some c.val.toNat := by
  have hc : c.val.toNat < 0x110000 := by
    have := c.valid
    rcases this with h | h <;> omega
  have lit : (0x80 : UInt8).toNat = 128 ∧ (0xC0 : UInt8).toNat = 192 ∧ (0xE0 : UInt8).toNat = 224 ∧ (0xF0 : UInt8).toNat = 240 :=
    ⟨rfl, rfl, rfl, rfl⟩
  have le : ∀ (k : Nat) (b : UInt8), k < 256 → (UInt8.ofNat k < b ↔ k < b.toNat) := by
    intro k b hk
    rw [UInt8.lt_iff_toNat_lt, ofNat_toNat hk]
  unfold String.utf8EncodeChar
  simp only
  generalize c.val.toNat = v at hc
  split
  · simp only [List.cons_append, Lex.decodeFirst, le v _ (by omega), lit.1, ofNat_toNat (n := v) (by omega)]
    rw [if_pos (by omega)]
  · split
    · simp only [List.cons_append, List.nil_append, Lex.decodeFirst, le (v / 64 % 32 + 192) _ (by omega), lit, cont_ofNat,
        ofNat_toNat (n := v / 64 % 32 + 192) (by omega), ofNat_toNat (n := v % 64 + 128) (by omega), Bool.not_true,
        Bool.false_eq_true, if_false]
      rw [if_neg (by omega), if_neg (by omega), if_pos (by omega)]
      congr 1
      omega
    · split
      · simp only [List.cons_append, List.nil_append, Lex.decodeFirst, le (v / 4096 % 16 + 224) _ (by omega), lit, cont_ofNat,
          ofNat_toNat (n := v / 4096 % 16 + 224) (by omega), ofNat_toNat (n := v / 64 % 64 + 128) (by omega),
          ofNat_toNat (n := v % 64 + 128) (by omega), Bool.not_true, Bool.false_eq_true, if_false]
        rw [if_neg (by omega), if_neg (by omega), if_neg (by omega), if_pos (by omega)]
        congr 1
        omega
      · simp only [List.cons_append, List.nil_append, Lex.decodeFirst, le (v / 262144 % 8 + 240) _ (by omega), lit, cont_ofNat,
          ofNat_toNat (n := v / 262144 % 8 + 240) (by omega), ofNat_toNat (n := v / 4096 % 64 + 128) (by omega),
          ofNat_toNat (n := v / 64 % 64 + 128) (by omega),
          ofNat_toNat (n := v % 64 + 128) (by omega), Bool.not_true, Bool.false_eq_true, if_false]
        rw [if_neg (by omega), if_neg (by omega), if_neg (by omega), if_neg (by omega)]
        congr 1
        omega

theorem utf8_injective : ∀ {cs ds : List Char}, utf8 cs = utf8 ds → cs = ds := by
  intro cs
  induction cs with
  | nil =>
    intro ds h
    cases ds with
    | nil => rfl
    | cons d ds =>
      obtain ⟨b, r, e, -⟩ := encode_shape d
      rw [utf8_cons, e] at h
      simp [utf8] at h
  | cons c cs ih =>
    intro ds h
    cases ds with
    | nil =>
      obtain ⟨b, r, e, -⟩ := encode_shape c
      rw [utf8_cons, e] at h
      simp [utf8] at h
    | cons d ds =>
      rw [utf8_cons, utf8_cons] at h
      have h1 := Lex.decodeFirst_encode c (utf8 cs)
      rw [h, Lex.decodeFirst_encode] at h1
      have : c = d := by
        apply Char.ext
        apply UInt32.toNat.inj
        exact (Option.some.inj h1).symm
      subst this
      rw [ih (List.append_cancel_left h)]

/-- A position between characters splits the list of characters. -/
theorem Spec.Boundary.split {s : List Char} {p : Nat} (h : Boundary (utf8 s) p) :
    ∃ a b, s = a ++ b ∧ p = (utf8 a).length := by
  obtain ⟨a, b, h1, h2⟩ := h
  rw [← utf8_append] at h1
  exact ⟨a, b, utf8_injective h1, h2⟩

end Ratel
