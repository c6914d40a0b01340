import Verif.Props.Halt
import Verif.Props.ParserExamples
/-! Concrete sources that meet the hypotheses of the theorems in `Halt`. -/
namespace Ratel
open Spec

local instance haltUnicode : Unicode := ⟨fun _ => true⟩

/-- A source for the theorems below: with slashes, a member access, nested blocks, and errors. -/
def haltSource : Bytes := bs!"function f(a) { if (a) { return a.b / 2;\n } }\nf(1 2 {{[\n"

theorem split_all {c : Byte} {src : Bytes} {P : Bytes → Prop} (h : ∀ i < src.length, src[i]? = some c → P (src.drop (i + 1))) :
    ∀ a t, src = a ++ c :: t → P t := by
  rintro a t rfl
  have := h a.length (by simp) (by simp)
  rwa [show (a ++ c :: t).drop (a.length + 1) = t by
    rw [← List.drop_drop]; simp] at this

theorem line_of_takeWhile {t : Bytes} (h : (t.dropWhile (· ≠ #b'\n')).head? = some #b'\n' ∧ #b'\\' ∉ t.takeWhile (· ≠ #b'\n')) :
    ∃ u v, t = u ++ #b'\n' :: v ∧ #b'\\' ∉ u := by
  obtain ⟨h1, h2⟩ := h
  refine ⟨_, (t.dropWhile (· ≠ #b'\n')).tail, ?_, h2⟩
  conv => lhs; rw [← List.takeWhile_append_dropWhile (p := (· ≠ #b'\n')) (l := t)]
  congr 1
  generalize t.dropWhile (· ≠ #b'\n') = d at *
  cases d with
  | nil => cases h1
  | cons x d => simp at h1; simp [h1]

/-- The hypotheses of `C16_returns_partial` hold for a source with errors: `parse` reports them. -/
example : ∃ es, es ≠ [] ∧ ∀ fuel, haltSource.length + 3 ≤ fuel → parse fuel haltSource = .ok (.error es) := by
  have h2 : ¬ bs!"switch" <:+: haltSource := by decide +kernel
  have h4 : ¬ ∃ a s, haltSource = a ++ #b'.' :: s ∧ ∀ b ∈ s, b ≤ 0x20 := by
    rintro ⟨a, s, h, hs⟩
    exact split_all (P := fun s => ¬ ∀ b ∈ s, b ≤ 0x20) (by decide +kernel) a s h hs
  have h5 := split_all (c := #b'/') (src := haltSource) (P := fun t => ∃ u v, t = u ++ #b'\n' :: v ∧ #b'\\' ∉ u)
    fun i hi hc => line_of_takeWhile (by revert i; decide +kernel)
  have key := fun fuel => C16_returns_partial (src := haltSource) (by decide +kernel) h2 (by decide +kernel) h4 h5 (fuel := fuel)
  have hk : ∀ fuel, haltSource.length + 3 ≤ fuel → parse fuel haltSource = parse (haltSource.length + 3) haltSource :=
    fun fuel hf => parse_fuel hf _ (C16_ascii_terminates_partial (by decide +kernel) h2 (Nat.le_refl _))
  have hx : accepted (parse (haltSource.length + 3) haltSource) = false := by decide +kernel
  rcases key _ (Nat.le_refl _) with ⟨b, h⟩ | ⟨es, h, h'⟩
  · rw [h] at hx; cases hx
  · exact ⟨es, h, fun fuel hf => (hk fuel hf).trans h'⟩

/-- `C16_text_terminates_partial`: a source with a non-ASCII letter and an error. -/
example {fuel : Nat} (hf : 12 ≤ fuel) : parse fuel bs!"été = (" ≠ .timeout :=
  C16_text_terminates_partial (fun r _ _ ⟨_, _, h⟩ => by cases h) (by decide +kernel) (by simpa using hf)

/-- `C16_returns_utf8_partial`: a text with non-ASCII letters, a dot, a slash, and an error. -/
def haltChars : List Char := "été.a/ß\n(".toList

example : ∃ es, es ≠ [] ∧ parse 40 (utf8 haltChars) = .ok (.error es) := by
  have h4 : ∀ a s r, utf8 haltChars = a ++ #b'.' :: s ++ r → (∀ b ∈ s, b ≤ 0x20) → next r < 128 ∧ r ≠ [] := by
    intro a s r h hs
    have := split_all (c := #b'.') (src := utf8 haltChars)
      (P := fun t => t = bs!"a/ß\n(") (by decide +kernel) a (s ++ r) (by simpa using h)
    cases s with
    | nil => rw [List.nil_append] at this; rw [this]; decide +kernel
    | cons b s =>
      have e : b = #b'a' := by simp at this; exact this.1
      exact absurd (hs b (by simp)) (by rw [e]; decide)
  have h5 := split_all (c := #b'/') (src := utf8 haltChars) (P := fun t => ∃ u v, t = u ++ #b'\n' :: v ∧ #b'\\' ∉ u)
    fun i hi hc => line_of_takeWhile (by revert i; decide +kernel)
  have hx : accepted (parse 40 (utf8 haltChars)) = false := by decide +kernel
  rcases C16_returns_utf8_partial (cs := haltChars) (fun _ _ _ => rfl) (by decide +kernel) (by decide +kernel) h4 h5
    (fuel := 40) (by decide +kernel) with ⟨b, h⟩ | h
  · rw [h] at hx; cases hx
  · exact h

/-- The hypotheses are needed: `C16_euro_diverges` and `C16_switch_diverges` violate one each. -/
example : bs!"switch" <:+: bs!"switch(x){case 1:" := by decide +kernel

/-- C10: an unclosed embedded expression reads outside, and there is a back quote in front of the `}`. -/
example : parse 20 bs!"a = {b: `c${d}" = .oob := of_bad (by decide +kernel)

end Ratel
