import Verif.Spec.Printable
import Verif.Lemmas.Powers
import Verif.Lemmas.Code
import Verif.Props.Codegen
/-! Both generators write the texts of the pieces with blanks and line breaks between them. -/
namespace Ratel
open Spec

/-- White space. -/
def Blank (g : Bytes) : Prop := ∀ b ∈ g, isSpace b = true

/-- The text contains a line break. -/
def nl (g : Bytes) : Bool := g.any (· == #b'\n')

theorem Blank.nil : Blank [] := fun _ h => nomatch h
theorem Blank.sp : Blank bs!" " := by unfold Blank; decide
theorem Blank.append {a b : Bytes} (ha : Blank a) (hb : Blank b) : Blank (a ++ b) := by
  intro c hc
  rcases List.mem_append.mp hc with h | h
  · exact ha c h
  · exact hb c h
theorem Blank.newLine (d : Nat) : Blank (newLineText d) := by
  intro b hb
  rcases List.mem_cons.mp hb with h | h
  · subst h; decide
  · rw [List.eq_of_mem_replicate h]; decide

/-- `Lay min ps X`: the text `X` consists of the texts of the pieces `ps`, with white space where lines
begin, and blanks at the other pieces unless the code is minified. -/
def Lay (min : Bool) : List Piece → Bytes → Prop
  | [], X => X = []
  | .text t :: ps, X => ∃ Y, X = t ++ Y ∧ Lay min ps Y
  | .pretty b :: ps, X => ∃ Y, X = (if min then [] else [b]) ++ Y ∧ Lay min ps Y
  | .newLine :: ps, X => ∃ g Y, Blank g ∧ X = g ++ Y ∧ Lay min ps Y
  | .indent :: ps, X => Lay min ps X
  | .dedent :: ps, X => Lay min ps X
  | .panic :: _, _ => False

section
variable {min : Bool} {a b ps : List Piece} {X : Bytes}

theorem Lay.append : ∀ {a : List Piece} {X : Bytes}, Lay min (a ++ b) X → ∃ Y Z, X = Y ++ Z ∧ Lay min a Y ∧ Lay min b Z
  | [], X, h => ⟨[], X, rfl, rfl, h⟩
  | .text t :: a, X, h => by
    obtain ⟨Y, rfl, h⟩ := h
    obtain ⟨U, V, rfl, h1, h2⟩ := h.append
    exact ⟨t ++ U, V, by simp, ⟨U, rfl, h1⟩, h2⟩
  | .pretty c :: a, X, h => by
    obtain ⟨Y, rfl, h⟩ := h
    obtain ⟨U, V, rfl, h1, h2⟩ := h.append
    exact ⟨_ ++ U, V, by simp, ⟨U, rfl, h1⟩, h2⟩
  | .newLine :: a, X, h => by
    obtain ⟨g, Y, hg, rfl, h⟩ := h
    obtain ⟨U, V, rfl, h1, h2⟩ := h.append
    exact ⟨g ++ U, V, by simp, ⟨g, U, hg, rfl, h1⟩, h2⟩
  | .indent :: a, X, h => by
    obtain ⟨U, V, rfl, h1, h2⟩ := Lay.append (a := a) h
    exact ⟨U, V, rfl, h1, h2⟩
  | .dedent :: a, X, h => by
    obtain ⟨U, V, rfl, h1, h2⟩ := Lay.append (a := a) h
    exact ⟨U, V, rfl, h1, h2⟩
  | .panic :: _, _, h => h.elim

theorem Lay.nil_eq : Lay min [] X ↔ X = [] := Iff.rfl
theorem Lay.text_iff {t : Bytes} : Lay min (.text t :: ps) X ↔ ∃ Y, X = t ++ Y ∧ Lay min ps Y := Iff.rfl
theorem Lay.sp (h : Lay min (pSp :: ps) X) : ∃ g Y, Blank g ∧ X = g ++ Y ∧ Lay min ps Y := by
  obtain ⟨Y, h1, h2⟩ := h
  cases min
  · exact ⟨_, Y, .sp, h1, h2⟩
  · exact ⟨_, Y, .nil, h1, h2⟩
theorem Lay.line (h : Lay min (.newLine :: ps) X) : ∃ g Y, Blank g ∧ X = g ++ Y ∧ Lay min ps Y := h
theorem Lay.one {t : Bytes} (h : Lay min [.text t] X) : X = t := by
  obtain ⟨Y, rfl, h⟩ := h
  have h : Y = [] := h
  simp [h]

theorem lay_runMin : ∀ {ps : List Piece} {X : Bytes}, runMin ps = .ok X → Lay true ps X
  | [], X, h => by cases h; rfl
  | .text t :: ps, X, h => by
    rw [runMin, Out.bind_eq_ok] at h
    obtain ⟨Y, h1, h2⟩ := h
    cases h2
    exact ⟨Y, rfl, lay_runMin h1⟩
  | .pretty c :: ps, X, h => ⟨X, by simp, lay_runMin h⟩
  | .newLine :: ps, X, h => ⟨[], X, .nil, rfl, lay_runMin h⟩
  | .indent :: ps, X, h => lay_runMin (ps := ps) h
  | .dedent :: ps, X, h => lay_runMin (ps := ps) h
  | .panic :: _, _, h => by cases h

theorem lay_runPretty : ∀ {ps : List Piece} {X : Bytes} {d d' : Nat}, runPretty d ps = .ok (X, d') → Lay false ps X
  | [], X, _, _, h => by cases h; rfl
  | .text t :: ps, X, d, d', h => by
    rw [runPretty, Out.bind_eq_ok] at h
    obtain ⟨Y, h1, h2⟩ := h
    cases h2
    exact ⟨_, rfl, lay_runPretty h1⟩
  | .pretty c :: ps, X, d, d', h => by
    rw [runPretty, Out.bind_eq_ok] at h
    obtain ⟨Y, h1, h2⟩ := h
    cases h2
    exact ⟨_, rfl, lay_runPretty h1⟩
  | .newLine :: ps, X, d, d', h => by
    rw [runPretty, Out.bind_eq_ok] at h
    obtain ⟨Y, h1, h2⟩ := h
    cases h2
    exact ⟨_, _, .newLine d, rfl, lay_runPretty h1⟩
  | .indent :: ps, X, d, d', h => lay_runPretty (ps := ps) (by simpa only [runPretty] using h)
  | .dedent :: ps, X, 0, d', h => by cases h
  | .dedent :: ps, X, d + 1, d', h => lay_runPretty (ps := ps) (by simpa only [runPretty] using h)
  | .panic :: _, _, d, _, h => by simp [runPretty] at h

/-- What `codegen` writes are the statements in order, with white space between them. -/
theorem lay_codegen {m : List Stmt} (h : codegen m min = .ok X) :
    (min = true ∧ Lay min (codeModuleMin m) X) ∨ (min = false ∧ Lay min (codeModulePretty m) X) := by
  unfold codegen at h
  split at h
  · subst min
    exact .inl ⟨rfl, lay_runMin h⟩
  · rename_i hm
    simp only [Bool.not_eq_true] at hm
    subst hm
    rw [Out.bind_eq_ok] at h
    obtain ⟨⟨Y, d⟩, h1, h2⟩ := h
    cases h2
    exact .inr ⟨rfl, lay_runPretty h1⟩

end
end Ratel
