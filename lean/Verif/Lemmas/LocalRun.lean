import Verif.Lemmas.Local
import Verif.Lemmas.AcceptAll
import Verif.Lemmas.Fuel
/-! Runs of the parser on sources with a common beginning. -/
namespace Ratel
open Spec

set_option linter.unusedSectionVars false
variable [Unicode]

/-- What is recorded from here on lies behind the position. -/
structure Onward (s t : PState) : Prop where
  index : s.lex.index ≤ t.lex.index
  src : t.lex.src = s.lex.src
  errors : ∃ F, t.errors = s.errors ++ F ∧ ∀ e ∈ F, s.lex.index ≤ e.stop

theorem consume_src {l l' : Lex} (h : l.consume = .ok l') : l'.src = l.src := by
  rw [Lex.consume_eq] at h
  obtain ⟨g, p, hs⟩ := (Lex.scanAll_spec _).of_ok h
  exact hs.src

theorem PStep.onward {s t : PState} (h : PStep s t) : Onward s t := by
  cases h with
  | consume h => exact ⟨Lex.local_consume.climbs _ _ h, consume_src h, [], by simp, by simp⟩
  | template h =>
    obtain ⟨p, q, -, ho, -⟩ := (Lex.readTemplateKind_spec _).of_ok h
    exact ⟨Lex.local_readTemplateKind.climbs _ _ h, ho.src, [], by simp, by simp⟩
  | regex h =>
    obtain ⟨p, c, q, -, ho, -⟩ := (readRegularExpression_spec _).of_ok h
    exact ⟨Lex.local_readRegularExpression.climbs _ _ h, ho.src, [], by simp, by simp⟩
  | error h =>
    rename_i e
    obtain ⟨h1, h2⟩ := invalidToken_ok h
    have he : s.lex.index ≤ e.stop := by rw [h2]; exact Nat.le_refl _
    rcases h1 with ⟨-, rfl⟩ | ⟨-, h1⟩
    · exact ⟨Nat.le_refl _, rfl, [e], rfl, by simpa using he⟩
    · exact ⟨Lex.local_consume.climbs _ _ h1, consume_src h1, [e], rfl, by simpa using he⟩

theorem Onward.trans {s t u : PState} (h : Onward s t) (h' : Onward t u) : Onward s u := by
  obtain ⟨F, h1, h2⟩ := h.errors
  obtain ⟨G, h3, h4⟩ := h'.errors
  refine ⟨Nat.le_trans h.index h'.index, h'.src.trans h.src, F ++ G, by rw [h3, h1, List.append_assoc], fun e he => ?_⟩
  rcases List.mem_append.1 he with he | he
  · exact h2 e he
  · exact Nat.le_trans h.index (h4 e he)

theorem PSteps.onward {s t : PState} (h : PSteps s t) : Onward s t := by
  induction h with
  | refl => exact ⟨Nat.le_refl _, rfl, [], by simp, by simp⟩
  | step _ h ih => exact ih.trans h.onward

/-- The run does not depend on what follows the common part. -/
def NearRun {α : Type} (m : P α) (s : PState) : Prop :=
  ∃ (a : α) (t : PState), t.lex.Fits ∧ t.lex.src = s.lex.src ∧ ∀ z, m (s.ext z) = .ok (a, t.ext z)

/-- The run comes close to the end of the common part; the errors `E` do not depend on what follows. -/
def FarRun {α : Type} (m : P α) (s : PState) : Prop :=
  ∃ E : List Err, ∀ (z : Bytes) (a : α) (t : PState), m (s.ext z) = .ok (a, t) →
    (∃ F, t.errors = E ++ F ∧ ∀ e ∈ F, s.lex.src.length < e.stop + 4) ∧ s.lex.src.length < t.lex.index + 4

theorem Lex.Split.run {f : Lex → Out Lex} {s : PState} (h : Lex.Split f s.lex) :
    NearRun (fun s => (f s.lex).bind fun l => .ok ((), { s with lex := l })) s ∨
    FarRun (fun s => (f s.lex).bind fun l => .ok ((), { s with lex := l })) s := by
  rcases h with ⟨a, h1, h2, h3⟩ | h
  · exact .inl ⟨(), { s with lex := a }, h1, h2, fun z => by
      change Out.bind (f (s.lex.ext z)) _ = _
      rw [h3]; rfl⟩
  · refine .inr ⟨s.errors, fun z a t ht => ?_⟩
    change Out.bind (f (s.lex.ext z)) _ = _ at ht
    cases e : f (s.lex.ext z) <;> simp only [e, Out.bind] at ht <;> cases ht
    exact ⟨⟨[], by simp [PState.ext], by simp⟩, h z _ e⟩

theorem IsProg.local {src : Bytes} {α : Type} {pre : Lex → Prop} {m : P α} (h : IsProg src pre m) {s : PState}
    (hs : s.lex.Fits) : NearRun m s ∨ FarRun m s := by
  have hsl : ∀ {l : Lex}, l.Fits → ∀ a z, (l.ext z).sliceSource a l.index = l.sliceSource a l.index :=
    fun h a z => Lex.slice_ext (by unfold Lex.Fits at h; omega)
  induction h generalizing s with
  | pure a => exact .inl ⟨a, s, hs, rfl, fun z => rfl⟩
  | bind h hf ih ihf =>
    rename_i α _ _ m f
    rcases ih hs with ⟨a, t, h1, h2, h3⟩ | ⟨E, h⟩
    · have e : ∀ z, (m >>= f) (s.ext z) = f a (t.ext z) := fun z => by rw [P.bind_run, h3]; rfl
      rcases ihf a h1 with ⟨b, u, h4, h5, h6⟩ | ⟨E, h'⟩
      · exact .inl ⟨b, u, h4, h5.trans h2, fun z => by rw [e, h6]⟩
      · refine .inr ⟨E, fun z b u hu => ?_⟩
        rw [e] at hu
        rw [← h2]
        exact h' z b u hu
    · refine .inr ⟨E, fun z b u hu => ?_⟩
      obtain ⟨a, t, h1, h2⟩ := P.bind_ok.1 hu
      obtain ⟨⟨F, h3, h4⟩, h5⟩ := h z a t h1
      have ho := ((hf a).steps h2).onward
      obtain ⟨G, h6, h7⟩ := ho.errors
      refine ⟨⟨F ++ G, by rw [h6, h3, List.append_assoc], fun e he => ?_⟩, ?_⟩
      · rcases List.mem_append.1 he with he | he
        · exact h4 e he
        · have := h7 e he; omega
      · have := ho.index; omega
  | tok _ ih | asi _ ih | start _ ih | stop _ ih | quasi _ ih => exact ih _ hs
  | curLoc _ ih => exact ih ⟨s.lex.tokenStart, s.lex.index⟩ hs
  | tokStr _ ih =>
    rename_i f _
    have e : ∀ z, (Ratel.tokStr >>= f) (s.ext z) = f s.lex.tokenAsStr (s.ext z) := fun z => by
      change f (s.ext z).lex.tokenAsStr (s.ext z) = _
      rw [show (s.ext z).lex.tokenAsStr = s.lex.tokenAsStr from hsl hs _ z]
    unfold NearRun FarRun
    simp only [e]
    exact ih _ hs
  | accStr _ ih =>
    rename_i f _
    have e : ∀ z, (Ratel.accStr >>= f) (s.ext z) = f s.lex.accessorAsStr (s.ext z) := fun z => by
      change f (s.ext z).lex.accessorAsStr (s.ext z) = _
      rw [show (s.ext z).lex.accessorAsStr = s.lex.accessorAsStr from hsl hs _ z]
    unfold NearRun FarRun
    simp only [e]
    exact ih _ hs
  | consume => exact (Lex.local_consume.split _ hs).run
  | template => exact (Lex.local_readTemplateKind.split _ hs).run
  | regex =>
    rcases Lex.local_readRegularExpression.split _ hs with ⟨a, v, h1, h2, h3⟩ | h
    · refine .inl ⟨v, { s with lex := a }, h1, h2, fun z => ?_⟩
      unfold Ratel.readRegex
      change Out.bind (Lex.readRegularExpression (s.lex.ext z)) _ = _
      rw [h3]; rfl
    · refine .inr ⟨s.errors, fun z a t ht => ?_⟩
      unfold Ratel.readRegex at ht
      change Out.bind (Lex.readRegularExpression (s.lex.ext z)) _ = _ at ht
      cases e : Lex.readRegularExpression (s.lex.ext z) <;> simp only [e, Out.bind] at ht <;> cases ht
      exact ⟨⟨[], by simp [PState.ext], by simp⟩, h z _ e⟩
  | error =>
    have hx : ∀ z a t, Ratel.error (s.ext z) = .ok (a, t) ↔
        ∃ l, (if s.lex.token = .EndOfProgram then .ok (s.lex.ext z) else (s.lex.ext z).consume) = .ok l ∧
          t = ⟨l, s.errors ++ [⟨s.lex.token, s.lex.tokenStart, s.lex.index, s.lex.sliceSource s.lex.tokenStart s.lex.index⟩]⟩ := by
      intro z a t
      have hsrc : ∀ l, (if s.lex.token = .EndOfProgram then .ok (s.lex.ext z) else (s.lex.ext z).consume) = .ok l →
          l.sliceSource s.lex.tokenStart s.lex.index = s.lex.sliceSource s.lex.tokenStart s.lex.index := by
        intro l hl
        rw [← hsl hs _ z]
        unfold Lex.sliceSource
        split at hl
        · cases hl; rfl
        · rw [consume_src hl]
      unfold Ratel.error
      change Out.bind (Lex.invalidToken (s.lex.ext z)) _ = _ ↔ _
      constructor
      · intro h
        cases hc : Lex.invalidToken (s.lex.ext z) <;> simp only [hc, Out.bind] at h <;> cases h
        rename_i x
        obtain ⟨e, l⟩ := x
        obtain ⟨h1, h2⟩ := invalidToken_ok hc
        have h1 : (if s.lex.token = .EndOfProgram then .ok (s.lex.ext z) else (s.lex.ext z).consume) = .ok l := by
          rcases h1 with ⟨ht, rfl⟩ | ⟨ht, h1⟩
          · rw [if_pos (show s.lex.token = _ from ht)]
          · rw [if_neg (show s.lex.token ≠ _ from ht), h1]
        refine ⟨l, h1, ?_⟩
        rw [← hsrc l h1, h2]
        rfl
      · rintro ⟨l, h1, rfl⟩
        have h2 : Lex.invalidToken (s.lex.ext z) = .ok (⟨s.lex.token, s.lex.tokenStart, s.lex.index,
            l.sliceSource s.lex.tokenStart s.lex.index⟩, l) := by
          unfold Lex.invalidToken
          by_cases ht : s.lex.token = .EndOfProgram
          · rw [if_pos ht] at h1
            cases h1
            rw [if_pos (show (s.lex.ext z).token = _ from ht)]
            rfl
          · rw [if_neg ht] at h1
            rw [if_neg (show (s.lex.ext z).token ≠ _ from ht), h1]
            rfl
        rw [h2, hsrc l h1]
        rfl
    by_cases ht : s.lex.token = .EndOfProgram
    · exact .inl ⟨(), ⟨s.lex, s.errors ++ [_]⟩, hs, rfl, fun z => (hx z () _).2 ⟨_, by rw [if_pos ht], rfl⟩⟩
    · rcases Lex.local_consume.split _ hs with ⟨a, h1, h2, h3⟩ | h
      · exact .inl ⟨(), ⟨a, s.errors ++ [_]⟩, h1, h2, fun z => (hx z () _).2 ⟨_, by rw [if_neg ht, h3], rfl⟩⟩
      · refine .inr ⟨s.errors ++ [⟨s.lex.token, s.lex.tokenStart, s.lex.index, s.lex.sliceSource s.lex.tokenStart s.lex.index⟩], fun z a t h' => ?_⟩
        obtain ⟨l, h1, rfl⟩ := (hx z a t).1 h'
        rw [if_neg ht] at h1
        exact ⟨⟨[], by simp, by simp⟩, h z l h1⟩
  | timeout => exact .inr ⟨[], fun z a t h => by cases h⟩
  | panic => exact .inr ⟨[], fun z a t h => by cases h⟩

end Ratel
