import Verif.Lemmas.EnoughAll
import Verif.Props.ParserExamples
/-! Whether `parse` returns is decided after as many levels of recursion and rounds of each loop as the source has bytes (C16). -/
namespace Ratel
open Spec

section
set_option linter.unusedSectionVars false
variable [Unicode]

/-- C16: for every source, a bound beyond the length of the source changes nothing: `parse` has returned by then (or has read
outside of the source, or panicked), with the same result, or it never returns. -/
theorem C16_bounded (src : Bytes) {fuel : Nat} (hf : src.length + 3 ≤ fuel) : parse fuel src = parse (src.length + 3) src := by
  unfold parse runParser
  cases h : Lex.new src with
  | ok l =>
    have hl : Proper src l := .new h
    have hle : l.ahead ≤ src.length + 1 := by
      have := congrArg List.length hl.lexing.wf.rest
      have := l.ahead_le
      simp at *
      omega
    have := procs_two (src := src) fuel (src.length + 3)
    have := (program_two (n := fuel) (n' := src.length + 3) (R := procs fuel) (R' := procs (src.length + 3)) hl (by omega) (by omega) []).1
    simp only [Out.bind]
    rw [this]
  | _ => rfl

/-- C16: `parse` never returns on a source exactly if it has not returned after `src.length + 3` levels of recursion, or rounds
of a loop. -/
theorem C16_decided (src : Bytes) : Diverges src ↔ parse (src.length + 3) src = .timeout := by
  refine ⟨fun h => h _, fun h => diverges_of_large (src.length + 3) fun n hn => ?_⟩
  rw [C16_bounded src hn, h]

/-- C16: if `parse` returns, it does so within `src.length + 3` levels of recursion and rounds of each loop. -/
theorem C16_within {src : Bytes} {fuel : Nat} (h : parse fuel src ≠ .timeout) : parse (src.length + 3) src = parse fuel src := by
  by_cases hf : src.length + 3 ≤ fuel
  · rw [C16_bounded src hf]
  · exact parse_fuel (by omega) src h
end

private def late {α : Type} : Out α → Bool
  | .timeout => true
  | _ => false
private theorem late_eq {α : Type} {x : Out α} : late x = true ↔ x = .timeout := by cases x <;> simp [late]

local instance anyLetter : Unicode := ⟨fun _ => true⟩

/-- Non-vacuous: a source that diverges, found by running the model. -/
example : Diverges bs!"if (a) { switch (b) { default: c" := (C16_decided _).2 (late_eq.1 (by decide +kernel))

/-- Non-vacuous: a source with a switch that returns. -/
example : ¬ Diverges bs!"switch(a){default:b}" := fun h => absurd (late_eq.2 ((C16_decided _).1 h)) (by decide +kernel)

/-- The other cause: a euro sign in the middle of a block. -/
example : @Diverges ⟨fun c => decide (c ≠ 0x20AC)⟩ bs!"{ a; €" := (@C16_decided ⟨fun c => decide (c ≠ 0x20AC)⟩ _).2 (late_eq.1 (by decide +kernel))

/-- In an expression the euro sign is only an error: the arguments of the call end there, but then the statements do not. -/
example : @Diverges ⟨fun c => decide (c ≠ 0x20AC)⟩ bs!"f(€)" := (@C16_decided ⟨fun c => decide (c ≠ 0x20AC)⟩ _).2 (late_eq.1 (by decide +kernel))

end Ratel
