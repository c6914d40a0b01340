import Verif.Lemmas.FewAll
import Verif.Props.Interface
/-! How many errors are reported, and how much text they quote (C65). -/
namespace Ratel
open Spec

section
set_option linter.unusedSectionVars false
variable [Unicode]

/-- A first token without text is the end of the program, or is never left. -/
theorem Lex.Ended.of_new {src : Bytes} {l : Lex} (h : Lex.new src = .ok l) (hle : l.index ≤ l.tokenStart) : l.Ended := by
  rw [Lex.new, Lex.consume_eq] at h
  obtain ⟨g, p, hs⟩ := (Lex.scanAll_spec _).of_ok h
  rw [hs.index, hs.tokenStart] at hle
  have hp0 : p = [] := List.length_eq_zero_iff.1 (by omega)
  have hx := hs.lexeme
  have hi : l.tokenStart = l.index := by rw [hs.index, hs.tokenStart, hp0]; rfl
  rw [hp0] at hx
  generalize ht : l.token = t at hx
  generalize hq : ([] : Bytes) = q at hx
  cases hx with
  | eof => exact .inl ht
  | badChar h1 h2 =>
    refine .inr ⟨ht, ?_⟩
    rw [Lex.consume_badChar h1 h2, ← hi]
    congr
    exact ht.symm
  | punct hm => subst hq; exact absurd rfl (puncts_ne _ hm)
  | number h => cases h <;> simp at hq; exact absurd hq.1 (by assumption)
  | _ => simp at hq

/-- C65: `parse` reports at most nine errors for each byte of the source. -/
theorem C65_errors_bounded {fuel : Nat} {src : Bytes} {es : List Err} (h : parse fuel src = .ok (.error es)) :
    es.length ≤ 9 * src.length := by
  obtain ⟨m, s, hr, rfl, -⟩ := (C11_error_iff_errors fuel src es).1 h
  unfold runParser at hr
  cases hn : Lex.new src with
  | ok l =>
    rw [hn] at hr
    have hl : Proper src l := .new hn
    have := procs_few (src := src) fuel
    have hb := program_few (n := fuel) (R := procs fuel) (k := 0) hl [] rfl m s hr
    have hrest := congrArg List.length hl.lexing.wf.rest
    rw [List.length_drop] at hrest
    have hsp := C01_first_token_span hn
    have hle : l.ahead ≤ src.length := by
      by_cases hE : l.Ended
      · simp only [Lex.ahead, hE, if_true]
        omega
      · have : l.tokenStart < l.index := Nat.lt_of_not_le fun hle => hE (.of_new hn hle)
        rw [Lex.ahead_eq hE]
        omega
    omega
  | _ => rw [hn] at hr; cases hr

theorem quoted_le {k n : Nat} : ∀ {es : List Err}, (es.Pairwise fun a b => a.stop ≤ b.start) → (∀ e ∈ es, k ≤ e.start) →
    (∀ e ∈ es, e.start ≤ e.stop ∧ e.stop ≤ n ∧ e.raw.length = e.stop - e.start) → k ≤ n → (es.map fun e => e.raw.length).sum + k ≤ n := by
  intro es
  induction es generalizing k with
  | nil => intro _ _ _ h; simpa using h
  | cons e es ih =>
    intro hp hk hs hn
    rw [List.pairwise_cons] at hp
    have he := hs e (by simp)
    have := ih (k := e.stop) hp.2 hp.1 (fun e' h' => hs e' (by simp [h'])) he.2.1
    have := hk e (by simp)
    simp only [List.map_cons, List.sum_cons]
    omega

/-- C65: the texts quoted in all errors together are not longer than the source. -/
theorem C65_quoted_text {fuel : Nat} {src : Bytes} {es : List Err} (h : parse fuel src = .ok (.error es)) :
    (es.map fun e => e.raw.length).sum ≤ src.length := by
  refine quoted_le (k := 0) (C12_errors_in_source_order h) (fun _ _ => Nat.zero_le _) (fun e he => ?_) (Nat.zero_le _)
  obtain ⟨h1, h2, h3, -⟩ := C12_errors_point_into_source h e he
  refine ⟨h1, h2, ?_⟩
  rw [h3]
  simp [slice]
  omega

end

section
/-! Two bytes can cause four errors and three bytes eight: one error for each byte is not enough. -/
local instance errorCountExample : Unicode := ⟨fun _ => true⟩

/-- The number of errors of a rejected source. -/
def errorCount (src : Bytes) : Option Nat :=
  match parse 60 src with
  | .ok (.error es) => .some es.length
  | _ => .none

example : errorCount (utf8 "if".toList) = .some 4 := by decide +kernel
example : errorCount (utf8 "for".toList) = .some 8 := by decide +kernel
example : errorCount (utf8 "a b".toList) = .some 1 := by decide +kernel
example : errorCount (utf8 "for if for".toList) = .some 8 := by decide +kernel
end

end Ratel
