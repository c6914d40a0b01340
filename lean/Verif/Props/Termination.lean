import Verif.Lemmas.Truncate
import Verif.Lemmas.Fuel
import Verif.Props.Parser
/-! Sources on which `parse` never returns (C16). `parse` of the model takes a bound on the number of steps; the
Rust code loops forever exactly when no bound is sufficient. -/
namespace Ratel
open Spec

set_option linter.unusedSectionVars false
variable [Unicode]

/-- C16: on this source `parse` never returns. -/
def Spec.Diverges (src : Bytes) : Prop := ∀ fuel, parse fuel src = .timeout

theorem loop_stuck {σ α : Type} {body : σ → P (Step σ α)} {I : PState → Prop}
    (hb : ∀ x s, I s → body x s = .timeout ∨ ∃ y t, body x s = .ok (.again y, t) ∧ I t) :
    ∀ n x s, I s → loop n body x s = .timeout
  | 0, _, _, _ => rfl
  | n + 1, x, s, h => by
    rw [loop, P.bind_run]
    rcases hb x s h with e | ⟨y, t, e, ht⟩
    · rw [e]; rfl
    · rw [e]; exact loop_stuck hb n y t ht

/-- A token that the lexer does not get past. -/
def Lex.Stuck (l : Lex) : Prop :=
  l.token = .EndOfProgram ∨ l.token = .UnexpectedToken ∧ l.consume = .ok l

theorem error_stuck {s : PState} (h : s.lex.Stuck) : ∃ es, error s = .ok ((), { s with errors := es }) := by
  unfold error Lex.invalidToken
  rcases h with h | ⟨h, h'⟩
  · rw [if_pos h]; exact ⟨_, rfl⟩
  · rw [if_neg (by rw [h]; decide), h']; exact ⟨_, rfl⟩

theorem stmt_stuck (n : Nat) {s : PState} (h : s.lex.Stuck) :
    (procs n).stmt s = .timeout ∨ ∃ st es, (procs n).stmt s = .ok (st, { s with errors := es }) := by
  cases n with
  | zero => exact .inl rfl
  | succ n =>
    right
    change ∃ st es, statement n (procs n) s = _
    have ht : stmtHandler s.lex.token = .ERR := by rcases h with h | ⟨h, -⟩ <;> rw [h] <;> rfl
    obtain ⟨es, he⟩ := error_stuck h
    refine ⟨.empty ⟨s.lex.tokenStart, s.lex.tokenStart⟩, es, ?_⟩
    change runSH n (procs n) (stmtHandler s.lex.token) s = _
    rw [ht]
    change (error >>= fun _ => pure _ : P Stmt) s = _
    rw [P.bind_run, he]
    rfl

/-- C16 is false: a source whose first token is a character that cannot start a token and is not ASCII. -/
theorem diverges_of_stuck {src : Bytes} {l : Lex} (h : Lex.new src = .ok l) (ht : l.token = .UnexpectedToken)
    (hc : l.consume = .ok l) : Diverges src := by
  intro fuel
  have hst : l.Stuck := .inr ⟨ht, hc⟩
  unfold parse runParser
  rw [h]
  suffices program fuel (procs fuel) ⟨l, []⟩ = .timeout by
    simp only [Out.bind]; rw [this]
  have key : ∀ s : PState, s.lex = l → (procs fuel).stmt s = .timeout ∨ ∃ st es, (procs fuel).stmt s = .ok (st, ⟨l, es⟩) := by
    rintro s rfl; exact stmt_stuck fuel hst
  unfold program
  change (if l.token = .EndOfProgram then pure [] else _ : P (List Stmt)) ⟨l, []⟩ = _
  rw [if_neg (by rw [ht]; decide), P.bind_run]
  rcases key ⟨l, []⟩ rfl with e | ⟨st, es, e⟩
  · rw [e]; rfl
  · rw [e]
    refine loop_stuck (I := fun s => s.lex = l) ?_ _ _ _ rfl
    rintro x s rfl
    rcases key s rfl with e | ⟨st, es, e⟩
    · left
      simp [P.bind_run, tok, Out.bind, ht, e]
    · right
      refine ⟨x ++ [st], ⟨s.lex, es⟩, ?_, rfl⟩
      simp [P.bind_run, tok, Out.bind, ht, e]
      rfl

/-- A case body that the source does not go on after: the parser looks for statements forever. -/
theorem caseBody_stuck (n m : Nat) (e : Nat) (acc : List Stmt) {s : PState} (h : s.lex.token = .EndOfProgram) :
    loop n (fun ((e, acc) : Nat × List Stmt) => do
      match ← tok with
      | .Case | .Default | .BraceClose => pure (.done (e, acc))
      | _ => do
        let st ← (procs m).stmt
        pure (.again (st.loc.stop, acc ++ [st]))) (e, acc) s = .timeout := by
  refine loop_stuck (I := fun t => t.lex = s.lex) ?_ _ _ _ rfl
  rintro ⟨e, acc⟩ t ht
  have h' : t.lex.token = .EndOfProgram := ht ▸ h
  rcases stmt_stuck m (.inl h') with hs | ⟨st, es, hs⟩
  · left
    simp only [P.bind_run, tok, Out.bind, h', hs]
  · right
    refine ⟨(st.loc.stop, acc ++ [st]), { t with errors := es }, ?_, ht⟩
    simp only [P.bind_run, tok, Out.bind, h', hs]
    rfl

/-- The state after a run that returned. -/
def stateOf {α : Type} (x : Out (α × PState)) : Option PState :=
  match x with
  | .ok (_, s) => some s
  | _ => none

theorem of_stateOf {α : Type} {x : Out (α × PState)} {s : PState} (h : stateOf x = some s) : ∃ a, x = .ok (a, s) := by
  unfold stateOf at h
  split at h
  · simp at h; subst h; exact ⟨_, rfl⟩
  · simp at h

theorem P.bind_eq {α β : Type} {m : P α} {f : α → P β} {s t : PState} {a : α} (h : m s = .ok (a, t)) :
    (m >>= f) s = f a t := by rw [P.bind_run, h]; rfl

theorem P.bind_timeout {α β : Type} {m : P α} {f : α → P β} {s : PState} (h : m s = .timeout) :
    (m >>= f) s = .timeout := by rw [P.bind_run, h]; rfl

theorem LeP.ok {α : Type} {m m' : P α} (h : LeP m m') {s : PState} {x : α × PState} (hm : m s = .ok x) : m' s = .ok x := by
  rcases h.le s with e | e
  · rw [e] at hm; cases hm
  · rw [← e]; exact hm

theorem diverges_of_large {src : Bytes} (k : Nat) (h : ∀ n, k ≤ n → parse n src = .timeout) : Diverges src := by
  intro n
  by_cases hn : k ≤ n
  · exact h n hn
  · by_cases ht : parse n src = .timeout
    · exact ht
    · rw [← parse_fuel (by omega : n ≤ k) src ht]
      exact h k (Nat.le_refl k)

end Ratel
