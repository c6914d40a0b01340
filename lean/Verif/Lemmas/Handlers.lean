import Verif.Lemmas.Lexer
/-! Each byte handler of the lexer produces a lexeme of the grammar in `Spec/Lexemes`. -/
namespace Ratel
set_option linter.unusedSectionVars false
open Spec

theorem byte_forall {P : Byte → Prop} (h : ∀ n < 256, P (UInt8.ofNat n)) : ∀ b, P b := by
  intro b
  have := h b.toNat b.toNat_lt
  simpa using this

theorem legalInLabel_eq (b : Byte) : legalInLabel b = wordByte b := by
  revert b
  apply byte_forall
  decide +kernel

theorem accessorStartTable_eq (b : Byte) : accessorStartTable b = wordStart b := by
  revert b
  apply byte_forall
  decide +kernel

theorem isDigit_eq : Lex.isDigit = isDigit := rfl

/-- The bytes that make a longer punctuator out of `p`. -/
def extensions (p : Bytes) : Bytes :=
  puncts.filterMap fun x => if p <+: x.1 then x.1[p.length]? else none

theorem punct_max {p r : Bytes} (h : next r ∉ extensions p) :
    ∀ x ∈ puncts, x.1 <+: p ++ r → x.1.length ≤ p.length := by
  intro x hx hp
  apply Nat.le_of_not_lt
  intro hlt
  apply h
  have hpre : p <+: x.1 := List.prefix_of_prefix_length_le (List.prefix_append p r) hp (by omega)
  obtain ⟨s, hs⟩ := hpre
  obtain ⟨u, hu⟩ := hp
  unfold extensions
  rw [List.mem_filterMap]
  refine ⟨x, hx, ?_⟩
  rw [if_pos ⟨s, hs⟩]
  rw [← hs] at hu hlt ⊢
  rw [List.append_assoc, List.append_cancel_left_eq] at hu
  cases s with
  | nil => simp at hlt
  | cons a s => simp [next, ← hu]

namespace Lex
variable [Unicode]

/-- What a handler achieves: it moves over the text of a token. -/
def Lexed (l l' : Lex) : Prop := ∃ p, Over p l l' ∧ Lexeme l'.token p l'.rest

theorem lexed_punct {l l' : Lex} (p : Bytes) {t : Token} {r : Bytes} (hs : l'.src = l.src)
    (ht : l'.tokenStart = l.tokenStart) (hr : l.rest = p ++ l'.rest) (hi : l'.index = l.index + p.length) (ha : l'.asi = l.asi)
    (hr' : l'.rest = r) (ht' : l'.token = t) (hm : (p, t) ∈ puncts) (he : next r ∉ extensions p)
    (hc : p = bs!"/" → next r ≠ #b'/' ∧ next r ≠ #b'*') : Lexed l l' := by
  subst hr' ht'
  exact ⟨p, ⟨hs, ht, hr, hi, ha⟩, .punct hm (punct_max he) hc⟩

/-- Splits the tests of an operator handler. -/
macro "op_split" f:ident : tactic => `(tactic| (
  simp only [$f:ident, bump, Out.bind_ok, readByte, List.headD_cons, List.headD_nil, single, setToken]
  repeat' (apply Out.Sat.ite <;> intro h <;> try (exact absurd h (by decide)))))

/-- Finishes an operator handler. -/
macro "op_done" : tactic => `(tactic| (
  subst_vars
  first
  | exact lexed_punct [_] rfl rfl rfl rfl rfl rfl rfl (by dsimp only; decide) (by simp [next, extensions, puncts, *]) (by simp [next, *])
  | exact lexed_punct [_, _] rfl rfl rfl rfl rfl rfl rfl (by dsimp only; decide) (by simp [next, extensions, puncts, *]) (by simp [next, *])
  | exact lexed_punct [_, _, _] rfl rfl rfl rfl rfl rfl rfl (by dsimp only; decide) (by simp [next, extensions, puncts, *]) (by simp [next, *])
  | exact lexed_punct [_, _, _, _] rfl rfl rfl rfl rfl rfl rfl (by dsimp only; decide) (by simp [next, extensions, puncts, *]) (by simp [next, *])
))

/-- Solves the goal for one operator handler. -/
macro "op_handler" l:ident r:ident hr:ident f:ident : tactic => `(tactic| (
  cases $l:ident with
  | mk src rest index tokenStart accessorStart token asi quasi =>
  simp only at $hr:ident
  subst $hr:ident
  rcases $r:ident with _ | ⟨a, _ | ⟨b, _ | ⟨c, r⟩⟩⟩ <;> op_split $f:ident <;> op_done))

theorem lexed_eql {l : Lex} {r : Bytes} (hr : l.rest = #b'=' :: r) :
    l.eql.Sat (Lexed l) False False False := by
  op_handler l r hr eql

theorem lexed_exl {l : Lex} {r : Bytes} (hr : l.rest = #b'!' :: r) :
    l.exl.Sat (Lexed l) False False False := by
  op_handler l r hr exl

theorem lexed_lss {l : Lex} {r : Bytes} (hr : l.rest = #b'<' :: r) :
    l.lss.Sat (Lexed l) False False False := by
  op_handler l r hr lss

theorem lexed_mor {l : Lex} {r : Bytes} (hr : l.rest = #b'>' :: r) :
    l.mor.Sat (Lexed l) False False False := by
  op_handler l r hr mor

theorem lexed_crt {l : Lex} {r : Bytes} (hr : l.rest = #b'^' :: r) :
    l.crt.Sat (Lexed l) False False False := by
  op_handler l r hr crt

theorem lexed_atr {l : Lex} {r : Bytes} (hr : l.rest = #b'*' :: r) :
    l.atr.Sat (Lexed l) False False False := by
  op_handler l r hr atr

theorem lexed_prc {l : Lex} {r : Bytes} (hr : l.rest = #b'%' :: r) :
    l.prc.Sat (Lexed l) False False False := by
  op_handler l r hr prc

theorem lexed_amp {l : Lex} {r : Bytes} (hr : l.rest = #b'&' :: r) :
    (l.doubled #b'&' .OperatorLogicalAnd .OperatorBitAndAssign .OperatorBitwiseAnd).Sat (Lexed l) False False False := by
  op_handler l r hr doubled

theorem lexed_pip {l : Lex} {r : Bytes} (hr : l.rest = #b'|' :: r) :
    (l.doubled #b'|' .OperatorLogicalOr .OperatorBitOrAssign .OperatorBitwiseOr).Sat (Lexed l) False False False := by
  op_handler l r hr doubled

theorem lexed_pls {l : Lex} {r : Bytes} (hr : l.rest = #b'+' :: r) :
    (l.doubled #b'+' .OperatorIncrement .OperatorAddAssign .OperatorAddition).Sat (Lexed l) False False False := by
  op_handler l r hr doubled

theorem lexed_min {l : Lex} {r : Bytes} (hr : l.rest = #b'-' :: r) :
    (l.doubled #b'-' .OperatorDecrement .OperatorSubtractAssign .OperatorSubtraction).Sat (Lexed l) False False False := by
  op_handler l r hr doubled

/-- The handlers of one byte tokens. -/
theorem lexed_single {l : Lex} {c : Byte} {r : Bytes} (hr : l.rest = c :: r) (t : Token)
    (h : ([c], t) ∈ puncts) (he : extensions [c] = []) (hc : c ≠ #b'/') :
    (l.single t).Sat (Lexed l) False False False := by
  rw [single, bump_cons hr]
  exact lexed_punct [c] rfl rfl hr rfl rfl rfl rfl h (by simp [he]) (by simp [hc])

end Lex
end Ratel
