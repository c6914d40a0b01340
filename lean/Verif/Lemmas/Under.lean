import Verif.Lemmas.Local
/-! Lexing text with something in front of it: all positions are moved, nothing else changes. -/
namespace Ratel
open Spec

set_option linter.unusedSectionVars false

/-- The lexer with the text `g` in front of its source and another `asi`. An `accessorStart` of 0 says that there was none yet. -/
def Lex.under (g : Bytes) (φ : Asi → Asi) (l : Lex) : Lex :=
  { l with src := g ++ l.src, index := l.index + g.length, tokenStart := l.tokenStart + g.length,
           accessorStart := if l.accessorStart = 0 then 0 else l.accessorStart + g.length, asi := φ l.asi }

/-- An outcome with `g` in front. -/
def Out.up (g : Bytes) (φ : Asi → Asi) (o : Out Lex) : Out Lex := o.bind fun l => .ok (l.under g φ)

namespace Lex
variable {g : Bytes} {φ : Asi → Asi}

@[simp] theorem up_ok (l : Lex) : (Out.ok l).up g φ = .ok (l.under g φ) := rfl
@[simp] theorem up_oob : (Out.oob : Out Lex).up g φ = .oob := rfl
@[simp] theorem up_panic : (Out.panic : Out Lex).up g φ = .panic := rfl
@[simp] theorem up_timeout : (Out.timeout : Out Lex).up g φ = .timeout := rfl

theorem up_bind {o : Out Lex} {f f' : Lex → Out Lex} (h : ∀ l, o = .ok l → f' (l.under g φ) = (f l).up g φ) :
    (o.up g φ >>= f') = (o >>= f).up g φ := by
  cases o with
  | ok l => exact h l rfl
  | _ => rfl

@[simp] theorem under_rest (l : Lex) : (l.under g φ).rest = l.rest := rfl
@[simp] theorem under_index (l : Lex) : (l.under g φ).index = l.index + g.length := rfl
@[simp] theorem under_token (l : Lex) : (l.under g φ).token = l.token := rfl
@[simp] theorem under_asi (l : Lex) : (l.under g φ).asi = φ l.asi := rfl
@[simp] theorem under_readByte (l : Lex) : (l.under g φ).readByte = l.readByte := rfl
@[simp] theorem under_setToken (l : Lex) (t : Token) : (l.under g φ).setToken t = (l.setToken t).under g φ := rfl
@[simp] theorem under_moveTo (l : Lex) (r : Bytes) (i : Nat) :
    (l.under g φ).moveTo r (i + g.length) = (l.moveTo r i).under g φ := rfl
theorem under_slice (l : Lex) (a b : Nat) : (l.under g φ).sliceSource (a + g.length) (b + g.length) = l.sliceSource a b := by
  unfold sliceSource
  rw [show (l.under g φ).src = g ++ l.src from rfl, Nat.add_comm a, ← List.drop_drop, List.drop_left,
    show b + g.length - (g.length + a) = b - a by omega]

@[simp] theorem under_bump (l : Lex) : (l.under g φ).bump = l.bump.up g φ := by
  unfold bump
  rw [under_rest]
  split
  · rfl
  · simp [under, Nat.add_right_comm]

@[simp] theorem under_skipWhile (p : Byte → Bool) (l : Lex) : (l.under g φ).skipWhile p = (l.skipWhile p).under g φ := by
  simp only [skipWhile, skipWhileGo_eq, under_rest, under_index, Nat.add_right_comm _ g.length, under_moveTo]

@[simp] theorem under_readLabel (l : Lex) : (l.under g φ).readLabel = l.readLabel.under g φ := under_skipWhile _ _
@[simp] theorem under_readBinary (l : Lex) : (l.under g φ).readBinary = l.readBinary.under g φ := by simp [readBinary]
@[simp] theorem under_readOctal (l : Lex) : (l.under g φ).readOctal = l.readOctal.under g φ := by simp [readOctal]
@[simp] theorem under_readHexadec (l : Lex) : (l.under g φ).readHexadec = l.readHexadec.under g φ := by simp [readHexadec]

macro "under_step" : tactic => `(tactic| first
  | rfl
  | with_reducible (refine up_bind fun _ _ => ?_)
  | (simp only [under_bump, under_readByte, under_skipWhile, under_readLabel, under_setToken, under_readBinary, under_readOctal,
      under_readHexadec])
  | (split <;> simp only [*, if_true, if_false, if_pos, if_neg, not_false_eq_true]))
macro "under" : tactic => `(tactic| (repeat' under_step))

theorem under_ite {c : Prop} [Decidable c] {a b a' b' : Out Lex} (h : c → a' = a.up g φ) (h' : ¬c → b' = b.up g φ) :
    (if c then a' else b') = (if c then a else b).up g φ := by
  split
  · exact h ‹_›
  · exact h' ‹_›

@[simp] theorem under_single [Unicode] (t : Token) (l : Lex) : (l.under g φ).single t = (l.single t).up g φ := by
  unfold single
  rw [under_bump]
  exact up_bind fun l _ => rfl

@[simp] theorem under_readScientific (l : Lex) : (l.under g φ).readScientific = l.readScientific.up g φ := by
  unfold readScientific
  rw [under_readByte]
  split
  · rw [under_bump]
    exact up_bind fun l _ => by simp
  · simp

@[simp] theorem under_readFloat (l : Lex) : (l.under g φ).readFloat = l.readFloat.up g φ := by
  unfold readFloat
  simp only [under_skipWhile, under_readByte]
  refine under_ite (fun _ => ?_) (fun _ => rfl)
  rw [under_bump]
  exact up_bind fun l _ => under_readScientific l

theorem accessorGo_add (k : Nat) (r : Bytes) (i : Nat) :
    accessorGo r (i + k) = (accessorGo r i).map fun (c, s, j) => (c, s, j + k) := by
  induction r generalizing i with
  | nil => rfl
  | cons b r ih =>
    rw [accessorGo, accessorGo]
    split
    · rfl
    · rw [Nat.add_right_comm]; exact ih _

theorem under_readAccessor {l : Lex} (h : l.index ≠ 0) : (l.under g φ).readAccessor = l.readAccessor.up g φ := by
  unfold readAccessor
  rw [under_rest, under_index, accessorGo_add]
  cases hg : accessorGo l.rest l.index with
  | none => rfl
  | some x =>
    obtain ⟨c, r, i⟩ := x
    obtain ⟨p, t, -, -, -, -, hi⟩ := accessorGo_some hg
    have hi : i ≠ 0 := by omega
    simp only [Option.map_some]
    have e : ({ (l.under g φ).moveTo r (i + g.length) with accessorStart := i + g.length } : Lex)
        = ({ l.moveTo r i with accessorStart := i } : Lex).under g φ := by
      simp [under, moveTo, hi]
    rw [e]
    refine under_ite (fun _ => rfl) fun _ => under_ite (fun _ => ?_) fun _ => rfl
    simp

theorem templateGo_add (k : Nat) (r : Bytes) (i : Nat) :
    templateGo r (i + k) = (templateGo r i).map fun (t, e, s, j) => (t, if t = .UnexpectedEndOfProgram then e else e + k, s, j + k) := by
  fun_induction templateGo r i <;> (rw [templateGo.eq_def]; try simp_all [Nat.add_right_comm _ k])

theorem regexGo_add (k : Nat) (q : Bool) (r : Bytes) (i : Nat) :
    regexGo q r (i + k) = (regexGo q r i).map fun (t, s, j) => (t, s, j + k) := by
  fun_induction regexGo q r i <;> (rw [regexGo.eq_def]; try simp_all [Nat.add_right_comm _ k])

theorem quoteGo_add (s : Byte) (k : Nat) (r : Bytes) (i : Nat) :
    quoteGo s r (i + k) = ((quoteGo s r i).1, (quoteGo s r i).2.1, (quoteGo s r i).2.2 + k) := by
  fun_induction quoteGo s r i <;> (rw [quoteGo.eq_def]; try simp_all [Nat.add_right_comm _ k])

theorem blockCommentGo_add (k : Nat) (r : Bytes) (i : Nat) :
    blockCommentGo r (i + k) = ((blockCommentGo r i).1, (blockCommentGo r i).2.1, (blockCommentGo r i).2.2 + k) := by
  fun_induction blockCommentGo r i <;> (rw [blockCommentGo.eq_def]; try simp_all [Nat.add_right_comm _ k])

theorem under_readTemplateKind (l : Lex) : (l.under g φ).readTemplateKind = l.readTemplateKind.up g φ := by
  unfold readTemplateKind
  rw [under_rest, under_index, templateGo_add]
  cases templateGo l.rest l.index with
  | none => rfl
  | some x =>
    obtain ⟨t, e, r, i⟩ := x
    simp only [Option.map_some]
    by_cases ht : t = .UnexpectedEndOfProgram
    · simp only [ht, if_true]; rfl
    · simp only [ht, if_false, under_slice]; rfl

theorem under_readRegularExpression {l : Lex} (h : l.index ≠ 0) :
    (l.under g φ).readRegularExpression = l.readRegularExpression.bind fun (l', v) => .ok (l'.under g φ, v) := by
  unfold readRegularExpression
  rw [under_rest, under_index, regexGo_add]
  cases regexGo false l.rest l.index with
  | none => rfl
  | some x =>
    obtain ⟨t, r, i⟩ := x
    have h2 := under_slice (g := g) (φ := φ) (((l.moveTo r i).skipWhile regexFlag).setToken .LiteralRegEx) (l.index - 1)
      (((l.moveTo r i).skipWhile regexFlag).setToken .LiteralRegEx).index
    rw [show l.index - 1 + g.length = l.index + g.length - 1 by omega] at h2
    cases t <;> simp only [Option.map_some, under_moveTo, under_skipWhile, under_setToken, under_index, h2] <;> rfl

section
variable [Unicode]

/-- A lexer function whose result does not depend on what is in front. -/
def Moves' (g : Bytes) (φ : Asi → Asi) (f : Lex → Out Lex) : Prop := ∀ l, f (l.under g φ) = (f l).up g φ

macro "mv" : tactic => `(tactic| (intro l; with_reducible repeat' first
  | rfl
  | (apply under_ite <;> intro _)
  | (refine up_bind fun _ _ => ?_)
  | (simp only [under_bump, under_readByte, under_skipWhile, under_readLabel, under_setToken, under_readBinary, under_readOctal,
      under_readHexadec, under_single, under_readScientific, under_readFloat, up_ok])))

theorem eql_mv : Moves' g φ eql := by unfold eql; mv
theorem exl_mv : Moves' g φ exl := by unfold exl; mv
theorem lss_mv : Moves' g φ lss := by unfold lss; mv
theorem mor_mv : Moves' g φ mor := by unfold mor; mv
theorem crt_mv : Moves' g φ crt := by unfold crt; mv
theorem doubled_mv (c : Byte) (a b d : Token) : Moves' g φ (doubled c a b d) := by unfold doubled; mv
theorem atr_mv : Moves' g φ atr := by unfold atr; mv
theorem prc_mv : Moves' g φ prc := by unfold prc; mv
theorem digitsLoop_mv : Moves' g φ digitsLoop := by unfold digitsLoop; mv
theorem zer_mv : Moves' g φ zer := by
  have h : ∀ l : Lex, (l.under g φ).digitsLoop = l.digitsLoop.up g φ := digitsLoop_mv
  unfold zer
  intro l
  simp only [under_bump]
  refine up_bind fun l _ => ?_
  simp only [under_readByte]
  refine under_ite (fun _ => ?_) fun _ => under_ite (fun _ => ?_) fun _ => under_ite (fun _ => ?_) fun _ => h l
  all_goals (simp only [under_bump]; exact up_bind fun l _ => by simp)
theorem dig_mv : Moves' g φ dig := by
  intro l
  unfold dig
  rw [under_bump]
  exact up_bind fun l _ => digitsLoop_mv l
theorem bump_index {l l' : Lex} (h : l.bump = .ok l') : l'.index ≠ 0 := by
  unfold bump at h
  split at h
  · cases h
  · cases h; simp
theorem prd_mv : Moves' g φ prd := by
  unfold prd
  intro l
  simp only [under_bump]
  refine up_bind fun l h => ?_
  simp only [under_readByte]
  refine under_ite (fun _ => ?_) fun _ => under_ite (fun _ => ?_) fun _ => under_readAccessor (bump_index h)
  · simp only [under_bump]; exact up_bind fun l _ => under_readFloat l
  · simp only [under_bump]
    refine up_bind fun l _ => ?_
    simp only [under_readByte]
    exact under_ite (fun _ => under_single _ _) fun _ => rfl
theorem qot_mv : Moves' g φ qot := by
  unfold qot
  intro l
  simp only [under_bump]
  refine up_bind fun l _ => ?_
  simp only [under_readByte, under_rest, under_index, quoteGo_add, under_moveTo]
  rfl
theorem idt_mv : Moves' g φ idt := by unfold idt; mv
theorem uni_mv : Moves' g φ uni := by
  intro l
  unfold uni
  rw [under_rest]
  cases decodeFirst l.rest with
  | none => rfl
  | some c =>
    simp only [under_index, Nat.add_right_comm _ g.length, under_moveTo, under_readLabel]
    exact under_ite (fun _ => rfl) fun _ => rfl

/-- Pairs with a lexer. -/
def _root_.Ratel.Out.up₂ {α : Type} (g : Bytes) (φ : Asi → Asi) (o : Out (Lex × α)) : Out (Lex × α) := o.bind fun x => .ok (x.1.under g φ, x.2)

theorem bind_up₂ {α : Type} {o : Out Lex} {f f' : Lex → Out (Lex × α)} (h : ∀ l, f' (l.under g φ) = (f l).up₂ g φ) :
    (o.up g φ >>= f') = (o >>= f).up₂ g φ := by
  cases o with
  | ok l => exact h l
  | _ => rfl

theorem matchLeaf_mv (bs : Bytes) (l : Lex) : matchLeaf bs (l.under g φ) = (matchLeaf bs l).up₂ g φ := by
  induction bs generalizing l with
  | nil => rw [matchLeaf, matchLeaf, under_bump]; exact bind_up₂ fun l => rfl
  | cons b bs ih =>
    rw [matchLeaf, matchLeaf, under_bump]
    refine bind_up₂ fun l => ?_
    rw [under_readByte]
    split
    · exact ih l
    · rfl

mutual
theorem matchLabel_mv : ∀ (t : Trie) (l : Lex), matchLabel t (l.under g φ) = (matchLabel t l).up₂ g φ
  | .leaf bs t, l => by
    rw [matchLabel, matchLabel, matchLeaf_mv]
    cases matchLeaf bs l <;> rfl
  | .node d brs, l => by
    rw [matchLabel, matchLabel, under_bump]
    exact bind_up₂ fun l => matchBranches_mv d brs l
theorem matchBranches_mv : ∀ (d : Option Token) (brs : List (Byte × Trie)) (l : Lex),
    matchBranches d brs (l.under g φ) = (matchBranches d brs l).up₂ g φ
  | d, [], l => by cases d <;> rfl
  | d, (b, t) :: brs, l => by
    rw [matchBranches, matchBranches, under_readByte]
    split
    · exact matchLabel_mv t l
    · exact matchBranches_mv d brs l
end

theorem labelHandler_mv (t : Trie) : Moves' g φ (labelHandler t) := by
  intro l
  unfold labelHandler
  rw [matchLabel_mv]
  cases matchLabel t l with
  | ok x => obtain ⟨l, t⟩ := x; cases t <;> simp [Out.up₂, Out.bind]
  | _ => rfl

theorem slh_mv {again : Lex → Out Lex} (h : Moves' g φ again) : Moves' g φ (slh again) := by
  unfold slh
  intro l
  simp only [under_bump]
  refine up_bind fun l _ => ?_
  simp only [under_readByte]
  refine under_ite (fun _ => ?_) fun _ => under_ite (fun _ => ?_) fun _ => under_ite (fun _ => under_single _ _) fun _ => rfl
  · simp only [under_bump]
    refine up_bind fun l _ => ?_
    rw [under_skipWhile]
    exact h _
  · simp only [under_bump]
    refine up_bind fun l _ => ?_
    rw [under_rest, under_index, blockCommentGo_add]
    obtain ⟨b, r, i⟩ := blockCommentGo l.rest l.index
    cases b
    · rfl
    · exact h (l.moveTo r i)

theorem runHandler_mv {again : Lex → Out Lex} (x : Handler) (h1 : x ≠ .SLH) (h2 : x ≠ .EOF) (h3 : x ≠ .SEM) (h4 : x ≠ .PNC)
    (h5 : x ≠ .BEC) : Moves' g φ (runHandler again x) := by
  intro l
  cases x
  case SLH | EOF | SEM | PNC | BEC => contradiction
  case WS => rfl
  case TPL => simp only [runHandler, under_bump]; exact up_bind fun l _ => under_readTemplateKind l
  case EQL => exact eql_mv l
  case EXL => exact exl_mv l
  case LSS => exact lss_mv l
  case MOR => exact mor_mv l
  case CRT => exact crt_mv l
  case AMP | PIP | PLS | MIN => exact doubled_mv _ _ _ _ l
  case ATR => exact atr_mv l
  case PRC => exact prc_mv l
  case UNI => exact uni_mv l
  case ZER => exact zer_mv l
  case DIG => exact dig_mv l
  case PRD => exact prd_mv l
  case QOT => exact qot_mv l
  case IDT => exact idt_mv l
  case L_B | L_C | L_D | L_E | L_F | L_I | L_L | L_N | L_P | L_R | L_S | L_T | L_U | L_V | L_W | L_Y => exact labelHandler_mv _ l
  all_goals exact under_single _ l

theorem runHandler_id {again : Lex → Out Lex} (h : Moves' g id again) (x : Handler) : Moves' g id (runHandler again x) := by
  intro l
  cases x
  case SLH => exact slh_mv h l
  case EOF => rfl
  case SEM | PNC | BEC => simp only [runHandler, under_bump]; exact up_bind fun l _ => rfl
  all_goals exact runHandler_mv _ (by decide) (by decide) (by decide) (by decide) (by decide) l

theorem scan_mv (n : Nat) : Moves' g id (scan n) := by
  induction n with
  | zero => exact fun l => rfl
  | succ n ih =>
    intro l
    rw [scan, scan]
    simp only [under_readByte]
    refine under_ite (fun _ => ?_) fun _ => ?_
    · rw [under_bump]
      refine up_bind fun l' _ => ?_
      by_cases hc : l.readByte = #b'\n'
      · simp only [hc, if_true]; exact ih { l' with asi := .ImplicitSemicolon }
      · simp only [hc, if_false]; exact ih l'
    · exact runHandler_id (fun l => ih { l with asi := .NoSemicolon }) _ { l with tokenStart := l.index }

/-- Reading a token under a text. -/
theorem consume_mv : Moves' g id consume := fun l => scan_mv (l.rest.length + 1) { l with asi := .NoSemicolon }

theorem slh_fresh {again : Lex → Out Lex} (h : ∀ l : Lex, again (l.under g φ) = (again l).up g id) (l : Lex) :
    (l.under g φ).slh again = (l.slh again).up g φ ∨ (l.under g φ).slh again = (l.slh again).up g id := by
  unfold slh
  rw [under_bump]
  cases l.bump with
  | ok l =>
    simp only [up_ok, Out.bind_ok, under_readByte]
    by_cases h1 : l.readByte = #b'/'
    · right
      simp only [h1, if_true, under_bump]
      cases l.bump with
      | ok l => simp only [up_ok, Out.bind_ok, under_skipWhile]; exact h _
      | _ => rfl
    · simp only [h1, if_false]
      by_cases h2 : l.readByte = #b'*'
      · simp only [h2, if_true, under_bump]
        cases l.bump with
        | ok l =>
          simp only [up_ok, Out.bind_ok]
          rw [under_rest, under_index, blockCommentGo_add]
          obtain ⟨b, r, i⟩ := blockCommentGo l.rest l.index
          cases b
          · exact .inl rfl
          · exact .inr (h (l.moveTo r i))
        | _ => exact .inl rfl
      · left
        simp only [h2, if_false]
        exact under_ite (fun _ => under_single _ _) fun _ => rfl
  | _ => exact .inl rfl

theorem of_up {o o' : Out Lex} {φ : Asi → Asi} {l1 : Lex} (h : o' = o.up g φ) (ho : o = .ok l1) :
    ∃ l1', o' = .ok l1' ∧ l1' = { l1.under g id with asi := l1'.asi } := by
  subst ho
  exact ⟨_, h, rfl⟩

/-- The first token behind a text that may contain a line break. -/
theorem scan_fresh (n : Nat) (l : Lex) (a : Asi) {l1 : Lex} (h : scan n l = .ok l1) :
    ∃ l1', scan n { l.under g id with asi := a } = .ok l1' ∧ l1' = { l1.under g id with asi := l1'.asi } := by
  induction n generalizing l a with
  | zero => cases h
  | succ n ih =>
    rw [scan] at h ⊢
    have e : ({ l.under g id with asi := a } : Lex).readByte = l.readByte := rfl
    have e2 : ({ l.under g id with asi := a } : Lex).bump = l.bump.up g fun _ => a :=
      under_bump (g := g) (φ := fun _ => a) l
    simp only [e, e2]
    by_cases hw : handlerOf l.readByte = .WS
    · simp only [hw, if_true] at h ⊢
      cases hb : l.bump with
      | ok l2 =>
        simp only [hb, up_ok, Out.bind_ok] at h ⊢
        by_cases hc : l.readByte = #b'\n'
        · simp only [hc, if_true] at h ⊢
          exact ih { l2 with asi := .ImplicitSemicolon } .ImplicitSemicolon h
        · simp only [hc, if_false] at h ⊢
          exact ih l2 a h
      | _ => simp [hb] at h
    · simp only [hw, if_false] at h ⊢
      have e3 : ({ ({ l.under g id with asi := a } : Lex) with tokenStart := ({ l.under g id with asi := a } : Lex).index } : Lex)
          = ({ l with tokenStart := l.index } : Lex).under g fun _ => a := rfl
      rw [e3]
      generalize handlerOf l.readByte = x at *
      generalize ({ l with tokenStart := l.index } : Lex) = l2 at *
      cases x
      case SLH =>
        have h3 := slh_fresh (g := g) (φ := fun _ => a) (again := fun l => scan n { l with asi := .NoSemicolon })
          (fun l => scan_mv n { l with asi := .NoSemicolon }) l2
        rcases h3 with h3 | h3
        · exact of_up h3 h
        · exact of_up h3 h
      case EOF => cases h; exact ⟨_, rfl, rfl⟩
      case SEM | PNC | BEC =>
        simp only [runHandler, under_bump] at h ⊢
        cases hb : l2.bump with
        | ok l3 => rw [hb] at h; cases h; exact ⟨_, rfl, rfl⟩
        | _ => rw [hb] at h; cases h
      all_goals exact of_up (runHandler_mv _ (by decide) (by decide) (by decide) (by decide) (by decide) l2) h

end
end Lex
end Ratel
