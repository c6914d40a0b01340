import Verif.Lexer
/-! The lexer does not look at its token to find the next one. -/
namespace Ratel
namespace Lex
set_option linter.unusedSectionVars false
variable [Unicode] {t : Token}

/-- The state `x` does not matter except for its token. -/
def Ign {α : Type} (f : Lex → Out α) : Prop := ∀ l t, f (l.setToken t) = f l

theorem Ign.bump {α : Type} {f : Lex → Out α} (hf : Ign f) : Ign (fun l => l.bump >>= f) := by
  intro l t
  cases h : l.rest with
  | nil => simp only [Lex.bump, setToken, h]
  | cons c r =>
    simp only [Lex.bump, setToken, h]
    exact hf { l with rest := r, index := l.index + 1 } t

theorem Ign.ite {α : Type} {c : Lex → Prop} [∀ l, Decidable (c l)] {f g : Lex → Out α} (hc : ∀ l t, c (l.setToken t) ↔ c l)
    (hf : Ign f) (hg : Ign g) : Ign (fun l => if c l then f l else g l) := by
  intro l t
  have := hc l t
  by_cases h : c l
  · simp only [if_pos h, if_pos (this.mpr h), hf l t]
  · simp only [if_neg h, if_neg (fun x => h (this.mp x)), hg l t]

theorem Ign.skip {α : Type} {f : Lex → Out α} {p : Byte → Bool} (hf : Ign f) : Ign (fun l => f (l.skipWhile p)) := by
  intro l t
  exact hf (l.skipWhile p) t

theorem Ign.set {t : Token} : Ign (fun l => .ok (l.setToken t)) := fun _ _ => rfl

macro "ign" : tactic => `(tactic| repeat' first
  | exact Ign.set
  | (intro _ _; rfl)
  | (intro _ _; exact Iff.rfl)
  | apply Ign.bump
  | apply Ign.ite
  | apply Ign.skip)

theorem ign_single (t : Token) : Ign (single t) := by unfold single; ign
theorem ign_readScientific : Ign readScientific := by
  intro l t
  unfold readScientific
  by_cases h : l.readByte = #b'-' ∨ l.readByte = #b'+'
  · have h' : (l.setToken t).readByte = #b'-' ∨ (l.setToken t).readByte = #b'+' := h
    simp only [if_pos h, if_pos h']
    exact (Ign.bump (f := fun l => .ok ((l.skipWhile isDigit).setToken .LiteralNumber)) (by ign)) l t
  · have h' : ¬ ((l.setToken t).readByte = #b'-' ∨ (l.setToken t).readByte = #b'+') := h
    simp only [if_neg h, if_neg h']
    rfl
theorem ign_readFloat : Ign readFloat := by
  refine Ign.skip (f := fun l => if l.readByte = #b'e' ∨ l.readByte = #b'E' then l.bump >>= readScientific
    else .ok (l.setToken .LiteralNumber)) ?_
  exact Ign.ite (fun _ _ => Iff.rfl) (Ign.bump ign_readScientific) Ign.set
theorem ign_digitsLoop : Ign digitsLoop := by
  refine Ign.skip (f := fun l => if l.readByte = #b'.' then l.bump >>= readFloat
    else if l.readByte = #b'e' ∨ l.readByte = #b'E' then l.bump >>= readScientific
    else .ok (l.setToken .LiteralNumber)) ?_
  exact Ign.ite (fun _ _ => Iff.rfl) (Ign.bump ign_readFloat)
    (Ign.ite (fun _ _ => Iff.rfl) (Ign.bump ign_readScientific) Ign.set)
theorem ign_readAccessor : Ign readAccessor := by
  intro l t
  unfold readAccessor
  simp only [setToken]
  split
  · rfl
  · split
    · rfl
    · split <;> rfl
theorem ign_readTemplateKind : Ign readTemplateKind := by
  intro l t
  unfold readTemplateKind
  simp only [setToken]
  split
  · rfl
  · split <;> rfl
theorem ign_uni : Ign uni := by
  intro l t
  unfold uni
  simp only [setToken]
  split
  · rfl
  · split <;> rfl

/-- The same up to the token. -/
def Ret {α : Type} (t : Token) (x y : Out (Lex × α)) : Prop :=
  y = x.bind fun (l, a) => .ok (l.setToken t, a)

theorem Ret.bump {α : Type} {f : Lex → Out (Lex × α)} (hf : ∀ l, Ret t (f l) (f (l.setToken t))) (l : Lex) :
    Ret t (l.bump >>= f) ((l.setToken t).bump >>= f) := by
  cases h : l.rest with
  | nil => simp only [Ret, Lex.bump, setToken, h]; rfl
  | cons c r =>
    simp only [Lex.bump, setToken, h]
    exact hf { l with rest := r, index := l.index + 1 }

theorem ret_matchLeaf (bs : Bytes) : ∀ l, Ret t (matchLeaf bs l) (matchLeaf bs (l.setToken t)) := by
  induction bs with
  | nil => intro l; exact Ret.bump (f := fun l => .ok (l, !legalInLabel l.readByte)) (fun _ => rfl) l
  | cons b bs ih =>
    intro l
    refine Ret.bump (f := fun l => if l.readByte = b then matchLeaf bs l else .ok (l, false)) (fun l => ?_) l
    change Ret t _ (if l.readByte = b then matchLeaf bs (l.setToken t) else _)
    split
    · exact ih l
    · rfl

mutual
theorem ret_matchLabel : (tr : Trie) → ∀ l, Ret t (matchLabel tr l) (matchLabel tr (l.setToken t))
  | .leaf bs tk, l => by
    have := ret_matchLeaf (t := t) bs l
    unfold matchLabel
    unfold Ret at this ⊢
    rw [this]
    cases matchLeaf bs l <;> rfl
  | .node dflt brs, l => by
    unfold matchLabel
    exact Ret.bump (ret_matchBranches dflt brs) l
theorem ret_matchBranches : (dflt : Option Token) → (brs : List (Byte × Trie)) → ∀ l,
    Ret t (matchBranches dflt brs l) (matchBranches dflt brs (l.setToken t))
  | dflt, [], l => by
    unfold matchBranches
    rfl
  | dflt, (b, tr) :: brs, l => by
    unfold matchBranches
    change Ret t _ (if l.readByte = b then matchLabel tr (l.setToken t) else _)
    split
    · exact ret_matchLabel tr l
    · exact ret_matchBranches dflt brs l
end

theorem ign_labelHandler (tr : Trie) : Ign (labelHandler tr) := by
  intro l t
  have := ret_matchLabel (t := t) tr l
  unfold labelHandler
  unfold Ret at this
  rw [this]
  cases h : matchLabel tr l with
  | ok x => obtain ⟨l', a⟩ := x; cases a <;> rfl
  | _ => rfl

theorem ign_slh {again : Lex → Out Lex} (ha : Ign again) : Ign (slh again) := by
  unfold slh
  refine Ign.bump (Ign.ite (fun _ _ => Iff.rfl) (Ign.bump (Ign.skip ha)) (Ign.ite (fun _ _ => Iff.rfl) (Ign.bump ?_)
    (Ign.ite (fun _ _ => Iff.rfl) (ign_single _) Ign.set)))
  intro l t
  change (match blockCommentGo l.rest l.index with
    | (true, r, i) => again ((l.moveTo r i).setToken t)
    | (false, r, i) => .ok ((l.moveTo r i).setToken .UnexpectedEndOfProgram)) = (match blockCommentGo l.rest l.index with
    | (true, r, i) => again (l.moveTo r i)
    | (false, r, i) => .ok ((l.moveTo r i).setToken .UnexpectedEndOfProgram))
  rcases blockCommentGo l.rest l.index with ⟨_ | _, r, i⟩
  · rfl
  · exact ha _ t

theorem ign_doubled (c : Byte) (a b d : Token) : Ign (doubled c a b d) := by
  exact Ign.bump (Ign.ite (fun _ _ => Iff.rfl) (ign_single _) (Ign.ite (fun _ _ => Iff.rfl) (ign_single _) Ign.set))

theorem ign_qot : Ign qot := by
  intro l t
  unfold qot
  exact (Ign.bump (f := fun l' => .ok ((l'.moveTo (quoteGo l.readByte l'.rest l'.index).2.1
    (quoteGo l.readByte l'.rest l'.index).2.2).setToken (quoteGo l.readByte l'.rest l'.index).1)) (by ign)) l t

theorem ign_runHandler {again : Lex → Out Lex} (ha : Ign again) {h : Handler} (hh : h ≠ .WS) :
    Ign (runHandler again h) := by
  cases h
  case WS => exact absurd rfl hh
  case SLH => exact ign_slh ha
  case QOT => exact ign_qot
  case UNI => exact ign_uni
  case TPL => exact Ign.bump ign_readTemplateKind
  case DIG => exact Ign.bump ign_digitsLoop
  case EOF => exact fun _ _ => rfl
  case SEM => exact Ign.bump fun _ _ => rfl
  case PNC => exact Ign.bump fun _ _ => rfl
  case BEC => exact Ign.bump fun _ _ => rfl
  case IDT => exact Ign.bump (Ign.skip Ign.set)
  case CRT => exact Ign.bump (Ign.ite (fun _ _ => Iff.rfl) (ign_single _) Ign.set)
  case PRC => exact Ign.bump (Ign.ite (fun _ _ => Iff.rfl) (ign_single _) Ign.set)
  case EQL => exact Ign.bump (Ign.ite (fun _ _ => Iff.rfl) (Ign.bump (Ign.ite (fun _ _ => Iff.rfl) (ign_single _) Ign.set))
    (Ign.ite (fun _ _ => Iff.rfl) (ign_single _) Ign.set))
  case EXL => exact Ign.bump (Ign.ite (fun _ _ => Iff.rfl) (Ign.bump (Ign.ite (fun _ _ => Iff.rfl) (ign_single _) Ign.set))
    Ign.set)
  case LSS => exact Ign.bump (Ign.ite (fun _ _ => Iff.rfl) (Ign.bump (Ign.ite (fun _ _ => Iff.rfl) (ign_single _) Ign.set))
    (Ign.ite (fun _ _ => Iff.rfl) (ign_single _) Ign.set))
  case ATR => exact Ign.bump (Ign.ite (fun _ _ => Iff.rfl) (Ign.bump (Ign.ite (fun _ _ => Iff.rfl) (ign_single _) Ign.set))
    (Ign.ite (fun _ _ => Iff.rfl) (ign_single _) Ign.set))
  case MOR => exact Ign.bump (Ign.ite (fun _ _ => Iff.rfl) (Ign.bump (Ign.ite (fun _ _ => Iff.rfl)
    (Ign.bump (Ign.ite (fun _ _ => Iff.rfl) (ign_single _) Ign.set)) (Ign.ite (fun _ _ => Iff.rfl) (ign_single _) Ign.set)))
    (Ign.ite (fun _ _ => Iff.rfl) (ign_single _) Ign.set))
  case ZER => exact Ign.bump (Ign.ite (fun _ _ => Iff.rfl) (Ign.bump fun _ _ => rfl) (Ign.ite (fun _ _ => Iff.rfl)
    (Ign.bump fun _ _ => rfl) (Ign.ite (fun _ _ => Iff.rfl) (Ign.bump fun _ _ => rfl) ign_digitsLoop)))
  case PRD =>
    refine Ign.bump (Ign.ite ?_ (Ign.bump ign_readFloat) (Ign.ite (fun _ _ => Iff.rfl) (Ign.bump (Ign.ite (fun _ _ => Iff.rfl)
      (ign_single _) Ign.set)) ign_readAccessor))
    exact fun _ _ => Iff.rfl
  case AMP => exact ign_doubled _ _ _ _
  all_goals first
    | exact ign_single _
    | exact ign_doubled _ _ _ _
    | exact ign_labelHandler _

theorem ign_scan (n : Nat) : Ign (scan n) := by
  induction n with
  | zero => intro _ _; rfl
  | succ n ih =>
    intro l t
    unfold scan
    by_cases h : handlerOf l.readByte = .WS
    · have h' : handlerOf (l.setToken t).readByte = .WS := h
      simp only [if_pos h, if_pos h']
      refine Ign.bump (f := fun l' => scan n (if l.readByte = #b'\n' then { l' with asi := .ImplicitSemicolon } else l'))
        (fun l' t => ?_) l t
      by_cases h : l.readByte = #b'\n'
      · simp only [if_pos h]; exact ih { l' with asi := .ImplicitSemicolon } t
      · simp only [if_neg h]; exact ih l' t
    · have h' : ¬ handlerOf (l.setToken t).readByte = .WS := h
      simp only [if_neg h, if_neg h']
      exact ign_runHandler (again := fun l => scan n { l with asi := .NoSemicolon })
        (fun l t => ih { l with asi := .NoSemicolon } t) h { l with tokenStart := l.index } t

/-- The lexer does not look at its token to find the next one. -/
theorem consume_token (l : Lex) (t : Token) : (l.setToken t).consume = l.consume :=
  ign_scan (l.rest.length + 1) { l with asi := .NoSemicolon } t

end Lex
end Ratel
