import Verif.Lemmas.Text
/-! A program logic for parser runs that report no error: `W m l Q` says that if `m`, started with the
lexer in state `l` and no errors, ends without errors, then its result and the final lexer state satisfy `Q`. -/
namespace Ratel
open Spec

set_option linter.unusedSectionVars false
variable [Unicode]

/-- Partial correctness of error-free runs. -/
def W {α : Type} (m : P α) (l : Lex) (Q : α → Lex → Prop) : Prop :=
  ∀ a l', m ⟨l, []⟩ = .ok (a, ⟨l', []⟩) → Q a l'

/-- A procedure that never drops errors. -/
class Mono (src : Bytes) {α : Type} (m : P α) : Prop where
  errors : ∀ s a s', m s = .ok (a, s') → s.errors <+: s'.errors

section
variable {src : Bytes} {α β σ : Type}

theorem Mono.known {m : P α} [Known src m] : Mono src m := ⟨fun _ _ _ h => ((Known.is (src := src)).steps h).errors⟩
theorem Mono.prog {m : P α} {pre} (h : IsProg src pre m) : Mono src m := ⟨fun _ _ _ h' => (h.steps h').errors⟩
theorem Mono.pure (a : α) : Mono src (pure a : P α) := ⟨fun s _ s' h => by cases h; exact List.prefix_refl _⟩
theorem Mono.bind {m : P α} {f : α → P β} (h : Mono src m) (hf : ∀ a, Mono src (f a)) : Mono src (m >>= f) :=
  ⟨fun s b s' hr => by
    obtain ⟨a, t, h1, h2⟩ := P.bind_ok.1 hr
    exact (h.errors _ _ _ h1).trans ((hf a).errors _ _ _ h2)⟩
theorem Mono.loop {body : σ → P (Step σ α)} (hb : ∀ x, Mono src (body x)) : ∀ (n : Nat) (x : σ), Mono src (Ratel.loop n body x) := by
  intro n
  induction n with
  | zero => exact fun x => ⟨fun _ _ _ h => by cases h⟩
  | succ n ih =>
    intro x
    rw [Ratel.loop]
    refine .bind (hb x) fun r => ?_
    split
    · exact ih _
    · exact .pure _

theorem Mono.read {f : PState → α} : Mono src (fun s => .ok (f s, s) : P α) :=
  ⟨fun s _ s' h => by cases h; exact List.prefix_refl _⟩
instance : Mono src tok := .read
instance : Mono src asi := .read
instance : Mono src start := .read
instance : Mono src stop := .read
instance : Mono src curLoc := .read
instance : Mono src tokStr := .read
instance : Mono src accStr := .read
instance : Mono src quasi := .read
instance : Mono src consume := .prog (pre := fun _ => True) .consume
instance : Mono src readTemplateKind := .prog (pre := fun _ => False) (.template nofun)
instance : Mono src readRegex := .prog (pre := fun _ => False) (.regex nofun)
instance : Mono src error := .prog (pre := fun _ => True) .error
instance {v} : Mono src (stringContent v) := ⟨fun s a s' h => by
  unfold stringContent at h
  split at h
  · cases h
  · cases h; exact List.prefix_refl _⟩
instance {n R} [Rec.Known src R] {h} : Mono src (runEH n R h) := .prog (runEH_prog h)

macro "mono_step" : tactic => `(tactic| with_reducible first
  | apply Mono.pure
  | exact Mono.known
  | infer_instance
  | (apply Mono.loop; intro _)
  | apply Mono.bind
  | intro _
  | dsimp only
  | split)
/-- Proves `Mono`. -/
macro "mono" : tactic => `(tactic| (repeat' mono_step))

theorem W.weaken {m : P α} {l : Lex} {Q Q' : α → Lex → Prop} (h : W m l Q) (hq : ∀ a l', Q a l' → Q' a l') : W m l Q' :=
  fun a l' hr => hq a l' (h a l' hr)

theorem W.pure {a : α} {l : Lex} {Q : α → Lex → Prop} (h : Q a l) : W (pure a) l Q := by
  intro a' l' hr
  cases hr
  exact h

theorem W.bind {m : P α} {f : α → P β} {l : Lex} {Q : β → Lex → Prop} (h : W m l fun a l' => W (f a) l' Q)
    (hf : ∀ a, Mono src (f a)) : W (m >>= f) l Q := by
  intro b l' hr
  obtain ⟨a, t, h1, h2⟩ := P.bind_ok.1 hr
  have he := (hf a).errors _ _ _ h2
  obtain ⟨l1, es⟩ := t
  cases List.prefix_nil.1 he
  exact h a l1 h1 b l' h2

theorem W.assoc {γ : Type} {m : P α} {f : α → P β} {g : β → P γ} {l : Lex} {Q : γ → Lex → Prop}
    (h : W (m >>= fun a => f a >>= g) l Q) : W (m >>= f >>= g) l Q := by
  intro b l' hr
  refine h b l' ?_
  rw [← hr, P.bind_run, P.bind_run, P.bind_run]
  cases m ⟨l, []⟩ <;> rfl

theorem W.pure_bind {a : α} {f : α → P β} {l : Lex} {Q : β → Lex → Prop} (h : W (f a) l Q) : W (Pure.pure a >>= f) l Q := h

theorem W.tok {f : Token → P β} {l : Lex} {Q : β → Lex → Prop} (h : W (f l.token) l Q) : W (tok >>= f) l Q := h
theorem W.asi {f : Asi → P β} {l : Lex} {Q : β → Lex → Prop} (h : W (f l.asi) l Q) : W (asi >>= f) l Q := h
theorem W.start {f : Nat → P β} {l : Lex} {Q : β → Lex → Prop} (h : W (f l.tokenStart) l Q) : W (start >>= f) l Q := h
theorem W.stop {f : Nat → P β} {l : Lex} {Q : β → Lex → Prop} (h : W (f l.index) l Q) : W (stop >>= f) l Q := h
theorem W.curLoc {f : Loc → P β} {l : Lex} {Q : β → Lex → Prop} (h : W (f ⟨l.tokenStart, l.index⟩) l Q) : W (curLoc >>= f) l Q := h
theorem W.tokStr {f : Bytes → P β} {l : Lex} {Q : β → Lex → Prop} (h : W (f l.tokenAsStr) l Q) : W (tokStr >>= f) l Q := h
theorem W.accStr {f : Bytes → P β} {l : Lex} {Q : β → Lex → Prop} (h : W (f l.accessorAsStr) l Q) : W (accStr >>= f) l Q := h
theorem W.quasi {f : Bytes → P β} {l : Lex} {Q : β → Lex → Prop} (h : W (f l.quasi) l Q) : W (quasi >>= f) l Q := h

/-- The lexer states of the parser: it reads templates only behind `}` and regular expressions only behind `/`. -/
inductive Proper (src : Bytes) : Lex → Prop where
  | new {l : Lex} (h : Lex.new src = .ok l) : Proper src l
  | consume {l l' : Lex} (h : Proper src l) (h' : l.consume = .ok l') : Proper src l'
  | template {l l' : Lex} (h : Proper src l) (ht : l.token = .BraceClose) (h' : l.readTemplateKind = .ok l') : Proper src l'
  | regex {l l' : Lex} {v : Bytes} (h : Proper src l) (ht : l.token = .OperatorDivision)
      (h' : l.readRegularExpression = .ok (l', v)) : Proper src l'

theorem Proper.lexing {l : Lex} (h : Proper src l) : Lexing src l := by
  induction h with
  | new h => exact .new h
  | consume _ h' ih => exact ih.consume h'
  | template _ _ h' ih => exact ih.template h'
  | regex _ _ h' ih => exact ih.regex h'

theorem Spec.Lexing.punct_text {l : Lex} (h : Lexing src l) {p : Bytes} (hp : (p, l.token) ∈ puncts) : l.tokenAsStr = p := by
  have hx := h.lexeme (by intro e; rw [e] at hp; revert hp; simp [puncts]) (by intro e; rw [e] at hp; revert hp; simp [puncts])
    (by intro e; rw [e] at hp; revert hp; simp [puncts]) (by intro e; rw [e] at hp; revert hp; simp [puncts])
    (by intro e; rw [e] at hp; revert hp; simp [puncts])
  generalize l.token = t at *
  generalize l.tokenAsStr = q at *
  cases hx with
  | punct h =>
    have : ∀ x ∈ puncts, ∀ y ∈ puncts, x.2 = y.2 → x.1 = y.1 := by decide +kernel
    exact this _ h _ hp rfl
  | @word c w _ hc hw hr =>
    exfalso
    have : ∀ x ∈ puncts, x.2 ≠ .Identifier ∧ ∀ y ∈ keywords, y.2 ≠ x.2 := by decide +kernel
    obtain ⟨h1, h2⟩ := this _ hp
    exact h2 _ (wordToken_inv rfl h1) rfl
  | _ => simp [puncts] at hp

theorem Proper.piece {l : Lex} (h : Proper src l) (ht : l.token = .TemplateOpen ∨ l.token = .TemplateClosed) :
    Piece l.tokenAsStr l.quasi := by
  cases h with
  | new h => exact Lex.WF.piece (l := Lex.init src) ⟨rfl, rfl, Nat.zero_le _, Nat.le_refl _, by simp [Lex.init]⟩ h ht
  | consume h h' => exact h.lexing.wf.piece h' ht
  | template h hb h' =>
    exact h.lexing.piece_after_brace h' (h.lexing.punct_text (by rw [hb]; simp [puncts])) ht
  | regex h _ h' =>
    obtain ⟨p, c, q, -, ho, h⟩ := (readRegularExpression_spec _).of_ok h'
    rcases h with h | h | h <;> simp_all

theorem IsProg.proper {α : Type} {pre : Lex → Prop} {m : P α} (h : IsProg src pre m) {s s' : PState} {a : α}
    (hs : Proper src s.lex) (hp : pre s.lex) (hr : m s = .ok (a, s')) : Proper src s'.lex := by
  induction h generalizing s s' with
  | pure a => cases hr; exact hs
  | bind _ _ ih ihf =>
    obtain ⟨a, t, h1, h2⟩ := P.bind_ok.1 hr
    exact ihf a (ih hs hp h1) trivial h2
  | tok _ ih => exact ih s.lex.token hs ⟨hp, rfl⟩ hr
  | tokStr _ ih => exact ih s.lex.tokenAsStr hs ⟨hp, rfl⟩ hr
  | asi _ ih | start _ ih | stop _ ih | curLoc _ ih | accStr _ ih | quasi _ ih => exact ih _ hs hp hr
  | consume =>
    cases hc : s.lex.consume <;> simp [Ratel.consume, hc, Out.bind] at hr
    subst hr
    exact hs.consume hc
  | template h =>
    cases hc : s.lex.readTemplateKind <;> simp [Ratel.readTemplateKind, hc, Out.bind] at hr
    subst hr
    exact hs.template (h _ hp) hc
  | regex h =>
    cases hc : s.lex.readRegularExpression <;> simp [Ratel.readRegex, hc, Out.bind] at hr
    obtain ⟨-, rfl⟩ := hr
    exact hs.regex (h _ hp) hc
  | error =>
    cases hc : s.lex.invalidToken <;> simp [Ratel.error, hc, Out.bind] at hr
    subst hr
    rcases (invalidToken_ok hc).1 with ⟨-, h⟩ | ⟨-, h⟩
    · exact h ▸ hs
    · exact hs.consume h
  | timeout => cases hr
  | panic => cases hr

theorem Spec.Lexing.keyword_text {l : Lex} (h : Lexing src l) {k : Bytes} (hk : (k, l.token) ∈ keywords) : l.tokenAsStr = k := by
  have hx := h.lexeme (by intro e; rw [e] at hk; revert hk; simp [keywords]) (by intro e; rw [e] at hk; revert hk; simp [keywords])
    (by intro e; rw [e] at hk; revert hk; simp [keywords]) (by intro e; rw [e] at hk; revert hk; simp [keywords])
    (by intro e; rw [e] at hk; revert hk; simp [keywords])
  generalize l.token = t at *
  generalize l.tokenAsStr = q at *
  cases hx with
  | punct h =>
    have : ∀ x ∈ puncts, ∀ y ∈ keywords, y.2 ≠ x.2 := by decide +kernel
    exact absurd rfl (this (q, t) h (k, t) hk)
  | @word c w _ hc hw hr =>
    have h1 : ∀ x ∈ keywords, x.2 ≠ .Identifier := by decide +kernel
    have h2 : ∀ x ∈ keywords, ∀ y ∈ keywords, x.2 = y.2 → x.1 = y.1 := by decide +kernel
    exact h2 _ (wordToken_inv rfl (h1 _ hk)) _ hk rfl
  | _ => simp [keywords] at hk

/-- The text of a token that has only one. -/
def fixedText (t : Token) : Bytes := (((puncts ++ keywords).find? fun x => x.2 == t).map (·.1)).getD []

theorem Spec.Lexing.fixed {l : Lex} (h : Lexing src l) (hn : fixedText l.token ≠ []) : l.tokenAsStr = fixedText l.token := by
  unfold fixedText at *
  cases hf : (puncts ++ keywords).find? fun x => x.2 == l.token with
  | none => simp [hf] at hn
  | some x =>
    obtain ⟨p, t⟩ := x
    have h1 := List.find?_some hf
    have h2 := List.mem_of_find?_eq_some hf
    simp at h1
    subst h1
    rcases List.mem_append.1 h2 with h2 | h2
    · exact h.punct_text h2
    · exact h.keyword_text h2

/-- A lexer state of the parser over `src` with its bounds and the texts around them. -/
structure At (src : Bytes) (l : Lex) : Prop where
  proper : Proper src l
  start : l.tokenStart ≤ l.index
  len : l.index ≤ src.length
  opens : Opens src l.tokenStart (fixedText l.token)
  closes : Closes src l.index (fixedText l.token)
  ended : l.token = .EndOfProgram → Ended src l.index

theorem At.lexing {l : Lex} (h : At src l) : Lexing src l := h.proper.lexing

theorem Spec.Opens.nil {p : Nat} : Opens src p [] := by simp [Opens, slice]
theorem Spec.Closes.nil {p : Nat} : Closes src p [] := by simp [Closes, slice]

theorem Proper.at {l : Lex} (h : Proper src l) : At src l := by
  have h1 := h.lexing.wf.start
  have h2 := h.lexing.wf.index
  have ht : fixedText l.token ≠ [] → slice src l.tokenStart l.index = fixedText l.token ∧
      l.index = l.tokenStart + (fixedText l.token).length := fun hn => by
    have h3 := h.lexing.fixed hn
    have h4 := h.lexing.wf.text
    rw [← h3]
    refine ⟨h4.symm, ?_⟩
    rw [h4, slice]
    simp
    omega
  refine ⟨h, h1, h2, ?_, ?_, ?_⟩
  · by_cases hn : fixedText l.token = []
    · rw [hn]; exact .nil
    · obtain ⟨h3, h4⟩ := ht hn
      rw [Opens, ← h4, h3]
  · by_cases hn : fixedText l.token = []
    · rw [hn]; exact .nil
    · obtain ⟨h3, h4⟩ := ht hn
      exact ⟨by omega, by rw [show l.index - (fixedText l.token).length = l.tokenStart by omega, h3]⟩
  · intro he
    have hx := h.lexing.lexeme (by simp [he]) (by simp [he]) (by simp [he]) (by simp [he]) (by simp [he])
    rw [Ended, ← h.lexing.wf.rest]
    generalize l.token = t at *
    generalize l.tokenAsStr = q at *
    cases hx with
    | eof h => exact h
    | punct h => subst he; exact absurd h (by revert q; simp [puncts])
    | word _ _ _ => exact absurd (wordToken_inv he (by decide)) (by simp [keywords])
    | _ => cases he

/-- The next token. -/
structure Nxt (src : Bytes) (l l' : Lex) : Prop where
  step : l.consume = .ok l'
  le : l.index ≤ l'.tokenStart

theorem At.text {l : Lex} (h : At src l) : slice src l.tokenStart l.index = l.tokenAsStr := h.lexing.wf.text.symm

theorem W.consume' {l : Lex} {Q : Unit → Lex → Prop} (hl : At src l)
    (h : ∀ l', At src l' → Nxt src l l' → Q () l') : W Ratel.consume l Q := by
  intro a l' hr
  cases hc : l.consume <;> simp [Ratel.consume, hc, Out.bind] at hr
  subst hr
  exact h _ (hl.proper.consume hc).at ⟨hc, (C01_token_spans hl.lexing hc).1⟩

theorem W.consume {f : Unit → P β} {l : Lex} {Q : β → Lex → Prop} (hl : At src l)
    (h : ∀ l', At src l' → Nxt src l l' → W (f ()) l' Q) : W (Ratel.consume >>= f) l Q := by
  intro b l' hr
  obtain ⟨a, t, h1, h2⟩ := P.bind_ok.1 hr
  cases hc : l.consume <;> simp [Ratel.consume, hc, Out.bind] at h1
  subst h1
  exact h _ (hl.proper.consume hc).at ⟨hc, (C01_token_spans hl.lexing hc).1⟩ b l' h2

theorem W.startThenConsume {f : Nat → P β} {l : Lex} {Q : β → Lex → Prop} (hl : At src l)
    (h : ∀ l', At src l' → Nxt src l l' → W (f l.tokenStart) l' Q) : W (Ratel.startThenConsume >>= f) l Q := by
  unfold Ratel.startThenConsume
  exact .assoc (.start (.assoc (.consume hl fun l' h1 h2 => .pure_bind (h l' h1 h2))))

theorem W.endThenConsume {f : Nat → P β} {l : Lex} {Q : β → Lex → Prop} (hl : At src l)
    (h : ∀ l', At src l' → Nxt src l l' → W (f l.index) l' Q) : W (Ratel.endThenConsume >>= f) l Q := by
  unfold Ratel.endThenConsume
  exact .assoc (.stop (.assoc (.consume hl fun l' h1 h2 => .pure_bind (h l' h1 h2))))

theorem error_ok {s s' : PState} (h : error s = .ok ((), s')) : s'.errors ≠ [] := by
  unfold error at h
  cases hc : s.lex.invalidToken <;> simp [hc, Out.bind] at h
  subst h
  simp

theorem W.error' {l : Lex} {Q : Unit → Lex → Prop} : W error l Q := by
  intro a l' hr
  exact absurd rfl (error_ok hr)

theorem W.error {f : Unit → P β} {l : Lex} {Q : β → Lex → Prop} (hf : ∀ a, Mono src (f a)) : W (Ratel.error >>= f) l Q :=
  .bind .error' hf

theorem W.expect' {t : Token} {l : Lex} {Q : Unit → Lex → Prop} (hl : At src l)
    (h : l.token = t → ∀ l', At src l' → Nxt src l l' → Q () l') : W (expect t) l Q := by
  unfold expect
  refine .tok ?_
  split
  · rename_i ht
    exact .consume' hl (h ht)
  · exact .error'

theorem W.expect {t : Token} {f : Unit → P β} {l : Lex} {Q : β → Lex → Prop} (hl : At src l)
    (h : l.token = t → ∀ l', At src l' → Nxt src l l' → W (f ()) l' Q) (hf : ∀ a, Mono src (f a)) :
    W (Ratel.expect t >>= f) l Q := .bind (.expect' hl h) hf

theorem W.template {l : Lex} {Q : Unit → Lex → Prop} (hl : At src l) (ht : l.token = .BraceClose)
    (h : ∀ l', At src l' → l'.tokenStart = l.tokenStart → l.index ≤ l'.index → Q () l') : W readTemplateKind l Q := by
  intro a l' hr
  cases hc : l.readTemplateKind <;> simp [Ratel.readTemplateKind, hc, Out.bind] at hr
  subst hr
  obtain ⟨p, q, -, ho, -⟩ := (Lex.readTemplateKind_spec _).of_ok hc
  have := ho.index
  exact h _ (hl.proper.template ht hc).at ho.tokenStart (by omega)

/-- What remains to be shown at the end of a round of a loop. -/
def Round (I : σ → Lex → Prop) (Q : α → Lex → Prop) (r : Step σ α) (l : Lex) : Prop :=
  match r with
  | .again x => I x l
  | .done a => Q a l

theorem W.loop {body : σ → P (Step σ α)} (I : σ → Lex → Prop) {Q : α → Lex → Prop}
    (hb : ∀ x l, I x l → W (body x) l (Round I Q)) (hm : ∀ x, Mono src (body x)) :
    ∀ {n : Nat} {x : σ} {l : Lex}, I x l → W (Ratel.loop n body x) l Q := by
  intro n
  induction n with
  | zero => exact fun _ _ _ h => by cases h
  | succ n ih =>
    intro x l h
    rw [Ratel.loop]
    refine .bind (src := src) ((hb x l h).weaken fun r l' hr => ?_) fun r => ?_
    · cases r with
      | again y => exact ih hr
      | done a => exact .pure hr
    · split
      · exact .loop hm _ _
      · exact .pure _

/-- How a procedure moves the lexer. -/
structure Adv (src : Bytes) (l l' : Lex) : Prop where
  tokenStart : l.tokenStart ≤ l'.tokenStart
  index : l.index ≤ l'.index

theorem PStep.index {s t : PState} (h : PStep s t) (hs : Lexing src s.lex) : s.lex.index ≤ t.lex.index := by
  have hc : ∀ {l}, s.lex.consume = .ok l → s.lex.index ≤ l.index := fun h =>
    Nat.le_trans (C01_token_spans hs h).1 (C01_token_spans hs h).2.1
  cases h with
  | consume h => exact hc h
  | template h =>
    obtain ⟨p, q, -, ho, -⟩ := (Lex.readTemplateKind_spec _).of_ok h
    have := ho.index
    exact this ▸ Nat.le_add_right ..
  | regex h =>
    obtain ⟨p, c, q, -, ho, -⟩ := (readRegularExpression_spec _).of_ok h
    have := ho.index
    exact this ▸ Nat.le_add_right ..
  | error h =>
    rcases (invalidToken_ok h).1 with ⟨-, rfl⟩ | ⟨-, h⟩
    · exact Nat.le_refl _
    · exact hc h

theorem PSteps.adv {s t : PState} (h : PSteps s t) (hs : Lexing src s.lex) : Adv src s.lex t.lex := by
  induction h with
  | refl => exact ⟨Nat.le_refl _, Nat.le_refl _⟩
  | step h1 h' ih =>
    have := h1.lexing hs
    exact ⟨Nat.le_trans ih.1 (h'.tokenStart this), Nat.le_trans ih.2 (h'.index this)⟩

/-- A procedure with a postcondition. -/
class Sp (src : Bytes) {α : Type} (m : P α) (post : outParam (Lex → α → Lex → Prop)) : Prop where
  is : ∀ l, At src l → W m l (post l)

theorem W.call' {m : P α} [Known src m] {l : Lex} {Q1 Q : α → Lex → Prop} (hl : At src l) (hm : W m l Q1)
    (h : ∀ a l', At src l' → Adv src l l' → Q1 a l' → Q a l') : W m l Q := by
  intro a l' hr
  have hs := (Known.is (src := src)).steps hr
  exact h a l' ((Known.is (src := src)).proper hl.proper trivial hr).at (hs.adv hl.lexing) (hm a l' hr)

theorem W.call {m : P α} [Known src m] {f : α → P β} {l : Lex} {Q1 : α → Lex → Prop} {Q : β → Lex → Prop}
    (hl : At src l) (hm : W m l Q1) (h : ∀ a l', At src l' → Adv src l l' → Q1 a l' → W (f a) l' Q)
    (hf : ∀ a, Mono src (f a)) : W (m >>= f) l Q := .bind (.call' hl hm h) hf

theorem W.sp' {m : P α} {post : Lex → α → Lex → Prop} [Sp src m post] [Known src m] {l : Lex} {Q : α → Lex → Prop}
    (hl : At src l) (h : ∀ a l', At src l' → Adv src l l' → post l a l' → Q a l') : W m l Q := by
  intro a l' hr
  have hs := (Known.is (src := src)).steps hr
  exact h a l' ((Known.is (src := src)).proper hl.proper trivial hr).at (hs.adv hl.lexing) (Sp.is (src := src) l hl a l' hr)

theorem W.sp {m : P α} {post : Lex → α → Lex → Prop} [Sp src m post] [Known src m] {f : α → P β} {l : Lex} {Q : β → Lex → Prop}
    (hl : At src l) (h : ∀ a l', At src l' → Adv src l l' → post l a l' → W (f a) l' Q) (hf : ∀ a, Mono src (f a)) :
    W (m >>= f) l Q := .bind (.sp' hl h) hf

end
end Ratel
