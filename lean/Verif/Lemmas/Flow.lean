import Verif.Lemmas.Cut
import Verif.Lemmas.AcceptAll
import Verif.Spec.Code
/-! What flows from the source into the tree: positions between characters and valid texts. -/
namespace Ratel
open Spec

set_option linter.unusedSectionVars false
variable [Unicode]

/-- The source is valid UTF-8. -/
class Valid (src : Bytes) : Prop where
  is : Utf8 src

/-- Both ends are between characters. -/
structure Between (src : Bytes) (l : Loc) : Prop where
  start : Boundary src l.start
  stop : Boundary src l.stop

/-- The spans of a node are between characters and its texts are valid. -/
structure Intact (src : Bytes) (nd : Node) : Prop where
  spans : ∀ l ∈ nd.span.toList ++ nd.innerSpans, Between src l
  texts : ∀ t ∈ nd.texts, Utf8 t

abbrev AllIntact (src : Bytes) (nd : Node) : Prop := nd.Forall (Intact src)

/-- A lexer state of the parser over a valid source. -/
structure Bt (src : Bytes) (l : Lex) : Prop where
  at_ : At src l
  lo : Boundary src l.tokenStart
  hi : Boundary src l.index
  text : Utf8 l.tokenAsStr

section
variable {src : Bytes} {α β σ : Type}

theorem At.bt [hv : Valid src] {l : Lex} (h : At src l) : Bt src l := by
  obtain ⟨h1, h2⟩ := h.lexing.boundary hv.is
  exact ⟨h, h1, h2, h.text ▸ h1.slice h2⟩

/-- A procedure whose result satisfies `ok`. -/
class Sf (src : Bytes) {α : Type} (m : P α) (ok : outParam (α → Prop)) : Prop where
  is : ∀ l, Bt src l → W m l fun a _ => ok a

variable [Valid src]

theorem W.fconsume' {l : Lex} {Q : Unit → Lex → Prop} (hl : Bt src l) (h : ∀ l', Bt src l' → Q () l') : W Ratel.consume l Q :=
  .consume' hl.at_ fun l' h1 _ => h l' h1.bt
theorem W.fconsume {f : Unit → P β} {l : Lex} {Q : β → Lex → Prop} (hl : Bt src l)
    (h : ∀ l', Bt src l' → W (f ()) l' Q) : W (Ratel.consume >>= f) l Q :=
  .consume hl.at_ fun l' h1 _ => h l' h1.bt
theorem W.fstartThenConsume {f : Nat → P β} {l : Lex} {Q : β → Lex → Prop} (hl : Bt src l)
    (h : ∀ l', Bt src l' → W (f l.tokenStart) l' Q) : W (Ratel.startThenConsume >>= f) l Q :=
  .startThenConsume hl.at_ fun l' h1 _ => h l' h1.bt
theorem W.fendThenConsume {f : Nat → P β} {l : Lex} {Q : β → Lex → Prop} (hl : Bt src l)
    (h : ∀ l', Bt src l' → W (f l.index) l' Q) : W (Ratel.endThenConsume >>= f) l Q :=
  .endThenConsume hl.at_ fun l' h1 _ => h l' h1.bt
theorem W.fexpect' {t : Token} {l : Lex} {Q : Unit → Lex → Prop} (hl : Bt src l)
    (h : ∀ l', Bt src l' → Q () l') : W (Ratel.expect t) l Q :=
  .expect' hl.at_ fun _ l' h1 _ => h l' h1.bt
theorem W.fexpect {t : Token} {f : Unit → P β} {l : Lex} {Q : β → Lex → Prop} (hl : Bt src l)
    (h : ∀ l', Bt src l' → W (f ()) l' Q) (hf : ∀ a, Mono src (f a)) : W (Ratel.expect t >>= f) l Q :=
  .expect hl.at_ (fun _ l' h1 _ => h l' h1.bt) hf
theorem W.sf' {m : P α} {ok : α → Prop} [Sf src m ok] [Known src m] {l : Lex} {Q : α → Lex → Prop}
    (hl : Bt src l) (h : ∀ a l', Bt src l' → ok a → Q a l') : W m l Q :=
  .call' hl.at_ (Sf.is (src := src) l hl) fun a l' h1 _ h2 => h a l' h1.bt h2
theorem W.sf {m : P α} {ok : α → Prop} [Sf src m ok] [Known src m] {f : α → P β} {l : Lex} {Q : β → Lex → Prop}
    (hl : Bt src l) (h : ∀ a l', Bt src l' → ok a → W (f a) l' Q) (hf : ∀ a, Mono src (f a)) : W (m >>= f) l Q :=
  .bind (.sf' hl h) hf

theorem Intact.apart {nd : Node} (h : AllIntact src nd) {l : Loc} (hs : nd.span = some l) : Between src l :=
  (Node.forall_iff.1 h).1.spans l (by simp [hs])

theorem apart_expr {e : Expr} (h : AllIntact src (.expr e)) : Boundary src e.loc.start ∧ Boundary src e.loc.stop :=
  have := Intact.apart h (l := e.loc) rfl
  ⟨this.1, this.2⟩
theorem apart_stmt {e : Stmt} (h : AllIntact src (.stmt e)) : Boundary src e.loc.start ∧ Boundary src e.loc.stop :=
  have := Intact.apart h (l := e.loc) rfl
  ⟨this.1, this.2⟩
theorem apart_pat {e : Pattern} (h : AllIntact src (.pat e)) : Boundary src e.loc.start ∧ Boundary src e.loc.stop :=
  have := Intact.apart h (l := e.loc) rfl
  ⟨this.1, this.2⟩

attribute [grind →] apart_expr apart_stmt apart_pat
attribute [grind ←] Between.mk
attribute [grind →] Between.start Between.stop

theorem apart_zero : Between src ⟨0, 0⟩ := ⟨Valid.is.boundary_zero, Valid.is.boundary_zero⟩
end

set_option hygiene false

/-- Unfolds the conditions on a node. -/
macro "fine" : tactic => `(tactic| (
  inst_all
  cases_type* Bt And
  refine Node.forall_iff.2 ⟨⟨?_, ?_⟩, ?_⟩ <;> simp [Node.children, Node.span, Node.innerSpans, Node.texts] <;> grind))

macro "flow_step" : tactic => `(tactic| with_reducible first
  | refine W.pure ?_
  | refine W.tok ?_
  | refine W.asi ?_
  | refine W.start ?_
  | refine W.stop ?_
  | refine W.curLoc ?_
  | refine W.tokStr ?_
  | refine W.accStr ?_
  | refine W.quasi ?_
  | (refine W.fconsume (src := src) (by assumption) ?_; intro l' _)
  | (refine W.fconsume' (src := src) (by assumption) ?_; intro l' _)
  | (refine W.fstartThenConsume (src := src) (by assumption) ?_; intro l' _)
  | (refine W.fendThenConsume (src := src) (by assumption) ?_; intro l' _)
  | (refine W.fexpect (src := src) (by assumption) ?_ (by mono; done); intro l' _)
  | (refine W.fexpect' (src := src) (by assumption) ?_; intro l' _)
  | exact W.error (src := src) (by mono; done)
  | exact W.error'
  | (refine W.sf (src := src) (by assumption) ?_ (by mono; done); intro a l' _ _)
  | (refine W.sf' (src := src) (by assumption) ?_; intro a l' _ _)
  | refine W.assoc ?_
  | refine W.pure_bind ?_
  | dsimp only
  | split)

/-- Runs a procedure. -/
macro "flow" : tactic => `(tactic| repeat' flow_step)

section
variable {src : Bytes} [Valid src]

/-- The recursive procedures return fine nodes. -/
class Rec.Fin (src : Bytes) (R : Rec) : Prop where
  expr : ∀ c lvl, Sf src (R.expr c lvl) fun e => AllIntact src (.expr e)
  stmt : Sf src R.stmt fun s => AllIntact src (.stmt s)
  patArray : Sf src R.patArray fun p => AllIntact src (.pat p)
  property : Sf src R.property fun p => AllIntact src (.prop p)

variable {n : Nat} {R : Rec} [Rec.Known src R] [hR : Rec.Fin src R]

instance {c lvl} : Sf src (R.expr c lvl) fun e => AllIntact src (.expr e) := hR.expr c lvl
instance : Sf src R.stmt fun s => AllIntact src (.stmt s) := hR.stmt
instance : Sf src R.patArray fun p => AllIntact src (.pat p) := hR.patArray
instance : Sf src R.property fun p => AllIntact src (.prop p) := hR.property

/-- A valid name. -/
abbrev FineName (src : Bytes) (i : Ident) : Prop := Between src i.loc ∧ Utf8 i.name

instance : Sf src identifier (FineName src) := ⟨fun l hl => by
  unfold identifier
  flow
  cases hl
  grind⟩

instance {k} : Sf src (parseName k) fun nm => ∀ i ∈ nameIdents nm, FineName src i := ⟨fun l hl => by
  unfold parseName
  flow
  all_goals simp only [nameIdents, List.not_mem_nil, Option.toList, List.mem_singleton]
  all_goals cases hl; grind⟩

instance : Sf src expectSemicolon fun _ => True := ⟨fun l hl => by
  unfold expectSemicolon
  flow⟩

instance : Sf src patternIdentifier fun p => AllIntact src (.pat p) := ⟨fun l hl => by
  unfold patternIdentifier
  flow
  fine⟩

/-! ### Lists -/

section
variable {α : Type} {p : α → Prop}

instance rawBlock_fine {item : P α} [Known src item] [Sf src item p] : Sf src (rawBlock n item) fun xs => ∀ x ∈ xs, p x := ⟨fun l hl => by
  unfold rawBlock
  flow
  · simp
  · refine W.loop (src := src) (fun acc m => Bt src m ∧ ∀ x ∈ acc, p x) (fun acc m hm => ?_) (by mono) ⟨by assumption, by simpa⟩
    obtain ⟨h1, h2⟩ := hm
    flow
    · exact ⟨by assumption, by grind⟩
    · exact h2⟩

instance block_fine {item : P α} [Known src item] [Sf src item p] : Sf src (block n item) fun r => Between src r.1 ∧ ∀ x ∈ r.2, p x := ⟨fun l hl => by
  unfold block
  flow
  cases_type* Bt
  grind⟩

instance uncheckedBlock_fine {item : P α} [Known src item] [Sf src item p] :
    Sf src (uncheckedBlock n item) fun r => Between src r.1 ∧ ∀ x ∈ r.2, p x := ⟨fun l hl => by
  unfold uncheckedBlock
  flow
  cases_type* Bt
  grind⟩

instance arrayElements_fine {item : P α} [Known src item] [Sf src item p] : Sf src (arrayElements n item) fun xs => ∀ x ∈ xs, p x := ⟨fun l hl => by
  unfold arrayElements
  flow
  · simp
  · refine W.loop (src := src) (fun acc m => Bt src m ∧ ∀ x ∈ acc, p x) (fun acc m hm => ?_) (by mono) ⟨by assumption, by simpa⟩
    obtain ⟨h1, h2⟩ := hm
    flow
    · exact ⟨by assumption, by grind⟩
    · exact h2⟩
end

theorem block_node {b : Block} (h : Between src b.loc ∧ ∀ s ∈ b.body, AllIntact src (.stmt s)) : AllIntact src (.block b) := by
  obtain ⟨loc, body⟩ := b
  simp at h
  refine Node.forall_iff.2 ⟨⟨?_, ?_⟩, ?_⟩ <;> simp [Node.children, Node.span, Node.innerSpans, Node.texts] <;> grind

instance : Sf src (stmtBlock n R) fun b => (Between src b.loc ∧ ∀ s ∈ b.body, AllIntact src (.stmt s)) ∧ AllIntact src (.block b) := ⟨fun l hl => by
  unfold stmtBlock
  flow
  rename_i h
  exact ⟨h, block_node h⟩⟩

instance : Sf src (propertyList n R) fun ps => ∀ p ∈ ps, AllIntact src (.prop p) := ⟨fun l hl => by
  unfold propertyList
  flow
  · simp
  · refine W.loop (src := src) (fun acc m => Bt src m ∧ ∀ p ∈ acc, AllIntact src (.prop p)) (fun acc m hm => ?_) (by mono) ⟨by assumption, by simpa⟩
    obtain ⟨h1, h2⟩ := hm
    flow
    · exact h2
    · exact h2
    · exact ⟨by assumption, by grind⟩⟩

instance : Sf src (callArguments n R) fun es => ∀ e ∈ es, AllIntact src (.expr e) := ⟨fun l hl => by
  unfold callArguments
  flow
  · simp
  · refine W.loop (src := src) (fun acc m => Bt src m ∧ ∀ p ∈ acc, AllIntact src (.expr p)) (fun acc m hm => ?_) (by mono) ⟨by assumption, by simpa⟩
    obtain ⟨h1, h2⟩ := hm
    flow
    · exact h2
    · exact h2
    · exact ⟨by assumption, by grind⟩⟩

/-! ### Patterns -/

theorem patternAssign_fine {left : Pattern} (h : AllIntact src (.pat left)) : Sf src (patternAssign R left) fun p => AllIntact src (.pat p) := ⟨fun l hl => by
  unfold patternAssign
  flow
  · fine
  · exact h⟩

instance : Sf src (patternObject n R) fun p => AllIntact src (.pat p) := ⟨fun l hl => by
  unfold patternObject
  flow
  fine⟩

instance : Sf src (patternParam n R) fun p => AllIntact src (.pat p) := ⟨fun l hl => by
  unfold patternParam
  flow
  all_goals exact (patternAssign_fine (by assumption)).is _ (by assumption)⟩

instance : Sf src (patternParse n R) fun p => AllIntact src (.pat p) := ⟨fun l hl => by
  unfold patternParse
  flow
  all_goals assumption⟩

instance : Sf src (patternArrayElement n R) fun p => AllIntact src (.pat p) := ⟨fun l hl => by
  unfold patternArrayElement
  flow
  · fine
  · fine
  · assumption⟩

instance : Sf src (patternArray n R) fun p => AllIntact src (.pat p) := ⟨fun l hl => by
  unfold patternArray
  flow
  fine⟩

/-! ### Functions -/

instance : Sf src restElement fun p => AllIntact src (.pat p) := ⟨fun l hl => by
  unfold restElement
  flow
  fine⟩

instance : Sf src (params n R) fun ps => ∀ p ∈ ps, AllIntact src (.pat p) := ⟨fun l hl => by
  unfold params
  flow
  · simp
  · simpa
  · refine W.loop (src := src) (fun acc m => Bt src m ∧ ∀ p ∈ acc, AllIntact src (.pat p)) (fun acc m hm => ?_) (by mono) ⟨by assumption, by simpa⟩
    obtain ⟨h1, h2⟩ := hm
    flow
    · exact h2
    · show ∀ p ∈ _, _
      grind
    · exact ⟨by assumption, by grind⟩
    · exact h2⟩

theorem texts_func {nm g ps b} : (Node.func (.mk nm g ps b)).texts = (nameIdents nm).map (·.name) := by
  rcases nm with _ | ⟨_ | _⟩ | _ <;> rfl
theorem texts_cls {nm g ps b} : (Node.cls (.mk nm g ps b)).texts = (nameIdents nm).map (·.name) := by
  rcases nm with _ | ⟨_ | _⟩ | _ <;> rfl

/-- A function whose body has a proper span. -/
abbrev FineFunc (src : Bytes) (f : Func) : Prop := AllIntact src (.func f) ∧ Between src (funcBodyLoc f) ∧ Boundary src f.bodyStop

instance {k} : Sf src (functionParse n R k) (FineFunc src) := ⟨fun l hl => by
  unfold functionParse
  flow
  all_goals
    rename_i h1 _ _ _ h2 b _ _ h3
    obtain ⟨loc, body⟩ := b
    obtain ⟨⟨h3, h4⟩, -⟩ := h3
    refine ⟨?_, h3, h3.stop⟩
    refine Node.forall_iff.2 ⟨⟨?_, ?_⟩, ?_⟩
    · simp [Node.span, Node.innerSpans]
      grind
    · rw [texts_func]
      simp
      grind
    · simp [Node.children]
      grind⟩

/-! ### Properties -/

instance : Sf src (methodParse n R) fun r => Between src r.1 ∧ FineFunc src r.2 := ⟨fun l hl => by
  unfold methodParse
  flow
  rename_i h
  exact ⟨⟨hl.lo, h.2.2⟩, h⟩⟩

theorem propertyValue_fine {s : Nat} {k : PropKey} (hs : Boundary src s) (hk : AllIntact src (.key k)) :
    Sf src (propertyValue n R s k) fun p => AllIntact src (.prop p) := ⟨fun l hl => by
  unfold propertyValue
  flow
  all_goals fine⟩

theorem literalKey_fine {l : Loc} {v : Bytes} (h1 : Boundary src l.start) (h2 : Boundary src l.stop) (h : Utf8 v) : AllIntact src (.key (.literal l v)) := by
  refine Node.forall_iff.2 ⟨⟨?_, ?_⟩, ?_⟩ <;> simp [Node.children, Node.span, Node.innerSpans, Node.texts] <;> grind
theorem binaryKey_fine {l : Loc} {v : Bytes} (h1 : Boundary src l.start) (h2 : Boundary src l.stop) (h : Utf8 v) : AllIntact src (.key (.binary l v)) := by
  refine Node.forall_iff.2 ⟨⟨?_, ?_⟩, ?_⟩ <;> simp [Node.children, Node.span, Node.innerSpans, Node.texts] <;> grind
theorem computedKey_fine {l : Loc} {v : Expr} (h1 : Boundary src l.start) (h2 : Boundary src l.stop) (h : AllIntact src (.expr v)) : AllIntact src (.key (.computed l v)) := by
  refine Node.forall_iff.2 ⟨⟨?_, ?_⟩, ?_⟩ <;> simp [Node.children, Node.span, Node.innerSpans, Node.texts] <;> grind

instance : Sf src (property n R) fun p => AllIntact src (.prop p) := ⟨fun l hl => by
  unfold property
  flow
  · exact (propertyValue_fine hl.lo (literalKey_fine hl.lo hl.hi hl.text)).is _ (by assumption)
  · exact (propertyValue_fine hl.lo (literalKey_fine hl.lo hl.hi hl.text)).is _ (by assumption)
  · fine
  · fine
  · exact (propertyValue_fine hl.lo (literalKey_fine hl.lo hl.hi hl.text)).is _ (by assumption)
  · exact (propertyValue_fine hl.lo (literalKey_fine hl.lo hl.hi hl.text)).is _ (by assumption)
  · exact (propertyValue_fine hl.lo (binaryKey_fine hl.lo hl.hi hl.text)).is _ (by assumption)
  · rename_i h2 h3 _ _
    exact (propertyValue_fine hl.lo (by cases_type* Bt; exact computedKey_fine (by assumption) (by assumption) (by assumption))).is _ (by assumption)⟩

/-! ### Classes -/

theorem classMemberValue_fine {s : Nat} {st kind} {k : PropKey} (hs : Boundary src s) (hk : AllIntact src (.key k)) :
    Sf src (classMemberValue n R s st kind k) fun p => AllIntact src (.member p) := ⟨fun l hl => by
  unfold classMemberValue
  flow
  all_goals fine⟩

instance : Sf src (classMember n R) fun p => AllIntact src (.member p) := ⟨fun l hl => by
  unfold classMember
  flow
  all_goals
    refine (classMemberValue_fine hl.lo ?_).is _ (by assumption)
    cases_type* Bt
    first
    | exact literalKey_fine (by assumption) (by assumption) (by assumption)
    | exact binaryKey_fine (by assumption) (by assumption) (by assumption)
    | exact computedKey_fine (by assumption) (by assumption) (by assumption)⟩

/-- A class whose body has a proper span. -/
abbrev FineClass (src : Bytes) (f : Class) : Prop := AllIntact src (.cls f) ∧ Between src (classBodyLoc f) ∧ Boundary src f.bodyStop

instance {k} : Sf src (classParse n R k) (FineClass src) := ⟨fun l hl => by
  unfold classParse
  flow
  all_goals
    rename_i h
    refine ⟨?_, h.1, h.1.stop⟩
    refine Node.forall_iff.2 ⟨⟨?_, ?_⟩, ?_⟩
    · simp [Node.span, Node.innerSpans]
      grind
    · rw [texts_cls]
      simp
      grind
    · simp [Node.children]
      grind⟩

/-! ### Templates -/

/-- A template. -/
abbrev FineTemplate (src : Bytes) (r : Loc × List Expr × List Ident) : Prop :=
  Between src r.1 ∧ (∀ e ∈ r.2.1, AllIntact src (.expr e)) ∧ ∀ q ∈ r.2.2, FineName src q

theorem Bt.quasi {l : Lex} (h : Bt src l) (ht : l.token = .TemplateOpen ∨ l.token = .TemplateClosed) : Utf8 l.quasi := by
  obtain ⟨a, b, h1, h2, h3⟩ := h.at_.proper.piece ht
  have hu := h.text
  rw [h1, List.append_assoc] at hu
  have ha : ∀ x ∈ a, x < 128 := by rcases h2 with rfl | rfl <;> decide
  have hb : ∀ x ∈ b, x < 128 := by rcases h3 with rfl | rfl <;> decide
  exact (hu.strip_left ha).strip_right hb

theorem templateString_fine {l : Lex} (hl : Bt src l) (ht : l.token = .TemplateClosed) : W templateString l fun r _ => FineTemplate src r := by
  unfold templateString
  flow
  have := hl.quasi (.inr ht)
  exact ⟨⟨hl.lo, hl.hi⟩, by simp, by simpa using ⟨⟨hl.lo, hl.hi⟩, this⟩⟩

theorem templateLiteral_fine {l : Lex} (hl : Bt src l) (ht : l.token = .TemplateOpen) :
    W (templateLiteral n R) l fun r _ => FineTemplate src r := by
  unfold templateLiteral
  flow
  rename_i h2 he hb
  have hq := hl.quasi (.inl ht)
  refine W.templateBind (src := src) h2.at_ hb (fun m hm e1 e2 => ?_) (fun _ => by mono)
  refine W.loop (src := src) (fun s m => Bt src m ∧ (∀ e ∈ s.1, AllIntact src (.expr e)) ∧ ∀ q ∈ s.2, FineName src q) (fun s m hm => ?_) (by mono)
    ⟨hm.bt, by simpa, by simpa using ⟨⟨hl.lo, hl.hi⟩, hq⟩⟩
  obtain ⟨hm, h1, h3⟩ := hm
  obtain ⟨es, qs⟩ := s
  flow
  · rename_i m2 he hb
    have hq := hm.quasi (.inl (by assumption))
    refine W.templateBind (src := src) m2.at_ (by assumption) (fun m3 h3 e1 e2 => ?_) (fun _ => by mono)
    refine .pure ⟨h3.bt, ?_, ?_⟩
    · grind
    · cases hm
      grind
  · have hq := hm.quasi (.inr (by assumption))
    refine ⟨⟨hl.lo, hm.hi⟩, h1, ?_⟩
    cases hm
    grind

/-! ### Regular expressions and arrow functions -/

theorem regularExpression_fine {l : Lex} (hl : Bt src l) (ht : l.token = .OperatorDivision) :
    W regularExpression l fun e _ => AllIntact src (.expr e) := by
  have hx : l.tokenStart + 1 = l.index := by
    have h1 := hl.at_.text_length
    rw [hl.at_.lexing.punct_text (p := bs!"/") (by rw [ht]; simp [puncts])] at h1
    have := hl.at_.start
    simp at h1
    omega
  unfold regularExpression
  flow
  refine W.regex (src := src) hl.at_ ht (fun v m hm hc h1 h2 => ?_) (fun _ => by mono)
  have hb := hm.bt
  refine .stop (W.expect (src := src) hm (fun ht' l' hl' _ => .pure ?_) (by mono))
  have hv := (C38_regex_text hl.at_.lexing hc ht').1
  rw [show l.index - 1 = l.tokenStart by omega] at hv
  have hu : Utf8 v := hv ▸ hl.lo.slice hb.hi
  fine

theorem patternFromExpression_fine : ∀ (e : Expr) {l : Lex}, AllIntact src (.expr e) →
    W (patternFromExpression e) l fun p l' => l' = l ∧ AllIntact src (.pat p) := by
  intro e
  induction e using patternFromExpression.induct with
  | case1 loc left right ih =>
    intro l h
    rw [patternFromExpression]
    obtain ⟨hg, hc⟩ := Node.forall_iff.1 h
    have hl := hc (.expr left) (by simp [Node.children])
    have hr := hc (.expr right) (by simp [Node.children])
    refine .bind (src := src) ((ih hl).weaken ?_) (fun _ => by mono)
    rintro p _ ⟨rfl, h1⟩
    refine .pure ⟨rfl, ?_⟩
    have := hg.spans loc (by simp [Node.span, Expr.loc])
    refine Node.forall_iff.2 ⟨⟨?_, ?_⟩, ?_⟩ <;> simp [Node.children, Node.span, Node.innerSpans, Node.texts] <;> grind
  | case2 loc nm =>
    intro l h
    rw [patternFromExpression]
    obtain ⟨hg, hc⟩ := Node.forall_iff.1 h
    refine .pure ⟨rfl, ?_⟩
    have := hg.spans loc (by simp [Node.span, Expr.loc])
    have := hg.texts nm (by simp [Node.texts])
    refine Node.forall_iff.2 ⟨⟨?_, ?_⟩, ?_⟩ <;> simp [Node.children, Node.span, Node.innerSpans, Node.texts] <;> grind
  | case3 e h1 h2 =>
    intro l h
    rw [patternFromExpression]
    · exact .error (src := src) fun _ => .pure _
    all_goals assumption

theorem paramsFromExpressions_fine : ∀ (es : List Expr) {l : Lex}, (∀ e ∈ es, AllIntact src (.expr e)) →
    W (paramsFromExpressions es) l fun ps l' => l' = l ∧ ∀ p ∈ ps, AllIntact src (.pat p) := by
  intro es
  induction es with
  | nil => intro l _; exact .pure ⟨rfl, by simp⟩
  | cons e es ih =>
    intro l h
    rw [paramsFromExpressions]
    refine .bind (src := src) ((patternFromExpression_fine e (h e (by simp))).weaken ?_) (fun _ => by mono)
    rintro p _ ⟨rfl, h1⟩
    refine .bind (src := src) ((ih fun x hx => h x (by simp [hx])).weaken ?_) (fun _ => by mono)
    rintro ps _ ⟨rfl, h5⟩
    exact .pure ⟨rfl, by simp; exact ⟨h1, h5⟩⟩

theorem arrowFunctionExpression_fine {a : Nat} {es : List Expr} (ha : Boundary src a) (h : ∀ e ∈ es, AllIntact src (.expr e)) :
    Sf src (arrowFunctionExpression n R a es) fun e => AllIntact src (.expr e) := ⟨fun l hl => by
  unfold arrowFunctionExpression
  refine .bind (src := src) ((paramsFromExpressions_fine es h).weaken ?_) (fun _ => by mono)
  rintro ps m ⟨rfl, h1⟩
  flow
  all_goals fine⟩

/-! ### Expressions -/

theorem Bt.accessor {l : Lex} (h : Bt src l) (ht : l.token = .Accessor) : Utf8 l.accessorAsStr := by
  obtain ⟨s, c, w, h1, h2, h3, -, -⟩ := h.at_.lexing.accessor_text ht
  have hu := h.text
  rw [h1] at hu
  refine Spec.Utf8.strip_left (a := #b'.' :: s) hu ?_
  intro b hb
  rcases List.mem_cons.1 hb with rfl | hb
  · decide
  · exact byte_forall (P := fun b => b ≤ 0x20 → b < 128) (by decide +kernel) b (h3 b hb)

theorem literalExpr_fine {l : Lex} (hl : Bt src l) {f : Bytes → Literal} (hf : ∀ t ∈ literalTexts (f l.tokenAsStr), Utf8 t) :
    W (literalExpr f) l fun e _ => AllIntact src (.expr e) := by
  unfold literalExpr
  flow
  generalize f l.tokenAsStr = v at *
  cases v <;> simp [literalTexts] at hf <;> fine

theorem runEH_fine {h : EH} {l : Lex} (hl : Bt src l) (ht : EHTok h l.token = true) :
    W (runEH n R h) l fun e _ => AllIntact src (.expr e) := by
  cases h with
  | REG => exact regularExpression_fine hl (by simpa [EHTok] using ht)
  | PRN =>
    unfold runEH parenExpression
    flow
    · exact (arrowFunctionExpression_fine hl.lo (by simp)).is _ (by assumption)
    · assumption
  | ARR =>
    unfold runEH arrayExpression
    flow
    fine
  | OBJ =>
    unfold runEH objectExpression
    flow
    fine
  | OP =>
    unfold runEH
    flow
    · intro _ _ h; cases h
    · fine
  | NEW =>
    unfold runEH
    flow
    · rename_i hm hk _ _
      have hn : Utf8 bs!"new" := .ascii (by decide)
      have := Bt.accessor (src := src) hm hk
      fine
    · fine
  | TRUE => exact literalExpr_fine hl (by simp [literalTexts])
  | FALS => exact literalExpr_fine hl (by simp [literalTexts])
  | NULL => exact literalExpr_fine hl (by simp [literalTexts])
  | UNDE => exact literalExpr_fine hl (by simp [literalTexts])
  | STR => exact literalExpr_fine hl (by simpa [literalTexts] using hl.text)
  | NUM => exact literalExpr_fine hl (by simpa [literalTexts] using hl.text)
  | BIN => exact literalExpr_fine hl (by simpa [literalTexts] using hl.text)
  | TPLS =>
    unfold runEH
    refine .call hl.at_ (templateString_fine hl (by simpa [EHTok] using ht)) (fun r l' h1 h2 h3 => ?_) (fun _ => by mono)
    obtain ⟨loc, es, qs⟩ := r
    flow
    fine
  | TPLE =>
    unfold runEH
    refine .call hl.at_ (templateLiteral_fine hl (by simpa [EHTok] using ht)) (fun r l' h1 h2 h3 => ?_) (fun _ => by mono)
    obtain ⟨loc, es, qs⟩ := r
    flow
    fine
  | _ =>
    unfold runEH
    flow
    all_goals fine

theorem seq_parts {loc : Loc} {es : List Expr} (h : AllIntact src (.expr (.seq loc es))) : ∀ e ∈ es, AllIntact src (.expr e) :=
  fun e he => (Node.forall_iff.1 h).2 _ (by simp [Node.children]; exact he)

theorem runNH_fine {h : NH} {l : Lex} {left : Expr} (h0 : AllIntact src (.expr left)) (hl : Bt src l)
    (ht : NHTok h l.token = true) : W (runNH n R h left) l fun e _ => AllIntact src (.expr e) := by
  cases h with
  | SEQ =>
    unfold runNH
    flow
    refine .bind (src := src) (W.loop (src := src) (fun acc m => Bt src m ∧ ∀ e ∈ acc, AllIntact src (.expr e)) (fun acc m hm => ?_)
      (by mono) ⟨by assumption, by simp; exact ⟨h0, by assumption⟩⟩) (fun _ => by mono)
    obtain ⟨b1, b2⟩ := hm
    flow
    · exact ⟨by assumption, by grind⟩
    · change W _ _ _
      flow
      fine
  | ARRW =>
    unfold runNH
    have hs := (apart_expr h0).1
    flow
    · exact (arrowFunctionExpression_fine hs (seq_parts h0)).is _ (by assumption)
    · exact (arrowFunctionExpression_fine hs (by simpa)).is _ (by assumption)
  | ACCS =>
    unfold runNH
    have := hl.accessor (by simpa [NHTok] using ht)
    flow
    fine
  | TPLS =>
    unfold runNH
    refine .call hl.at_ (templateString_fine hl (by simpa [NHTok] using ht)) (fun r l' h1 h2 h3 => ?_) (fun _ => by mono)
    obtain ⟨loc, es, qs⟩ := r
    flow
    fine
  | TPLE =>
    unfold runNH
    refine .call hl.at_ (templateLiteral_fine hl (by simpa [NHTok] using ht)) (fun r l' h1 h2 h3 => ?_) (fun _ => by mono)
    obtain ⟨loc, es, qs⟩ := r
    flow
    fine
  | _ =>
    unfold runNH
    flow
    all_goals fine

theorem nestedExpression_fine {lvl : Lvl} {left : Expr} (h0 : AllIntact src (.expr left)) :
    Sf src (nestedExpression n R lvl left) fun e => AllIntact src (.expr e) := ⟨fun l hl => by
  unfold nestedExpression
  refine W.loop (src := src) (fun e m => Bt src m ∧ AllIntact src (.expr e)) (fun e m hm => ?_) (by mono) ⟨hl, h0⟩
  obtain ⟨h1, h3⟩ := hm
  refine .asi (.tok ?_)
  split
  · rename_i h hh
    refine .call h1.at_ (runNH_fine h3 h1 (nestedHandler_tok hh)) (fun a l' k1 k2 k3 => .pure ?_) (fun _ => .pure _)
    exact ⟨k1.bt, k3⟩
  · exact .pure h3⟩

theorem runEH_fine_call {β : Type} {h : EH} {f : Expr → P β} {l : Lex} {Q : β → Lex → Prop} (hl : Bt src l) (ht : EHTok h l.token = true)
    (hf : ∀ e l', Bt src l' → AllIntact src (.expr e) → W (f e) l' Q) (hm : ∀ a, Mono src (f a)) :
    W (runEH n R h >>= f) l Q := by
  refine .bind ?_ hm
  intro a l' hr
  have hpre : (h = .OP → Op.fromToken l.token ≠ none) ∧ (h = .REG → l.token = .OperatorDivision) := by
    refine ⟨fun e => ?_, fun e => ?_⟩
    · subst e
      intro h'
      simp [EHTok, h'] at ht
    · subst e
      simpa [EHTok] using ht
  exact hf a l' ((runEH_prog (src := src) h).proper hl.at_.proper hpre hr).at.bt (runEH_fine hl ht a l' hr)

instance {c lvl} : Sf src (expression n R c lvl) fun e => AllIntact src (.expr e) := ⟨fun l hl => by
  unfold expression
  refine .tok ?_
  exact runEH_fine_call hl (exprHandler_tok c _) (fun e l' h1 h3 => (nestedExpression_fine h3).is _ h1) (fun _ => .known)⟩

/-! ### Statements -/

instance : Sf src (variableDeclarator n R) fun d => AllIntact src (.declarator d) := ⟨fun l hl => by
  unfold variableDeclarator
  flow
  all_goals fine⟩

instance : Sf src (variableDeclarators n R) fun ds => ∀ d ∈ ds, AllIntact src (.declarator d) := ⟨fun l hl => by
  unfold variableDeclarators
  flow
  refine W.loop (src := src) (fun acc m => Bt src m ∧ ∀ d ∈ acc, AllIntact src (.declarator d)) (fun acc m hm => ?_)
    (by mono) ⟨by assumption, by simpa⟩
  obtain ⟨h1, h2⟩ := hm
  flow
  · exact ⟨by assumption, by grind⟩
  · exact h2⟩

instance {k} : Sf src (variableDeclarationStatement n R k) fun s => AllIntact src (.stmt s) := ⟨fun l hl => by
  unfold variableDeclarationStatement
  flow
  fine⟩

instance {k} : Sf src (forInit n R k) fun s => AllIntact src (.forInit s) := ⟨fun l hl => by
  unfold forInit
  flow
  fine⟩

instance : Sf src (returnStatement R) fun s => AllIntact src (.stmt s) := ⟨fun l hl => by
  unfold returnStatement
  flow
  all_goals fine⟩

instance : Sf src (throwStatement R) fun s => AllIntact src (.stmt s) := ⟨fun l hl => by
  unfold throwStatement
  flow
  all_goals fine⟩

instance : Sf src jumpStatement fun r => Between src r.1 ∧ ∀ i ∈ r.2, FineName src i := ⟨fun l hl => by
  unfold jumpStatement
  flow
  all_goals
    cases_type* Bt
    simp
    grind⟩

instance : Sf src (ifStatement R) fun s => AllIntact src (.stmt s) := ⟨fun l hl => by
  unfold ifStatement
  flow
  all_goals fine⟩

instance : Sf src (whileStatement R) fun s => AllIntact src (.stmt s) := ⟨fun l hl => by
  unfold whileStatement
  flow
  all_goals fine⟩

instance : Sf src (doStatement R) fun s => AllIntact src (.stmt s) := ⟨fun l hl => by
  unfold doStatement
  flow
  all_goals fine⟩

instance : Sf src (catchClause n R) fun c => AllIntact src (.catch c) ∧ Between src c.loc := ⟨fun l hl => by
  unfold catchClause
  flow
  rename_i hb
  refine ⟨?_, ⟨hl.lo, hb.1.1.stop⟩⟩
  fine⟩

instance : Sf src (tryStatement n R) fun s => AllIntact src (.stmt s) := ⟨fun l hl => by
  unfold tryStatement
  flow
  all_goals fine⟩

theorem forRest_fine {s : Nat} {i : Option ForInit} (hs : Boundary src s) (hi : ∀ x ∈ i, AllIntact src (.forInit x)) :
    Sf src (forRest R s i) fun s => AllIntact src (.stmt s) := ⟨fun l hl => by
  unfold forRest
  flow
  all_goals cases i <;> simp at hi <;> fine⟩

instance {s} : Sf src (forEachRest R s) fun r => Boundary src s → Between src r.1 ∧ AllIntact src (.expr r.2.1) ∧ AllIntact src (.stmt r.2.2) := ⟨fun l hl => by
  unfold forEachRest
  flow
  intro h
  cases_type* Bt
  grind⟩

theorem forAfterInit_fine {s : Nat} {i : ForInit} (hs : Boundary src s) (hi : AllIntact src (.forInit i)) :
    Sf src (forAfterInit R s i) fun s => AllIntact src (.stmt s) := ⟨fun l hl => by
  unfold forAfterInit
  flow
  · rename_i h
    have h := h hs
    fine
  · rename_i h
    have h := h hs
    fine
  · exact (forRest_fine hs (by simpa)).is _ (by assumption)⟩

theorem init_fine {e : Expr} (h : AllIntact src (.expr e)) : AllIntact src (.forInit (.expr e.loc e)) := by
  refine Node.forall_iff.2 ⟨⟨?_, ?_⟩, ?_⟩ <;> simp [Node.children, Node.span, Node.innerSpans, Node.texts] <;> grind

instance : Sf src (forStatement n R) fun s => AllIntact src (.stmt s) := ⟨fun l hl => by
  have hs := hl.lo
  unfold forStatement
  flow
  · exact (forRest_fine hs (by simp)).is _ (by assumption)
  · exact (forAfterInit_fine hs (by assumption)).is _ (by assumption)
  · exact (forAfterInit_fine hs (by assumption)).is _ (by assumption)
  · exact (forAfterInit_fine hs (by assumption)).is _ (by assumption)
  · rename_i h _ _ _ _
    have h1 := (Node.forall_iff.1 h).2
    simp [Node.children] at h1
    have := init_fine h1.1
    fine
  · exact (forAfterInit_fine hs (init_fine (by assumption))).is _ (by assumption)⟩

instance : Sf src (switchCase n R) fun c => AllIntact src (.case c) := ⟨fun l hl => by
  unfold switchCase
  flow
  all_goals
    rename_i hc
    refine .bind (src := src) (W.loop (src := src) (fun s m => Bt src m ∧ Boundary src s.1 ∧ ∀ x ∈ s.2, AllIntact src (.stmt x)) (fun s m hm => ?_)
      (by mono) ⟨hc, by cases_type* Bt; assumption, by simp⟩) (fun _ => by mono)
    obtain ⟨e, acc⟩ := s
    obtain ⟨h1, h2, h3⟩ := hm
    flow
    all_goals (try change W _ _ _)
    case h_4 => exact ⟨by assumption, by grind, by grind⟩
    all_goals
      flow
      fine⟩

instance : Sf src (switchStatement n R) fun s => AllIntact src (.stmt s) := ⟨fun l hl => by
  unfold switchStatement
  flow
  rename_i h
  have : AllIntact src (.switchBody a.2) := by
    refine Node.forall_iff.2 ⟨⟨?_, ?_⟩, ?_⟩ <;> simp [Node.children, Node.span, Node.innerSpans, Node.texts]
    grind
  fine⟩

theorem identExpr_fine {l : Lex} (hl : Bt src l) : AllIntact src (.expr (.ident ⟨l.tokenStart, l.index⟩ l.tokenAsStr)) := by
  fine

instance : Sf src (labeledOrExpressionStatement n R) fun s => AllIntact src (.stmt s) := ⟨fun l hl => by
  have := nestedExpression_fine (n := n) (R := R) (lvl := .ANY) (identExpr_fine hl)
  unfold labeledOrExpressionStatement
  flow
  all_goals fine⟩

theorem expressionStatement_fine {e : Expr} (h : AllIntact src (.expr e)) : Sf src (expressionStatement n R e) fun s => AllIntact src (.stmt s) := ⟨fun l hl => by
  have := nestedExpression_fine (n := n) (R := R) (lvl := .ANY) h
  unfold expressionStatement
  flow
  all_goals fine⟩

/-! ### Imports -/

/-- An import specifier. -/
abbrev FineSpec (src : Bytes) (s : ImportSpec) : Prop := Between src (importLoc s) ∧ ∀ i ∈ importIdents s, FineName src i

theorem texts_import {l ss v} : (Node.stmt (.import l ss v)).texts = v :: ss.flatMap fun s => (importIdents s).map (·.name) := by
  simp only [Node.texts]
  congr 1
  congr 1
  funext s
  cases s <;> rfl

theorem importNamed_fine {acc : List ImportSpec} (h : ∀ s ∈ acc, FineSpec src s) : Sf src (importNamed n acc) fun r => ∀ s ∈ r, FineSpec src s := ⟨fun l hl => by
  unfold importNamed
  refine W.loop (src := src) (fun acc m => Bt src m ∧ ∀ s ∈ acc, FineSpec src s) (fun acc' m hm => ?_) (by mono) ⟨hl, h⟩
  obtain ⟨h1, h2⟩ := hm
  have key : ∀ (x y : Ident) (m1 : Lex), Bt src m1 → FineName src x → FineName src y →
      ∀ s ∈ acc' ++ [ImportSpec.named ⟨m.tokenStart, m1.index⟩ x y], FineSpec src s := by
    intro x y m1 h3 h4 h5 s hs
    rcases List.mem_append.1 hs with hs | hs
    · exact h2 s hs
    · rw [List.mem_singleton] at hs
      subst hs
      exact ⟨⟨h1.lo, h3.hi⟩, by simp [importIdents]; exact ⟨h4, h5⟩⟩
  flow
  · exact ⟨by assumption, key _ _ _ (by assumption) (by assumption) (by assumption)⟩
  · exact key _ _ _ (by assumption) (by assumption) (by assumption)
  · exact ⟨by assumption, key _ _ _ (by assumption) (by assumption) (by assumption)⟩
  · exact key _ _ _ (by assumption) (by assumption) (by assumption)⟩

theorem importSecond_fine {acc : List ImportSpec} (h : ∀ s ∈ acc, FineSpec src s) : Sf src (importSecond n acc) fun r => ∀ s ∈ r, FineSpec src s := ⟨fun l hl => by
  have := importNamed_fine (n := n) h
  unfold importSecond
  flow
  · assumption
  · rename_i h3 h4
    intro s hs
    rcases List.mem_append.1 hs with hs | hs
    · exact h s hs
    · rw [List.mem_singleton] at hs
      subst hs
      exact ⟨⟨hl.lo, h3.hi⟩, by simpa [importIdents] using h4⟩⟩

theorem Bt.content {l : Lex} (hl : Bt src l) (ht : l.token = .LiteralString) : Utf8 (l.tokenAsStr.drop 1).dropLast := by
  obtain ⟨q, s, h1, h2⟩ := hl.at_.string ht
  have hu := hl.text
  rw [h2] at *
  have hq : ∀ b ∈ [q], b < 128 := by rcases h1 with rfl | rfl <;> decide
  have := (Spec.Utf8.strip_left (a := [q]) (s := s ++ [q]) hu hq).strip_right hq
  simpa

theorem import_fine {a b : Nat} {specs : List ImportSpec} {v : Bytes} (ha : Boundary src a) (hb : Boundary src b) (hs : ∀ s ∈ specs, FineSpec src s) (hv : Utf8 v) :
    AllIntact src (.stmt (.import ⟨a, b⟩ specs v)) := by
  refine Node.forall_iff.2 ⟨⟨?_, ?_⟩, ?_⟩
  · simp [Node.span, Node.innerSpans]
    grind
  · rw [texts_import]
    simp
    grind
  · simp [Node.children]

theorem importFrom_fine {s : Nat} {specs : List ImportSpec} (hs : Boundary src s) (h : ∀ s ∈ specs, FineSpec src s) :
    Sf src (importFrom s specs) fun s => AllIntact src (.stmt s) := ⟨fun l hl => by
  unfold importFrom
  flow
  refine .stringContent ?_
  rename_i ht
  have := Bt.content (src := src) (by assumption) ht
  flow
  exact import_fine hs (Bt.hi (by assumption)) h this⟩

theorem default_fine {a b : Nat} {i : Ident} (h1 : Boundary src a) (h2 : Boundary src b) (h : FineName src i) :
    ∀ s ∈ [ImportSpec.default ⟨a, b⟩ i], FineSpec src s := by
  intro s hs
  rw [List.mem_singleton] at hs
  subst hs
  exact ⟨⟨h1, h2⟩, by simpa [importIdents] using h⟩

instance : Sf src (importDeclaration n R) fun s => AllIntact src (.stmt s) := ⟨fun l hl => by
  have := nestedExpression_fine (n := n) (R := R) (lvl := .ANY) (identExpr_fine hl)
  unfold importDeclaration
  flow
  · fine
  · fine
  · rename_i h1 _ _ _ h2 h3 _ _
    have := importSecond_fine (n := n) (acc := [ImportSpec.default ⟨_, _⟩ a]) (default_fine h1.lo h2.hi h3)
    flow
    exact (importFrom_fine hl.lo (by assumption)).is _ (by assumption)
  · rename_i h1 _ _ h2 h3 _
    exact (importFrom_fine hl.lo (default_fine h1.lo h2.hi h3)).is _ h2
  · rename_i h1 _ ht
    refine .stringContent ?_
    have := h1.content ht
    flow
    exact import_fine h1.lo h1.hi (by simp) this
  · have := importSecond_fine (src := src) (n := n) (acc := []) (by simp)
    flow
    exact (importFrom_fine hl.lo (by assumption)).is _ (by assumption)⟩

instance : Sf src (statement n R) fun s => AllIntact src (.stmt s) := ⟨fun l hl => by
  unfold statement
  refine .tok ?_
  have ht := stmtHandler_tok l.token
  generalize stmtHandler l.token = h at *
  cases h with
  | E h =>
    simp [SHTok] at ht
    exact runEH_fine_call hl ht.1 (fun e l' h1 h3 => (expressionStatement_fine h3).is _ h1) (fun _ => .known)
  | BRK =>
    unfold runSH
    flow
    obtain ⟨loc, o⟩ := a
    cases o <;> fine
  | CONT =>
    unfold runSH
    flow
    obtain ⟨loc, o⟩ := a
    cases o <;> fine
  | _ =>
    unfold runSH
    flow
    all_goals first | assumption | fine⟩

instance : Rec.Fin src (body n R) where
  expr c lvl := inferInstanceAs (Sf src (expression n R c lvl) _)
  stmt := inferInstanceAs (Sf src (statement n R) _)
  patArray := inferInstanceAs (Sf src (patternArray n R) _)
  property := inferInstanceAs (Sf src (Ratel.property n R) _)


end

theorem procs_fin {src : Bytes} [Valid src] : ∀ n, Rec.Fin src (procs n)
  | 0 => ⟨fun _ _ => ⟨fun _ _ _ _ h => by cases h⟩, ⟨fun _ _ _ _ h => by cases h⟩, ⟨fun _ _ _ _ h => by cases h⟩, ⟨fun _ _ _ _ h => by cases h⟩⟩
  | n + 1 => by
    have := procs_fin (src := src) n
    exact inferInstanceAs (Rec.Fin src (body n (procs n)))

instance {src : Bytes} [Valid src] {n : Nat} : Rec.Fin src (procs n) := procs_fin n

instance {src : Bytes} [Valid src] {n : Nat} {R : Rec} [Rec.Known src R] [Rec.Fin src R] :
    Sf src (program n R) fun m => ∀ s ∈ m, AllIntact src (.stmt s) := ⟨fun l hl => by
  unfold program
  flow
  · simp
  · refine W.loop (src := src) (fun acc m => Bt src m ∧ ∀ s ∈ acc, AllIntact src (.stmt s)) (fun acc m hm => ?_)
      (by mono) ⟨by assumption, by simpa⟩
    obtain ⟨h1, h2⟩ := hm
    flow
    · exact h2
    · exact ⟨by assumption, by grind⟩⟩

/-- The nodes of an accepted module of valid UTF-8 are fine. -/
theorem accepted_fine {fuel : Nat} {src : Bytes} {m : List Stmt} (hu : Utf8 src) (h : parse fuel src = .ok (.ok m)) :
    ∀ s ∈ m, AllIntact src (.stmt s) := by
  have : Valid src := ⟨hu⟩
  unfold parse runParser at h
  cases hn : Lex.new src <;> simp only [hn, Out.bind] at h
  all_goals try cases h
  rename_i l
  cases hp : program fuel (procs fuel) ⟨l, []⟩ <;> simp only [hp] at h
  all_goals try cases h
  rename_i r
  obtain ⟨b, s, es⟩ := r
  by_cases he : es = []
  · subst he
    simp at h
    subst h
    exact Sf.is (src := src) (m := program fuel (procs fuel)) l (Proper.new hn).at.bt b s hp
  · simp [he] at h

end Ratel
