import Verif.Lemmas.Unspell
import Verif.Lemmas.AcceptBase
import Verif.Lemmas.AcceptTemplate
import Verif.Lemmas.CompleteRules
import Verif.Props.Tables
/-! Every procedure of the parser, run without errors, has read a phrase of the grammar. -/
namespace Ratel
open Spec

set_option linter.unusedSectionVars false
variable [Unicode]

/-- The lexer in state `l` will deliver the items, none of which is the end of the program. -/
structure Str (l : Lex) (i : List Item) : Prop where
  stream : Stream l i
  clean : ∀ x ∈ i, x.token ≠ .EndOfProgram

section
variable {src : Bytes} {l l' : Lex} {i j : List Item} {t : Token}

theorem Str.token (h : Str l i) : l.token = look i := h.stream.token
theorem Str.asi (h : Str l i) : l.asi = semicolon i := h.stream.asi

/-- The items before a token. -/
theorem Str.back (h : Str l' j) (hn : Nxt src l l') (ht : l.token = t) (hv : t ≠ .EndOfProgram) :
    ∃ i, Str l i ∧ Wd t l.text i j ∧ i = .tok t l.text l.asi :: j :=
  ⟨_, ⟨.tok ht rfl rfl hn.step h.stream, fun x hx => by
    rcases List.mem_cons.1 hx with rfl | hx
    · exact hv
    · exact h.clean x hx⟩, ⟨_, rfl⟩, rfl⟩

/-- The items before a token with an ordinary text. -/
theorem Str.plain (h : Str l' j) (hn : Nxt src l l') (ht : l.token = t) (hv : special t = false) :
    ∃ i, Str l i ∧ Wd t l.tokenAsStr i j ∧ i = .tok t l.tokenAsStr l.asi :: j := by
  have := h.back hn ht (by rintro rfl; cases hv)
  rwa [text_plain ht hv] at this


theorem Str.nil (hl : At src l) (ht : l.token = .EndOfProgram) : Str l [] := by
  refine ⟨.eof ht (hl.proper.closing (by rw [ht]; rfl) (by rw [ht]; simp)) ?_, by simp⟩
  exact hl.lexing.wf.eof ht

theorem Str.eq_nil (h : Str l j) (ht : l.token = .EndOfProgram) : j = [] := by
  cases j with
  | nil => rfl
  | cons x j => exact absurd (h.token.symm.trans ht) (h.clean x List.mem_cons_self)

theorem Nxt.eof (hl : At src l) (hn : Nxt src l l') (ht : l.token = .EndOfProgram) : l'.token = .EndOfProgram := by
  have := hn.step
  rw [consume_at_nul (hl.lexing.wf.eof ht)] at this
  cases this
  rfl

theorem Str.step {C : Prop} (h : Str l' j) (hn : Nxt src l l') (ht : l.token = t) (hv : special t = false)
    (k : ∀ i, Str l i → Wd t l.tokenAsStr i j → look i = l.token → semicolon i = l.asi → C) : C := by
  obtain ⟨i, h1, h2, -⟩ := h.plain hn ht hv
  exact k i h1 h2 h1.token.symm h1.asi.symm

theorem special_word (h : t.isWord = true) : special t = false := by
  have : ∀ t ∈ Token.all, t.isWord = true → special t = false := by decide +kernel
  exact this t (Token.mem_all t) h

/-- The items before a word. -/
theorem Str.word {C : Prop} (h : Str l' j) (hn : Nxt src l l') (hw : l.token.isWord = true)
    (k : ∀ i, Str l i → Wd l.token l.tokenAsStr i j → look i = l.token → semicolon i = l.asi → C) : C :=
  h.step hn rfl (special_word hw) k

/-- Between the states `l` and `l'` the parser has read the phrase `x`. -/
def Got (l : Lex) (x : Phrase) (l' : Lex) : Prop := ∀ j, Str l' j → ∃ i, Str l i ∧ G i x j

theorem Str.got {C : Prop} {x : Phrase} (h : Str l' j) (hg : Got l x l')
    (k : ∀ i, Str l i → G i x j → look i = l.token → semicolon i = l.asi → C) : C := by
  obtain ⟨i, h1, h2⟩ := hg j h
  exact k i h1 h2 h1.token.symm h1.asi.symm

/-- Between the states `l` and `l'` the parser has read what `X` says. -/
def Via (l : Lex) (X : List Item → List Item → Prop) (l' : Lex) : Prop := ∀ j, Str l' j → ∃ i, Str l i ∧ X i j

theorem Str.via {C : Prop} {X : List Item → List Item → Prop} (h : Str l' j) (hg : Via l X l')
    (k : ∀ i, Str l i → X i j → look i = l.token → semicolon i = l.asi → C) : C := by
  obtain ⟨i, h1, h2⟩ := hg j h
  exact k i h1 h2 h1.token.symm h1.asi.symm

end

/-- The procedure `m` reads phrases. -/
class Gs (src : Bytes) {α : Type} (m : P α) (ph : outParam (α → Phrase)) : Prop where
  is : ∀ l, At src l → W m l fun a l' => Got l (ph a) l'

/-- The procedure `m` has the given postcondition. -/
class Rs (src : Bytes) {α : Type} (m : P α) (post : outParam (Lex → α → Lex → Prop)) : Prop where
  is : ∀ l, At src l → W m l (post l)

section
variable {src : Bytes} {α β : Type}

theorem W.gs' {m : P α} {ph : α → Phrase} [Gs src m ph] [Known src m] {l : Lex} {Q : α → Lex → Prop}
    (hl : At src l) (h : ∀ a l', At src l' → Got l (ph a) l' → Q a l') : W m l Q := by
  intro a l' hr
  exact h a l' ((Known.is (src := src)).proper hl.proper trivial hr).at (Gs.is (src := src) l hl a l' hr)

theorem W.gs {m : P α} {ph : α → Phrase} [Gs src m ph] [Known src m] {f : α → P β} {l : Lex} {Q : β → Lex → Prop}
    (hl : At src l) (h : ∀ a l', At src l' → Got l (ph a) l' → W (f a) l' Q) (hf : ∀ a, Mono src (f a)) :
    W (m >>= f) l Q := .bind (.gs' hl h) hf

theorem W.rs' {m : P α} {post : Lex → α → Lex → Prop} [Rs src m post] [Known src m] {l : Lex} {Q : α → Lex → Prop}
    (hl : At src l) (h : ∀ a l', At src l' → post l a l' → Q a l') : W m l Q := by
  intro a l' hr
  exact h a l' ((Known.is (src := src)).proper hl.proper trivial hr).at (Rs.is (src := src) l hl a l' hr)

theorem W.rs {m : P α} {post : Lex → α → Lex → Prop} [Rs src m post] [Known src m] {f : α → P β} {l : Lex} {Q : β → Lex → Prop}
    (hl : At src l) (h : ∀ a l', At src l' → post l a l' → W (f a) l' Q) (hf : ∀ a, Mono src (f a)) :
    W (m >>= f) l Q := .bind (.rs' hl h) hf

/-- The recursive procedures read phrases. -/
class Rec.Gs (src : Bytes) (R : Rec) : Prop where
  defExpr : ∀ lvl, Ratel.Gs src (R.expr .DEF lvl) fun e => .whole (minPower lvl) (bareExpr e)
  callExpr : Ratel.Gs src (R.expr .CALL .B0) fun e => .arg (bareExpr e)
  element : Ratel.Gs src (R.expr .ARRAY .B0) fun e => .elem (bareExpr e)
  stmt : Ratel.Gs src R.stmt fun s => .stmt (bareStmt s)
  patArray : Rs src R.patArray fun l p l' => l.token = .BracketOpen → Got l (.pat (barePat p)) l'
  property : Ratel.Gs src R.property fun p => .prop (bareProp p)
  idle : ∀ lvl l, At src l → W (R.expr .DEF lvl) l fun _ l' => nestedHandler lvl l'.asi l'.token = none

variable {n : Nat} {R : Rec} [Rec.Known src R] [hR : Rec.Gs src R]

instance {lvl} : Gs src (R.expr .DEF lvl) fun e => .whole (minPower lvl) (bareExpr e) := hR.defExpr lvl
instance : Gs src (R.expr .CALL .B0) fun e => .arg (bareExpr e) := hR.callExpr
instance : Gs src (R.expr .ARRAY .B0) fun e => .elem (bareExpr e) := hR.element
instance : Gs src R.stmt fun s => .stmt (bareStmt s) := hR.stmt
instance : Rs src R.patArray fun l p l' => l.token = .BracketOpen → Got l (.pat (barePat p)) l' := hR.patArray
instance : Gs src R.property fun p => .prop (bareProp p) := hR.property

end

set_option hygiene false

macro "go_step" : tactic => `(tactic| with_reducible first
  | refine W.pure ?_
  | refine W.tok ?_
  | refine W.asi ?_
  | refine W.start ?_
  | refine W.stop ?_
  | refine W.curLoc ?_
  | refine W.tokStr ?_
  | refine W.accStr ?_
  | refine W.quasi ?_
  | (refine W.consume (src := src) (by assumption) ?_; intro l' _ _)
  | (refine W.consume' (src := src) (by assumption) ?_; intro l' _ _)
  | (refine W.startThenConsume (src := src) (by assumption) ?_; intro l' _ _)
  | (refine W.endThenConsume (src := src) (by assumption) ?_; intro l' _ _)
  | (refine W.expect (src := src) (by assumption) ?_ (by mono; done); intro _ l' _ _)
  | (refine W.expect' (src := src) (by assumption) ?_; intro _ l' _ _)
  | exact W.error (src := src) (by mono; done)
  | exact W.error'
  | (refine W.gs (src := src) (by assumption) ?_ (by mono; done); intro a l' _ _)
  | (refine W.gs' (src := src) (by assumption) ?_; intro a l' _ _)
  | (refine W.rs (src := src) (by assumption) ?_ (by mono; done); intro a l' _ _)
  | (refine W.rs' (src := src) (by assumption) ?_; intro a l' _ _)
  | refine W.assoc ?_
  | refine W.pure_bind ?_
  | dsimp only
  | split)

/-- Runs a procedure. -/
macro "go" : tactic => `(tactic| repeat' go_step)

/-- One step back in a run. The current items are `hs`. -/
macro "back_step" : tactic => `(tactic| first
  | (refine Str.got hs (by assumption) ?_; clear hs; intro _ hs _ _ _)
  | (refine Str.via hs (by assumption) ?_; clear hs; intro _ hs _ _ _)
  | (refine Str.step hs (by assumption) (by assumption) (by rfl) ?_; clear hs; intro _ hs _ _ _)
  | (refine Str.word hs (by assumption) (by assumption) ?_; clear hs; intro _ hs _ _ _))

macro "back" : tactic => `(tactic| (
  inst_all
  (try cases_type* And)
  intro j hs
  have _ := hs.token.symm
  have _ := hs.asi.symm
  repeat back_step))

/-- Closes a condition of a rule of the grammar. -/
macro "side" : tactic => `(tactic| first
  | assumption
  | (apply Spec.Wd.tk; assumption)
  | (simp only [*]; done)
  | (simp only [*, ne_eq, reduceCtorEq, not_false_eq_true, not_true, IsEmpty.forall_iff, implies_true]; done)
  | (intro _; simp_all; done)
  | grind)

/-- Applies the rule of the grammar. -/
macro "rule" r:term : tactic => `(tactic| (
  refine ⟨_, hs, ?_⟩
  (try simp only [bareStmt, bareExpr, barePat, bareProp, bareFunc, bareClass, bareMember, bareBlock, bareDeclarator, bareInit,
    bareCase, bareCatch, bareKey, bareName, bareIdent, bareSpec, bareExprs, barePats, Option.map])
  apply $r <;> side))

end Ratel
