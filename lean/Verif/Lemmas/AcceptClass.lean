import Verif.Lemmas.AcceptParts
/-! Class members and classes of error-free runs. -/
namespace Ratel
open Spec

set_option linter.unusedSectionVars false
variable [Unicode]

variable {src : Bytes} {n : Nat} {R : Rec} [Rec.Known src R] [hR : Rec.Ok src R]

theorem KeyRead.earlier {l0 l l' : Lex} {k : PropKey} (h : KeyRead src l k l') (ha : Adv src l0 l) : KeyRead src l0 k l' :=
  ⟨h.good, Nat.le_trans ha.1 h.lo, h.ord, Nat.le_trans ha.2 h.first, h.hi⟩

/-- The keys of getters and setters. -/
theorem accessorKey {l l1 l2 : Lex} {w : Bytes} (hl : At src l) (h1 : At src l1) (h2 : At src l2) (hn : Nxt src l l1)
    (hn' : Nxt src l1 l2) (ht : l1.token.isWord = true) (hw : l.tokenAsStr = w) :
    KeyRead src l (.literal ⟨l.tokenStart, l.index⟩ l1.tokenAsStr) l2 ∧
      BehindWord src w (.literal ⟨l.tokenStart, l.index⟩ l1.tokenAsStr) l2.tokenStart := by
  have hne := h1.nonempty (by simp [named, ht])
  have hlen := h1.text_length
  have htext := h1.text
  have htext' := hl.text
  open_all
  refine ⟨?_, ⟨_, _, l1.tokenStart, rfl, ?_, by simpa, ?_, ?_⟩⟩
  · constructor
    · good <;> grind
    all_goals grind
  · exact htext'.trans hw
  · rw [hlen, ← htext]; congr 1; omega
  · omega

theorem classMember_rest {l0 l : Lex} {st : Bool} (h0 : At src l0) (hl : At src l) (ha : Adv src l0 l)
    (hst : (st = true → Opens src l0.tokenStart bs!"static") ∧ (st = false → l0.tokenStart = l.tokenStart)) :
    W (do
      let ts ← start
      let t ← tok
      if t.isWord then
        let label ← tokStr
        let te ← endThenConsume
        if (← tok).isWord then
          if label = bs!"get" then
            let label ← tokStr
            consume
            classMemberValue n R l0.tokenStart st .Get (.literal ⟨ts, te⟩ label)
          else if label = bs!"set" then
            let label ← tokStr
            consume
            classMemberValue n R l0.tokenStart st .Set (.literal ⟨ts, te⟩ label)
          else
            error
            pure (.error noLoc)
        else if st = false ∧ label = bs!"constructor" then
          classMemberValue n R l0.tokenStart st .Constructor (.literal ⟨ts, te⟩ label)
        else classMemberValue n R l0.tokenStart st .Method (.literal ⟨ts, te⟩ label)
      else match t with
        | .LiteralNumber => do
          let v ← tokStr
          let te ← endThenConsume
          classMemberValue n R l0.tokenStart st .Method (.literal ⟨ts, te⟩ v)
        | .LiteralBinary => do
          let v ← tokStr
          let te ← endThenConsume
          classMemberValue n R l0.tokenStart st .Method (.binary ⟨ts, te⟩ v)
        | .BracketOpen => do
          consume
          let e ← R.expr .DEF .ANY
          let te ← stop
          expect .BracketClose
          classMemberValue n R l0.tokenStart st .Method (.computed ⟨ts, te⟩ e)
        | _ => do
          error
          pure (.error noLoc)) l (MemberRead src l0 · ·) := by
  walk
  · rename_i n1 _ _ _ n2
    obtain ⟨h1, h2⟩ := accessorKey hl (by assumption) (by assumption) n1 n2 (by assumption) (by assumption)
    exact classMemberValue_ok (by assumption) h0 (h1.earlier ha) (by simp) (fun _ => h2) (by simp) (by simp) hst
  · rename_i n1 _ _ _ _ n2
    obtain ⟨h1, h2⟩ := accessorKey hl (by assumption) (by assumption) n1 n2 (by assumption) (by assumption)
    exact classMemberValue_ok (by assumption) h0 (h1.earlier ha) (by simp) (by simp) (fun _ => h2) (by simp) hst
  · obtain ⟨h1, h2⟩ := (hl.ident (by simp [named, *]) (by assumption)).literalKey (by assumption)
    refine classMemberValue_ok (by assumption) h0 (h1.earlier ha) (fun _ _ => h2) (by simp) (by simp) (by simp_all) hst
  · obtain ⟨h1, h2⟩ := (hl.ident (by simp [named, *]) (by assumption)).literalKey (by assumption)
    refine classMemberValue_ok (by assumption) h0 (h1.earlier ha) (fun _ _ => h2) (by simp) (by simp) (by simp) hst
  · obtain ⟨h1, h2⟩ := (hl.ident (by simp [named, *]) (by assumption)).literalKey (by assumption)
    refine classMemberValue_ok (by assumption) h0 (h1.earlier ha) (fun _ _ => h2) (by simp) (by simp) (by simp) hst
  · obtain ⟨h1, h2⟩ := (hl.ident (by simp [named, *]) (by assumption)).binaryKey (by assumption)
    refine classMemberValue_ok (by assumption) h0 (h1.earlier ha) (fun _ _ => h2) (by simp) (by simp) (by simp) hst
  · refine classMemberValue_ok (by assumption) h0 (KeyRead.earlier ?_ ha) (fun _ _ => by simp [KeyText]) (by simp) (by simp) (by simp) hst
    open_all
    constructor
    · good <;> grind
    all_goals grind

instance : Sp src (classMember n R) (MemberRead src) := ⟨fun l hl => by
  unfold classMember
  refine .start ?_
  refine .assoc (.tok ?_)
  split
  · refine .assoc (.consume hl fun l' h1 h2 => .pure_bind ?_)
    exact classMember_rest hl h1 (by open_all; constructor <;> omega) (by open_all; grind)
  · exact .pure_bind (classMember_rest hl hl ⟨Nat.le_refl _, Nat.le_refl _⟩ (by simp))⟩

instance : Sp src (block n (classMember n R)) (BlockRead src .member memberLoc fun _ => True) :=
  block_ok fun l hl => (Sp.is (src := src) l hl).weaken fun _ _ h => ⟨h.toRead, trivial⟩

/-- A class that was read. -/
structure ClassRead (src : Bytes) (k : NameKind) (l : Lex) (f : Class) (l' : Lex) : Prop where
  good : (Node.cls f).Forall (Good src)
  lo : l.tokenStart ≤ (classBodyLoc f).start
  ord : (classBodyLoc f).start ≤ (classBodyLoc f).stop
  first : l.index ≤ (classBodyLoc f).stop
  hi : (classBodyLoc f).stop ≤ l'.tokenStart
  same : f.bodyStop = (classBodyLoc f).stop
  name : match k with
    | .empty => className f = .empty
    | .optional => Name.isOptional (className f) = true
    | .mandatory => Name.isMandatory (className f) = true

instance {k} : Sp src (classParse n R k) (ClassRead src k) := ⟨fun l hl => by
  unfold classParse
  walk
  all_goals
    inst_all
    cases_type* BlockRead
    open_all
    constructor
    · good <;> grind
    all_goals grind⟩

end Ratel
