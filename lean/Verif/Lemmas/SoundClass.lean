import Verif.Lemmas.SoundParts
/-! Properties and classes of error-free runs are phrases of the grammar. -/
namespace Ratel
open Spec

set_option linter.unusedSectionVars false
variable [Unicode]

variable {src : Bytes} {n : Nat} {R : Rec} [Rec.Known src R] [hR : Rec.Gs src R]

/-! ### Properties -/

instance {s : Nat} {key : PropKey} : Gs src (propertyValue n R s key) fun p => .propValue (bareKey key) (bareProp p) := ⟨fun l hl => by
  unfold propertyValue
  go
  · back
    rule G.propField
  · back
    rule G.propMethod⟩

instance : Gs src (property n R) fun p => .prop (bareProp p) := ⟨fun l hl => by
  unfold property
  go
  · back
    rule G.propWord
  · back
    rule G.propWord
  · back
    rule G.shorthand
  · back
    rule G.propSpread
  · back
    rule G.propLiteral
  · back
    rule G.propLiteral
  · back
    rule G.propBinary
  · back
    rule G.propComputed⟩

/-! ### Classes -/

theorem optSemi_sound {l l' : Lex} (ht : l.token = .Semicolon) (hn : Nxt src l l') : Via l (fun i j => OptSemi i j) l' := by
  back
  exact ⟨_, hs, .written (Spec.Wd.tk (by assumption))⟩

instance {s : Nat} {st : Bool} {kd : MethodKind} {key : PropKey} :
    Gs src (classMemberValue n R s st kd key) fun p => .memberValue st kd (bareKey key) (bareMember p) := ⟨fun l hl => by
  unfold classMemberValue
  go
  · have := optSemi_sound (src := src) (by assumption) (by assumption)
    back
    rule G.memberMethod
  · back
    have : OptSemi j j := .absent (by simp [*])
    rule G.memberMethod
  · have := optSemi_sound (src := src) (by assumption) (by assumption)
    back
    rule G.memberField
  · back
    have : OptSemi j j := .absent (by simp [*])
    rule G.memberField⟩

theorem Spec.G.memberCtor {i m n j s t w x} (h : StaticAt i s m) (h1 : Wd t w m n) (ht : t.isWord = true)
    (hn : (look n).isWord = false) (hw : s = false ∧ w = bs!"constructor")
    (h2 : G n (.memberValue s .Constructor (.literal z w) x) j) : G i (.member x) j :=
  .memberWord h h1 ht hn (by rw [if_pos hw]; exact h2)

theorem Spec.G.memberPlain {i m n j s t w x} (h : StaticAt i s m) (h1 : Wd t w m n) (ht : t.isWord = true)
    (hn : (look n).isWord = false) (hw : ¬ (s = false ∧ w = bs!"constructor"))
    (h2 : G n (.memberValue s .Method (.literal z w) x) j) : G i (.member x) j :=
  .memberWord h h1 ht hn (by rw [if_neg hw]; exact h2)

/-- A class member behind the `static`. -/
theorem classMember_rest_sound {s : Nat} {l0 l : Lex} {st : Bool} (hl : At src l) (h0 : Via l0 (fun i j => StaticAt i st j) l) :
    W (do
      let ts ← start
      let t ← tok
      if t.isWord then
        let label ← tokStr
        let te ← endThenConsume
        if (← tok).isWord then
          if label = bs!"get" then
            let label ← tokStr
            consume
            classMemberValue n R s st .Get (.literal ⟨ts, te⟩ label)
          else if label = bs!"set" then
            let label ← tokStr
            consume
            classMemberValue n R s st .Set (.literal ⟨ts, te⟩ label)
          else
            error
            pure (.error noLoc)
        else if st = false ∧ label = bs!"constructor" then
          classMemberValue n R s st .Constructor (.literal ⟨ts, te⟩ label)
        else classMemberValue n R s st .Method (.literal ⟨ts, te⟩ label)
      else match t with
        | .LiteralNumber => do
          let v ← tokStr
          let te ← endThenConsume
          classMemberValue n R s st .Method (.literal ⟨ts, te⟩ v)
        | .LiteralBinary => do
          let v ← tokStr
          let te ← endThenConsume
          classMemberValue n R s st .Method (.binary ⟨ts, te⟩ v)
        | .BracketOpen => do
          consume
          let e ← R.expr .DEF .ANY
          let te ← stop
          expect .BracketClose
          classMemberValue n R s st .Method (.computed ⟨ts, te⟩ e)
        | _ => do
          error
          pure (.error noLoc)) l fun p l' => Got l0 (.member (bareMember p)) l' := by
  go
  · have hw : l.tokenAsStr = bs!"get" := by assumption
    back
    rename_i h3 _ _ _ h2 _ _ _ h1 _ _ _ h0 _ _
    exact ⟨_, hs, .memberGet h0 (hw ▸ h1) (by assumption) h2 (by assumption) h3⟩
  · have hw : l.tokenAsStr = bs!"set" := by assumption
    back
    rename_i h3 _ _ _ h2 _ _ _ h1 _ _ _ h0 _ _
    exact ⟨_, hs, .memberSet h0 (hw ▸ h1) (by assumption) h2 (by assumption) h3⟩
  · back
    rename_i h3 _ _ _ h1 _ _ _ h0 _ _
    exact ⟨_, hs, .memberCtor h0 h1 (by assumption) (by simp [*]) ⟨by assumption, by assumption⟩ h3⟩
  · have hw : ¬ (st = false ∧ l.tokenAsStr = bs!"constructor") := by assumption
    back
    rename_i h3 _ _ _ h1 _ _ _ h0 _ _
    exact ⟨_, hs, .memberPlain h0 h1 (by assumption) (by simp [*]) hw h3⟩
  · back
    rule G.memberNumber
  · back
    rule G.memberBinary
  · back
    rule G.memberComputed


instance : Gs src (classMember n R) fun p => .member (bareMember p) := ⟨fun l hl => by
  unfold classMember
  refine .start ?_
  refine .assoc (.tok ?_)
  split
  · refine .assoc (.consume hl fun l' h1 h2 => .pure_bind ?_)
    refine classMember_rest_sound h1 ?_
    back
    exact ⟨_, hs, .yes (Spec.Wd.tk (by assumption))⟩
  · refine .pure_bind (classMember_rest_sound hl ?_)
    back
    exact ⟨_, hs, .no (by simp [*])⟩⟩

abbrev MembersTail (ss : List ClassMember) (i j : List Item) : Prop := G i (.membersTail (bareMembers ss)) j

instance : Rs src (block n (classMember n R)) fun l b l' =>
    Via l (fun i j => ∃ m, Tk .BraceOpen i m ∧ G m (.membersTail (bareMembers b.2)) j ∧ (bareMembers b.2 = [] → m ≠ [])) l' := ⟨fun l hl => by
  intro b l' hr j hs
  obtain ⟨i, m, h1, h2, h3, h4⟩ := block_sound (src := src) (T := MembersTail) (E := fun _ => True)
    (fun l hl => (Gs.is (src := src) l hl).weaken fun _ _ h => ⟨h, trivial⟩) (fun h1 h2 => .membersMore h1 h2) (fun h => .membersClose h)
    (fun _ _ _ => .membersEnd) hl b l' hr j hs
  exact ⟨i, h1, m, h2, h3, fun h => h4 (by cases hb : b.2 <;> simp [hb, bareMembers] at h ⊢)⟩⟩

instance {k : NameKind} : Gs src (classParse n R k) fun c => .cls (naming k) (bareClass c) := ⟨fun l hl => by
  unfold classParse
  go
  · back
    obtain ⟨_, _, _, _⟩ := (by assumption : ∃ m, Tk .BraceOpen _ m ∧ G m _ _ ∧ _)
    rule G.clsExtends
  · back
    obtain ⟨_, _, _, _⟩ := (by assumption : ∃ m, Tk .BraceOpen _ m ∧ G m _ _ ∧ _)
    rule G.cls⟩

end Ratel
