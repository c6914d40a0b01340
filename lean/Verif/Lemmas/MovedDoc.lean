import Verif.Lemmas.SimRun
import Verif.Props.Estree
import Verif.Spec.Moved
/-! The ESTree document of a moved tree is the moved document. -/
namespace Ratel
open Spec

set_option linter.unusedSimpArgs false
set_option linter.unusedVariables false

/-- Whenever the first serialisation succeeds, so does the second, with the moved document. -/
def Mv (k : Nat) (x y : Out Json) : Prop := ∀ j, x = .ok j → y = .ok (moved k j)
/-- The same for the fields of an object. -/
def MvItem (k : Nat) (x y : Out Item) : Prop := ∀ ty fs, x = .ok (ty, fs) → y = .ok (ty, movedFields k fs)
/-- The same for lists. -/
inductive Mvs (k : Nat) : List (Out Json) → List (Out Json) → Prop
  | nil : Mvs k [] []
  | cons {x y xs ys} (h : Mv k x y) (hs : Mvs k xs ys) : Mvs k (x :: xs) (y :: ys)
/-- The same for named fields. -/
inductive MvFields (k : Nat) : List (String × Out Json) → List (String × Out Json) → Prop
  | nil : MvFields k [] []
  | cons {n x y xs ys} (hn : ¬ (n = "start" ∨ n = "end")) (h : Mv k x y) (hs : MvFields k xs ys) : MvFields k ((n, x) :: xs) ((n, y) :: ys)
/-- The same for the elements of arrays. -/
inductive MvElems (k : Nat) : List (Option (Out Json)) → List (Option (Out Json)) → Prop
  | nil : MvElems k [] []
  | hole {xs ys} (hs : MvElems k xs ys) : MvElems k (none :: xs) (none :: ys)
  | cons {x y xs ys} (h : Mv k x y) (hs : MvElems k xs ys) : MvElems k (some x :: xs) (some y :: ys)

variable {k : Nat}

theorem Mv.const {j : Json} (h : moved k j = j) : Mv k (.ok j) (.ok j) := fun j' e => by cases e; rw [h]
theorem MvItem.const {t : String} {fs : List (String × Json)} (h : movedFields k fs = fs) : MvItem k (.ok (t, fs)) (.ok (t, fs)) :=
  fun _ _ e => by cases e; rw [h]
theorem Mv.panic {y : Out Json} : Mv k .panic y := nofun
theorem MvItem.panic {y : Out Item} : MvItem k .panic y := nofun
theorem Mv.null : Mv k (.ok .null) (.ok .null) := .const (by rw [moved] <;> nofun)
theorem Mv.bool {b : Bool} : Mv k (.ok (.bool b)) (.ok (.bool b)) := .const (by rw [moved] <;> nofun)
theorem Mv.str {b : Bytes} : Mv k (.ok (.str b)) (.ok (.str b)) := .const (by rw [moved] <;> nofun)
theorem Mv.sym {b : String} : Mv k (.ok (.sym b)) (.ok (.sym b)) := .const (by rw [moved] <;> nofun)
theorem Mv.nil : Mv k (.ok (.arr [])) (.ok (.arr [])) := .const rfl
theorem Mv.kind {d : DeclKind} : Mv k (.ok (genDeclKind d)) (.ok (genDeclKind d)) := by cases d <;> exact .sym
theorem Mv.mkind {d : MethodKind} : Mv k (.ok (genMethodKind d)) (.ok (genMethodKind d)) := by cases d <;> exact .sym

theorem movedFields_append (a b : List (String × Json)) : movedFields k (a ++ b) = movedFields k a ++ movedFields k b := by
  induction a with
  | nil => rfl
  | cons f a ih =>
    obtain ⟨n, x⟩ := f
    rw [List.cons_append, movedFields, movedFields, ih]
    rfl

theorem MvItem.withLoc {x y : Out Item} (h : MvItem k x y) (l : Loc) : Mv k (withLoc l x) (withLoc (shiftLoc k l) y) := by
  intro j hj
  obtain ⟨⟨ty, fs⟩, h1, h2⟩ := Out.bind_eq_ok.1 hj
  have h3 := h ty fs h1
  cases h2
  refine Out.bind_eq_ok.2 ⟨_, h3, ?_⟩
  simp [moved, movedFields_append, movedFields, movedInt, shiftLoc]

theorem MvFields.inLoc {fs fs' : List (String × Out Json)} (h : MvFields k fs fs') (ty : String) : MvItem k (inLoc ty fs) (inLoc ty fs') := by
  suffices hh : ∀ js, fields fs = .ok js → fields fs' = .ok (movedFields k js) by
    intro ty' js hj
    obtain ⟨js0, h1, h2⟩ := Out.bind_eq_ok.1 hj
    have h3 := hh js0 h1
    cases h2
    exact Out.bind_eq_ok.2 ⟨_, h3, rfl⟩
  induction h with
  | nil => intro js h; cases h; rfl
  | cons hn h _ ih =>
    intro js hj
    obtain ⟨j, h1, h2⟩ := Out.bind_eq_ok.1 hj
    obtain ⟨js0, h3, h4⟩ := Out.bind_eq_ok.1 h2
    have h5 := h j h1
    have h7 := ih js0 h3
    cases h4
    refine Out.bind_eq_ok.2 ⟨_, h5, Out.bind_eq_ok.2 ⟨_, h7, ?_⟩⟩
    rw [movedFields, if_neg hn]

theorem Mvs.array {xs ys : List (Out Json)} (h : Mvs k xs ys) : Mv k (array xs) (array ys) := by
  suffices hh : ∀ js, sequence xs = .ok js → sequence ys = .ok (movedAll k js) by
    intro j hj
    obtain ⟨js0, h1, h2⟩ := Out.bind_eq_ok.1 hj
    have h3 := hh js0 h1
    cases h2
    exact Out.bind_eq_ok.2 ⟨_, h3, by rw [moved]⟩
  induction h with
  | nil => intro js h; cases h; rfl
  | cons h _ ih =>
    intro js hj
    obtain ⟨j, h1, h2⟩ := Out.bind_eq_ok.1 hj
    obtain ⟨js0, h3, h4⟩ := Out.bind_eq_ok.1 h2
    have h5 := h j h1
    have h7 := ih js0 h3
    cases h4
    refine Out.bind_eq_ok.2 ⟨_, h5, Out.bind_eq_ok.2 ⟨_, h7, ?_⟩⟩
    rw [movedAll]

theorem MvElems.elements {xs ys : List (Option (Out Json))} (h : MvElems k xs ys) :
    Mvs k ((dropTrailing xs).map optional) ((dropTrailing ys).map optional) := by
  suffices hh : MvElems k (dropTrailing xs) (dropTrailing ys) by
    generalize dropTrailing xs = a at hh
    generalize dropTrailing ys = b at hh
    induction hh with
    | nil => exact .nil
    | hole _ ih => exact .cons .null ih
    | cons h _ ih => exact .cons h ih
  induction h with
  | nil => exact .nil
  | @hole xs ys _ ih =>
    simp only [dropTrailing]
    generalize dropTrailing xs = a at *
    generalize dropTrailing ys = b at *
    cases ih with
    | nil => exact .nil
    | hole h => exact .hole (.hole h)
    | cons h hs => exact .hole (.cons h hs)
  | cons h _ ih =>
    simp only [dropTrailing]
    exact .cons h ih

theorem mv_identItem (n : Bytes) : MvItem k (.ok (identItem n)) (.ok (identItem n)) := .const (by simp [movedFields, moved])

theorem mv_ident (i : Ident) : Mv k (genIdent i) (genIdent (shiftIdent k i)) := (mv_identItem _).withLoc _

theorem mv_expectNumber {raw : Bytes} {o : Option Nat} : ∀ fs, expectNumber raw o = .ok fs → movedFields k fs = fs := by
  intro fs h
  cases o <;> cases h
  simp [movedFields, moved]

theorem mv_literal (v : Literal) : MvItem k (genLiteral v) (genLiteral v) := by
  intro ty fs h
  have key : movedFields k fs = fs := by
    cases v with
    | Number v =>
      obtain ⟨fs', h1, h2⟩ := Out.bind_eq_ok.1 h
      cases h2
      simp only [genNumber] at h1
      split at h1
      · exact mv_expectNumber _ h1
      · split at h1
        · exact mv_expectNumber _ h1
        · split at h1
          · split at h1 <;> cases h1
            simp [movedFields, moved]
          · exact mv_expectNumber _ h1
    | Binary v =>
      simp only [genLiteral] at h
      split at h
      · cases h
      · obtain ⟨fs', h1, h2⟩ := Out.bind_eq_ok.1 h
        cases h2
        exact mv_expectNumber _ h1
    | String v =>
      simp only [genLiteral] at h
      split at h <;> cases h
      simp [movedFields, moved]
    | RegEx v =>
      obtain ⟨⟨a, b⟩, h1, h2⟩ := Out.bind_eq_ok.1 h
      cases h2
      simp [movedFields, moved]
    | _ => cases h; simp [movedFields, moved]
  rw [h, key]

theorem mv_name (n : Name) : Mv k (genName n) (genName (shiftName k n)) := by
  cases n with
  | empty => exact .null
  | mandatory n => exact mv_ident n
  | optional n =>
    cases n with
    | none => exact .null
    | some n => exact mv_ident n

theorem mv_label (n : Option Ident) : Mv k (optional (n.map genIdent)) (optional ((n.map (shiftIdent k)).map genIdent)) := by
  cases n with
  | none => exact .null
  | some n => exact mv_ident n

theorem mv_spec (s : ImportSpec) : Mv k (genImportSpec s) (genImportSpec (shiftSpec k s)) := by
  cases s with
  | named l i n =>
    refine MvItem.withLoc ?_ _
    intro ty fs h
    obtain ⟨a, h1, h⟩ := Out.bind_eq_ok.1 h
    obtain ⟨b, h2, h⟩ := Out.bind_eq_ok.1 h
    have h3 := mv_ident (k := k) i a h1
    have h5 := mv_ident (k := k) n b h2
    cases h
    exact Out.bind_eq_ok.2 ⟨_, h3, Out.bind_eq_ok.2 ⟨_, h5, by simp [movedFields]⟩⟩
  | «default» l n | «namespace» l n =>
    refine MvItem.withLoc ?_ _
    intro ty fs h
    obtain ⟨b, h2, h⟩ := Out.bind_eq_ok.1 h
    have h5 := mv_ident (k := k) n b h2
    cases h
    exact Out.bind_eq_ok.2 ⟨_, h5, by simp [movedFields]⟩

theorem mv_specs (ss : List ImportSpec) : Mvs k (ss.map genImportSpec) ((ss.map (shiftSpec k)).map genImportSpec) := by
  induction ss with
  | nil => exact .nil
  | cons s ss ih => exact .cons (mv_spec s) ih

theorem mv_quasis (qs : List Ident) : Mvs k (genQuasis qs) (genQuasis (qs.map (shiftIdent k))) := by
  induction qs with
  | nil => exact .nil
  | cons q qs ih =>
    refine .cons ?_ ih
    split
    · exact .panic
    · rename_i h
      rw [if_neg (by simp only [shiftIdent, shiftLoc]; omega)]
      have : (qs.map (shiftIdent k)).isEmpty = qs.isEmpty := by cases qs <;> rfl
      rw [this]
      have e : (⟨(shiftIdent k q).loc.start + 1, (shiftIdent k q).loc.stop - 1⟩ : Loc) = shiftLoc k ⟨q.loc.start + 1, q.loc.stop - 1⟩ := by
        simp only [shiftIdent, shiftLoc, Loc.mk.injEq]; omega
      rw [e]
      exact (MvItem.const (by simp [movedFields, moved])).withLoc _

macro "mvs" : tactic => `(tactic| (repeat' first
  | exact .panic
  | exact .null
  | exact .bool
  | exact .str
  | exact .sym
  | exact .nil
  | exact .kind
  | exact .mkind
  | exact mv_ident _
  | exact mv_identItem _
  | exact mv_literal _
  | exact mv_name _
  | exact mv_label _
  | exact mv_specs _
  | exact mv_quasis _
  | assumption
  | with_reducible exact .nil
  | with_reducible refine MvItem.withLoc ?_ _
  | with_reducible refine MvFields.inLoc ?_ _
  | with_reducible refine Mvs.array ?_
  | with_reducible refine MvElems.elements ?_
  | with_reducible refine .hole ?_
  | with_reducible refine MvFields.cons (by decide) ?_ ?_
  | with_reducible refine .cons ?_ ?_))

theorem shiftName_type (what : String) (n : Name) : declOrExpr what (shiftName k n) = declOrExpr what n := by
  cases n with
  | optional n => cases n <;> rfl
  | _ => rfl
mutual
theorem mvExpr (k : Nat) : (x : Expr) → MvItem k (genExpr x) (genExpr (shiftExpr k x))
  | .void _ => by
    simp only [shiftExpr, genExpr, shiftExpr_loc]
    mvs
  | .this _ => by
    simp only [shiftExpr, genExpr, shiftExpr_loc]
    mvs
  | .ident _ n => by
    simp only [shiftExpr, genExpr, shiftExpr_loc]
    mvs
  | .lit _ v => by
    simp only [shiftExpr, genExpr, shiftExpr_loc]
    mvs
  | .seq _ es => by
    have h1 := mvExprs k es
    simp only [shiftExpr, genExpr, shiftExpr_loc]
    mvs
  | .array _ es => by
    have h := mvElems k es
    simp only [shiftExpr, genExpr, shiftExpr_loc]
    mvs
  | .member _ o p => by
    have h1 := mvExpr k o
    simp only [shiftExpr, genExpr, shiftExpr_loc]
    mvs
  | .cmember _ o p => by
    have h1 := mvExpr k o
    have h2 := mvExpr k p
    simp only [shiftExpr, genExpr, shiftExpr_loc]
    mvs
  | .metaProp _ m p => by
    simp only [shiftExpr, genExpr, shiftExpr_loc]
    mvs
  | .call _ c args => by
    have h1 := mvExpr k c
    have h2 := mvExprs k args
    simp only [shiftExpr, genExpr, shiftExpr_loc]
    mvs
  | .binary _ op l r => by
    have h1 := mvExpr k l
    have h2 := mvExpr k r
    simp only [shiftExpr, genExpr, shiftExpr_loc]
    mvs
  | .prefix _ op e => by
    have h : Mv k (withLoc e.loc (genExpr e)) (withLoc (shiftExpr k e).loc (genExpr (shiftExpr k e))) := by rw [shiftExpr_loc]; exact (mvExpr k e).withLoc _
    cases e with
    | call l c as =>
      have h1 := mvExpr k c
      have h2 := mvExprs k as
      simp only [shiftExpr, genExpr, shiftExpr_loc] at h ⊢
      split <;> mvs
    | lit l v =>
      simp only [shiftExpr, genExpr, shiftExpr_loc] at h ⊢
      split <;> mvs
    | _ =>
      simp only [shiftExpr, genExpr, shiftExpr_loc] at h ⊢
      split <;> mvs
  | .postfix _ op e => by
    have h1 := mvExpr k e
    simp only [shiftExpr, genExpr, shiftExpr_loc]
    mvs
  | .cond _ t c a => by
    have h1 := mvExpr k t
    have h2 := mvExpr k c
    have h3 := mvExpr k a
    simp only [shiftExpr, genExpr, shiftExpr_loc]
    mvs
  | .template _ es qs => by
    have h1 := mvExprs k es
    simp only [shiftExpr, genExpr, shiftExpr_loc]
    mvs
  | .tagged _ t _ es qs => by
    have h1 := mvExpr k t
    have h2 := mvExprs k es
    simp only [shiftExpr, genExpr, shiftExpr_loc]
    mvs
  | .spread _ e => by
    have h1 := mvExpr k e
    simp only [shiftExpr, genExpr, shiftExpr_loc]
    mvs
  | .arrowE _ ps b => by
    have h1 := mvPats k ps
    have h2 := mvExpr k b
    simp only [shiftExpr, genExpr, shiftExpr_loc]
    mvs
  | .arrowB _ ps b => by
    have h1 := mvPats k ps
    have h2 := mvBlock k b
    simp only [shiftExpr, genExpr, shiftExpr_loc]
    mvs
  | .object _ ps => by
    have h1 := mvProps k ps
    simp only [shiftExpr, genExpr, shiftExpr_loc]
    mvs
  | .function _ f => by
    have h1 := mvFunc k f
    simp only [shiftExpr, genExpr, shiftExpr_loc]
    mvs
  | .class _ c => by
    have h1 := mvClass k c
    simp only [shiftExpr, genExpr, shiftExpr_loc]
    mvs

theorem mvExprs (k : Nat) : (x : List Expr) → Mvs k (genExprs x) (genExprs (shiftExprs k x))
  | [] => by
    simp only [shiftExprs, genExprs, shiftExpr_loc]
    mvs
  | e :: es => by
    have h1 := mvExpr k e
    have h2 := mvExprs k es
    simp only [shiftExprs, genExprs, shiftExpr_loc]
    mvs

theorem mvElems (k : Nat) : (x : List Expr) → MvElems k (genElements x) (genElements (shiftExprs k x))
  | [] => .nil
  | e :: es => by
    have h1 : Mv k (withLoc e.loc (genExpr e)) (withLoc (shiftExpr k e).loc (genExpr (shiftExpr k e))) := by rw [shiftExpr_loc]; exact (mvExpr k e).withLoc _
    have h2 := mvElems k es
    cases e <;> simp only [genElements, shiftExprs, shiftExpr, shiftExpr_loc] at h1 h2 ⊢ <;> mvs

theorem mvKey (k : Nat) : (x : PropKey) → Mv k (genKey x) (genKey (shiftKey k x))
  | .computed _ e => by
    have h1 := mvExpr k e
    simp only [shiftKey, genKey, shiftExpr_loc]
    mvs
  | .literal _ v => by
    simp only [shiftKey, genKey, shiftExpr_loc]
    mvs
  | .binary _ v => by
    simp only [shiftKey, genKey, shiftExpr_loc]
    mvs

theorem mvProp (k : Nat) : (x : Property) → Mv k (genProperty x) (genProperty (shiftProp k x))
  | .shorthand _ n => by
    simp only [shiftProp, genProperty, shiftExpr_loc]
    mvs
  | .literal _ key v => by
    have h1 := mvKey k key
    have h2 := mvExpr k v
    cases key <;> simp only [shiftProp, genProperty, shiftKey, shiftExpr_loc] at h1 ⊢ <;> mvs
  | .method _ key _ f => by
    have h1 := mvKey k key
    have h2 := mvFunc k f
    simp only [shiftProp, genProperty, shiftExpr_loc]
    mvs
  | .spread _ e => by
    have h1 := mvExpr k e
    simp only [shiftProp, genProperty, shiftExpr_loc]
    mvs

theorem mvProps (k : Nat) : (x : List Property) → Mvs k (genProperties x) (genProperties (shiftProps k x))
  | [] => by
    simp only [shiftProps, genProperties, shiftExpr_loc]
    mvs
  | p :: ps => by
    have h1 := mvProp k p
    have h2 := mvProps k ps
    simp only [shiftProps, genProperties, shiftExpr_loc]
    mvs

theorem mvPat (k : Nat) : (x : Pattern) → Mv k (genPattern x) (genPattern (shiftPat k x))
  | .void _ => by
    simp only [shiftPat, genPattern, shiftExpr_loc]
    mvs
  | .ident _ n => by
    simp only [shiftPat, genPattern, shiftExpr_loc]
    mvs
  | .object _ ps => by
    have h1 := mvProps k ps
    simp only [shiftPat, genPattern, shiftExpr_loc]
    mvs
  | .array _ es => by
    have h1 := mvPats k es
    simp only [shiftPat, genPattern, shiftExpr_loc]
    mvs
  | .rest _ a => by
    simp only [shiftPat, genPattern, shiftExpr_loc]
    mvs
  | .assign _ l r => by
    have h1 := mvPat k l
    have h2 := mvExpr k r
    simp only [shiftPat, genPattern, shiftExpr_loc]
    mvs

theorem mvPats (k : Nat) : (x : List Pattern) → Mvs k (genPatterns x) (genPatterns (shiftPats k x))
  | [] => by
    simp only [shiftPats, genPatterns, shiftExpr_loc]
    mvs
  | p :: ps => by
    have h1 := mvPat k p
    have h2 := mvPats k ps
    simp only [shiftPats, genPatterns, shiftExpr_loc]
    mvs

theorem mvFunc (k : Nat) : (x : Func) → MvItem k (genFunc x) (genFunc (shiftFunc k x))
  | .mk n g ps b => by
    have h1 := mvPats k ps
    have h2 := mvBlock k b
    simp only [shiftFunc, genFunc, shiftName_type, shiftExpr_loc]
    mvs

theorem mvClass (k : Nat) : (x : Class) → MvItem k (genClass x) (genClass (shiftClass k x))
  | .mk n s _ ms => by
    have h1 := mvMembers k ms
    have h2 : (match s with | some x => MvItem k (genExpr x) (genExpr (shiftExpr k x)) | none => True) := by
      cases s with
      | none => trivial
      | some x => exact mvExpr k x
    cases s <;> simp only [shiftClass, genClass, shiftName_type, shiftExpr_loc] <;> mvs

theorem mvMember (k : Nat) : (x : ClassMember) → Mv k (genMember x) (genMember (shiftMember k x))
  | .error _ => by
    simp only [shiftMember, genMember, shiftExpr_loc]
    mvs
  | .method _ s key kd _ f => by
    have h1 := mvKey k key
    have h2 := mvFunc k f
    simp only [shiftMember, genMember, shiftExpr_loc]
    mvs
  | .literal _ s key v => by
    have h1 := mvKey k key
    have h2 := mvExpr k v
    simp only [shiftMember, genMember, shiftExpr_loc]
    mvs

theorem mvMembers (k : Nat) : (x : List ClassMember) → Mvs k (genMembers x) (genMembers (shiftMembers k x))
  | [] => by
    simp only [shiftMembers, genMembers, shiftExpr_loc]
    mvs
  | m :: ms => by
    have h1 := mvMember k m
    have h2 := mvMembers k ms
    simp only [shiftMembers, genMembers, shiftExpr_loc]
    mvs

theorem mvBlock (k : Nat) : (x : Block) → Mv k (genBlock x) (genBlock (shiftBlock k x))
  | .mk _ b => by
    have h1 := mvStmts k b
    simp only [shiftBlock, genBlock, shiftExpr_loc]
    mvs

theorem mvStmt (k : Nat) : (x : Stmt) → Mv k (genStmt x) (genStmt (shiftStmt k x))
  | .empty _ => by
    simp only [shiftStmt, genStmt, shiftExpr_loc]
    mvs
  | .debugger _ => by
    simp only [shiftStmt, genStmt, shiftExpr_loc]
    mvs
  | .expr _ e => by
    have h1 := mvExpr k e
    simp only [shiftStmt, genStmt, shiftExpr_loc]
    mvs
  | .decl _ key ds => by
    have h1 := mvDeclarators k ds
    simp only [shiftStmt, genStmt, shiftExpr_loc]
    mvs
  | .ret _ v => by
    have h1 : (match v with | some x => MvItem k (genExpr x) (genExpr (shiftExpr k x)) | none => True) := by
      cases v with
      | none => trivial
      | some x => exact mvExpr k x
    cases v <;> simp only [shiftStmt, genStmt, shiftExpr_loc] <;> mvs
  | .brk _ l => by
    simp only [shiftStmt, genStmt, shiftExpr_loc]
    mvs
  | .cont _ l => by
    simp only [shiftStmt, genStmt, shiftExpr_loc]
    mvs
  | .throw _ e => by
    have h1 := mvExpr k e
    simp only [shiftStmt, genStmt, shiftExpr_loc]
    mvs
  | .ifS _ t c a => by
    have h1 := mvExpr k t
    have h2 := mvStmt k c
    have h3 : (match a with | some x => Mv k (genStmt x) (genStmt (shiftStmt k x)) | none => True) := by
      cases a with
      | none => trivial
      | some x => exact mvStmt k x
    cases a <;> simp only [shiftStmt, genStmt, shiftExpr_loc] <;> mvs
  | .whileS _ t b => by
    have h1 := mvExpr k t
    have h2 := mvStmt k b
    simp only [shiftStmt, genStmt, shiftExpr_loc]
    mvs
  | .doS _ b t => by
    have h1 := mvStmt k b
    have h2 := mvExpr k t
    simp only [shiftStmt, genStmt, shiftExpr_loc]
    mvs
  | .forS _ i t u b => by
    have h1 := mvStmt k b
    have h2 : (match i with | some x => Mv k (genForInit x) (genForInit (shiftInit k x)) | none => True) := by
      cases i with
      | none => trivial
      | some x => exact mvInit k x
    have h3 : (match t with | some x => MvItem k (genExpr x) (genExpr (shiftExpr k x)) | none => True) := by
      cases t with
      | none => trivial
      | some x => exact mvExpr k x
    have h4 : (match u with | some x => MvItem k (genExpr x) (genExpr (shiftExpr k x)) | none => True) := by
      cases u with
      | none => trivial
      | some x => exact mvExpr k x
    cases i <;> cases t <;> cases u <;> simp only [shiftStmt, genStmt, shiftExpr_loc] <;> mvs
  | .forIn _ l r b => by
    have h1 := mvInit k l
    have h2 := mvExpr k r
    have h3 := mvStmt k b
    simp only [shiftStmt, genStmt, shiftExpr_loc]
    mvs
  | .forOf _ l r b => by
    have h1 := mvInit k l
    have h2 := mvExpr k r
    have h3 := mvStmt k b
    simp only [shiftStmt, genStmt, shiftExpr_loc]
    mvs
  | .tryS _ b h f => by
    have h1 := mvBlock k b
    have h2 : (match h with | some x => Mv k (genCatch x) (genCatch (shiftCatch k x)) | none => True) := by
      cases h with
      | none => trivial
      | some x => exact mvCatch k x
    have h3 : (match f with | some x => Mv k (genBlock x) (genBlock (shiftBlock k x)) | none => True) := by
      cases f with
      | none => trivial
      | some x => exact mvBlock k x
    cases h <;> cases f <;> simp only [shiftStmt, genStmt, shiftExpr_loc] <;> mvs
  | .block _ b => by
    have h1 := mvStmts k b
    simp only [shiftStmt, genStmt, shiftExpr_loc]
    mvs
  | .labeled _ l b => by
    have h1 := mvStmt k b
    simp only [shiftStmt, genStmt, shiftExpr_loc]
    mvs
  | .function _ f => by
    have h1 := mvFunc k f
    simp only [shiftStmt, genStmt, shiftExpr_loc]
    mvs
  | .class _ c => by
    have h1 := mvClass k c
    simp only [shiftStmt, genStmt, shiftExpr_loc]
    mvs
  | .switch _ d _ cs => by
    have h1 := mvExpr k d
    have h2 := mvCases k cs
    simp only [shiftStmt, genStmt, shiftExpr_loc]
    mvs
  | .import _ ss src => by
    simp only [shiftStmt, genStmt, shiftExpr_loc]
    mvs

theorem mvStmts (k : Nat) : (x : List Stmt) → Mvs k (genStmts x) (genStmts (shiftStmts k x))
  | [] => by
    simp only [shiftStmts, genStmts, shiftExpr_loc]
    mvs
  | s :: ss => by
    have h1 := mvStmt k s
    have h2 := mvStmts k ss
    simp only [shiftStmts, genStmts, shiftExpr_loc]
    mvs

theorem mvDeclarator (k : Nat) : (x : Declarator) → Mv k (genDeclarator x) (genDeclarator (shiftDeclarator k x))
  | .mk _ p i => by
    have h1 := mvPat k p
    have h2 : (match i with | some x => MvItem k (genExpr x) (genExpr (shiftExpr k x)) | none => True) := by
      cases i with
      | none => trivial
      | some x => exact mvExpr k x
    cases i <;> simp only [shiftDeclarator, genDeclarator, shiftExpr_loc] <;> mvs

theorem mvDeclarators (k : Nat) : (x : List Declarator) → Mvs k (genDeclarators x) (genDeclarators (shiftDeclarators k x))
  | [] => by
    simp only [shiftDeclarators, genDeclarators, shiftExpr_loc]
    mvs
  | d :: ds => by
    have h1 := mvDeclarator k d
    have h2 := mvDeclarators k ds
    simp only [shiftDeclarators, genDeclarators, shiftExpr_loc]
    mvs

theorem mvInit (k : Nat) : (x : ForInit) → Mv k (genForInit x) (genForInit (shiftInit k x))
  | .decl _ key ds => by
    have h1 := mvDeclarators k ds
    simp only [shiftInit, genForInit, shiftExpr_loc]
    mvs
  | .expr _ e => by
    have h1 := mvExpr k e
    simp only [shiftInit, genForInit, shiftExpr_loc]
    mvs

theorem mvCase (k : Nat) : (x : SwitchCase) → Mv k (genCase x) (genCase (shiftCase k x))
  | .mk _ t b => by
    have h1 := mvStmts k b
    have h2 : (match t with | some x => MvItem k (genExpr x) (genExpr (shiftExpr k x)) | none => True) := by
      cases t with
      | none => trivial
      | some x => exact mvExpr k x
    cases t <;> simp only [shiftCase, genCase, shiftExpr_loc] <;> mvs

theorem mvCases (k : Nat) : (x : List SwitchCase) → Mvs k (genCases x) (genCases (shiftCases k x))
  | [] => by
    simp only [shiftCases, genCases, shiftExpr_loc]
    mvs
  | c :: cs => by
    have h1 := mvCase k c
    have h2 := mvCases k cs
    simp only [shiftCases, genCases, shiftExpr_loc]
    mvs

theorem mvCatch (k : Nat) : (x : Catch) → Mv k (genCatch x) (genCatch (shiftCatch k x))
  | .mk _ p b => by
    have h1 := mvPat k p
    have h2 := mvBlock k b
    simp only [shiftCatch, genCatch, shiftExpr_loc]
    mvs

end

end Ratel
