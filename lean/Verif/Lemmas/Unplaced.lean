import Verif.Props.Estree
import Verif.Spec.Unplaced
/-! The ESTree document depends on positions only in its fields `start` and `end`. The serialisation of a tree and of the same tree
with every span replaced by `1..1` (`0..0` will not do: the text of a template may not end at 0) are compared. -/
namespace Ratel
open Spec

/-- The span. -/
def o1 : Loc := ⟨1, 1⟩

def oneIdent (i : Ident) : Ident := ⟨o1, i.name⟩

def oneName : Name → Name
  | .empty => .empty
  | .optional n => .optional (n.map oneIdent)
  | .mandatory n => .mandatory (oneIdent n)

def oneSpec : ImportSpec → ImportSpec
  | .named _ i l => .named o1 (oneIdent i) (oneIdent l)
  | .default _ l => .default o1 (oneIdent l)
  | .namespace _ l => .namespace o1 (oneIdent l)

mutual

def oneExpr : Expr → Expr
  | .void _ => .void o1
  | .this _ => .this o1
  | .ident _ n => .ident o1 n
  | .lit _ v => .lit o1 v
  | .seq _ es => .seq o1 (oneExprs es)
  | .array _ es => .array o1 (oneExprs es)
  | .member _ o p => .member o1 (oneExpr o) (oneIdent p)
  | .cmember _ o p => .cmember o1 (oneExpr o) (oneExpr p)
  | .metaProp _ m p => .metaProp o1 (oneIdent m) (oneIdent p)
  | .call _ c args => .call o1 (oneExpr c) (oneExprs args)
  | .binary _ op l r => .binary o1 op (oneExpr l) (oneExpr r)
  | .prefix _ op e => .prefix o1 op (oneExpr e)
  | .postfix _ op e => .postfix o1 op (oneExpr e)
  | .cond _ t c a => .cond o1 (oneExpr t) (oneExpr c) (oneExpr a)
  | .template _ es qs => .template o1 (oneExprs es) (qs.map oneIdent)
  | .tagged _ t _ es qs => .tagged o1 (oneExpr t) o1 (oneExprs es) (qs.map oneIdent)
  | .spread _ e => .spread o1 (oneExpr e)
  | .arrowE _ ps b => .arrowE o1 (onePats ps) (oneExpr b)
  | .arrowB _ ps b => .arrowB o1 (onePats ps) (oneBlock b)
  | .object _ ps => .object o1 (oneProps ps)
  | .function _ f => .function o1 (oneFunc f)
  | .class _ c => .class o1 (oneClass c)

def oneExprs : List Expr → List Expr
  | [] => []
  | e :: es => oneExpr e :: oneExprs es

def oneKey : PropKey → PropKey
  | .computed _ e => .computed o1 (oneExpr e)
  | .literal _ v => .literal o1 v
  | .binary _ v => .binary o1 v

def oneProp : Property → Property
  | .shorthand _ n => .shorthand o1 n
  | .literal _ k v => .literal o1 (oneKey k) (oneExpr v)
  | .method _ k _ f => .method o1 (oneKey k) o1 (oneFunc f)
  | .spread _ e => .spread o1 (oneExpr e)

def oneProps : List Property → List Property
  | [] => []
  | p :: ps => oneProp p :: oneProps ps

def onePat : Pattern → Pattern
  | .void _ => .void o1
  | .ident _ n => .ident o1 n
  | .object _ ps => .object o1 (oneProps ps)
  | .array _ es => .array o1 (onePats es)
  | .rest _ a => .rest o1 (oneIdent a)
  | .assign _ l r => .assign o1 (onePat l) (oneExpr r)

def onePats : List Pattern → List Pattern
  | [] => []
  | p :: ps => onePat p :: onePats ps

def oneFunc : Func → Func
  | .mk n g ps b => .mk (oneName n) g (onePats ps) (oneBlock b)

def oneClass : Class → Class
  | .mk n s _ ms => .mk (oneName n) (match s with | some e => some (oneExpr e) | none => none) o1 (oneMembers ms)

def oneMember : ClassMember → ClassMember
  | .error _ => .error o1
  | .method _ s k kd _ f => .method o1 s (oneKey k) kd o1 (oneFunc f)
  | .literal _ s k v => .literal o1 s (oneKey k) (oneExpr v)

def oneMembers : List ClassMember → List ClassMember
  | [] => []
  | m :: ms => oneMember m :: oneMembers ms

def oneBlock : Block → Block
  | .mk _ b => .mk o1 (oneStmts b)

def oneStmt : Stmt → Stmt
  | .empty _ => .empty o1
  | .debugger _ => .debugger o1
  | .expr _ e => .expr o1 (oneExpr e)
  | .decl _ k ds => .decl o1 k (oneDeclarators ds)
  | .ret _ v => .ret o1 (match v with | some e => some (oneExpr e) | none => none)
  | .brk _ l => .brk o1 (l.map oneIdent)
  | .cont _ l => .cont o1 (l.map oneIdent)
  | .throw _ e => .throw o1 (oneExpr e)
  | .ifS _ t c a => .ifS o1 (oneExpr t) (oneStmt c) (match a with | some s => some (oneStmt s) | none => none)
  | .whileS _ t b => .whileS o1 (oneExpr t) (oneStmt b)
  | .doS _ b t => .doS o1 (oneStmt b) (oneExpr t)
  | .forS _ i t u b => .forS o1 (match i with | some i => some (oneInit i) | none => none)
      (match t with | some e => some (oneExpr e) | none => none)
      (match u with | some e => some (oneExpr e) | none => none) (oneStmt b)
  | .forIn _ l r b => .forIn o1 (oneInit l) (oneExpr r) (oneStmt b)
  | .forOf _ l r b => .forOf o1 (oneInit l) (oneExpr r) (oneStmt b)
  | .tryS _ b h f => .tryS o1 (oneBlock b) (match h with | some c => some (oneCatch c) | none => none)
      (match f with | some b => some (oneBlock b) | none => none)
  | .block _ b => .block o1 (oneStmts b)
  | .labeled _ l b => .labeled o1 l (oneStmt b)
  | .function _ f => .function o1 (oneFunc f)
  | .class _ c => .class o1 (oneClass c)
  | .switch _ d _ cs => .switch o1 (oneExpr d) o1 (oneCases cs)
  | .import _ ss src => .import o1 (ss.map oneSpec) src

def oneStmts : List Stmt → List Stmt
  | [] => []
  | s :: ss => oneStmt s :: oneStmts ss

def oneDeclarator : Declarator → Declarator
  | .mk _ p i => .mk o1 (onePat p) (match i with | some e => some (oneExpr e) | none => none)

def oneDeclarators : List Declarator → List Declarator
  | [] => []
  | d :: ds => oneDeclarator d :: oneDeclarators ds

def oneInit : ForInit → ForInit
  | .decl _ k ds => .decl o1 k (oneDeclarators ds)
  | .expr _ e => .expr o1 (oneExpr e)

def oneCase : SwitchCase → SwitchCase
  | .mk _ t b => .mk o1 (match t with | some e => some (oneExpr e) | none => none) (oneStmts b)

def oneCases : List SwitchCase → List SwitchCase
  | [] => []
  | c :: cs => oneCase c :: oneCases cs

def oneCatch : Catch → Catch
  | .mk _ p b => .mk o1 (onePat p) (oneBlock b)

end



theorem oneIdent_bare (i : Ident) : oneIdent (bareIdent i) = oneIdent i := rfl
theorem oneName_bare (n : Name) : oneName (bareName n) = oneName n := by
  cases n with
  | optional n => cases n <;> rfl
  | _ => rfl
theorem oneSpec_bare (s : ImportSpec) : oneSpec (bareSpec s) = oneSpec s := by cases s <;> rfl

mutual
theorem oneExpr_bare : (x : Expr) → oneExpr (bareExpr x) = oneExpr x
  | .void _ => by simp [oneExpr, bareExpr]
  | .this _ => by simp [oneExpr, bareExpr]
  | .ident _ n => by simp [oneExpr, bareExpr]
  | .lit _ v => by simp [oneExpr, bareExpr]
  | .seq _ es => by simp [oneExpr, bareExpr, oneExprs_bare]
  | .array _ es => by simp [oneExpr, bareExpr, oneExprs_bare]
  | .member _ o p => by simp [oneExpr, bareExpr, oneExpr_bare, oneIdent_bare]
  | .cmember _ o p => by simp [oneExpr, bareExpr, oneExpr_bare]
  | .metaProp _ m p => by simp [oneExpr, bareExpr, oneIdent_bare]
  | .call _ c args => by simp [oneExpr, bareExpr, oneExpr_bare, oneExprs_bare]
  | .binary _ op l r => by simp [oneExpr, bareExpr, oneExpr_bare]
  | .prefix _ op e => by simp [oneExpr, bareExpr, oneExpr_bare]
  | .postfix _ op e => by simp [oneExpr, bareExpr, oneExpr_bare]
  | .cond _ t c a => by simp [oneExpr, bareExpr, oneExpr_bare]
  | .template _ es qs => by simp [oneExpr, bareExpr, oneExprs_bare, oneIdent_bare, Function.comp_def]
  | .tagged _ t _ es qs => by simp [oneExpr, bareExpr, oneExpr_bare, oneExprs_bare, oneIdent_bare, Function.comp_def]
  | .spread _ e => by simp [oneExpr, bareExpr, oneExpr_bare]
  | .arrowE _ ps b => by simp [oneExpr, bareExpr, oneExpr_bare, onePats_bare]
  | .arrowB _ ps b => by simp [oneExpr, bareExpr, oneBlock_bare, onePats_bare]
  | .object _ ps => by simp [oneExpr, bareExpr, oneProps_bare]
  | .function _ f => by simp [oneExpr, bareExpr, oneFunc_bare]
  | .class _ c => by simp [oneExpr, bareExpr, oneClass_bare]

theorem oneExprs_bare : (x : List Expr) → oneExprs (bareExprs x) = oneExprs x
  | [] => by simp [oneExprs, bareExprs]
  | e :: es => by simp [oneExprs, bareExprs, oneExpr_bare, oneExprs_bare]

theorem oneKey_bare : (x : PropKey) → oneKey (bareKey x) = oneKey x
  | .computed _ e => by simp [oneKey, bareKey, oneExpr_bare]
  | .literal _ v => by simp [oneKey, bareKey]
  | .binary _ v => by simp [oneKey, bareKey]

theorem oneProp_bare : (x : Property) → oneProp (bareProp x) = oneProp x
  | .shorthand _ n => by simp [oneProp, bareProp]
  | .literal _ k v => by simp [oneProp, bareProp, oneExpr_bare, oneKey_bare]
  | .method _ k _ f => by simp [oneProp, bareProp, oneFunc_bare, oneKey_bare]
  | .spread _ e => by simp [oneProp, bareProp, oneExpr_bare]

theorem oneProps_bare : (x : List Property) → oneProps (bareProps x) = oneProps x
  | [] => by simp [oneProps, bareProps]
  | p :: ps => by simp [oneProps, bareProps, oneProp_bare, oneProps_bare]

theorem onePat_bare : (x : Pattern) → onePat (barePat x) = onePat x
  | .void _ => by simp [onePat, barePat]
  | .ident _ n => by simp [onePat, barePat]
  | .object _ ps => by simp [onePat, barePat, oneProps_bare]
  | .array _ es => by simp [onePat, barePat, onePats_bare]
  | .rest _ a => by simp [onePat, barePat, oneIdent_bare]
  | .assign _ l r => by simp [onePat, barePat, oneExpr_bare, onePat_bare]

theorem onePats_bare : (x : List Pattern) → onePats (barePats x) = onePats x
  | [] => by simp [onePats, barePats]
  | p :: ps => by simp [onePats, barePats, onePat_bare, onePats_bare]

theorem oneFunc_bare : (x : Func) → oneFunc (bareFunc x) = oneFunc x
  | .mk n g ps b => by simp [oneFunc, bareFunc, oneBlock_bare, oneName_bare, onePats_bare]

theorem oneClass_bare : (x : Class) → oneClass (bareClass x) = oneClass x
  | .mk n s _ ms => by cases s <;> simp [oneClass, bareClass, oneExpr_bare, oneMembers_bare, oneName_bare]

theorem oneMember_bare : (x : ClassMember) → oneMember (bareMember x) = oneMember x
  | .error _ => by simp [oneMember, bareMember]
  | .method _ s k kd _ f => by simp [oneMember, bareMember, oneFunc_bare, oneKey_bare]
  | .literal _ s k v => by simp [oneMember, bareMember, oneExpr_bare, oneKey_bare]

theorem oneMembers_bare : (x : List ClassMember) → oneMembers (bareMembers x) = oneMembers x
  | [] => by simp [oneMembers, bareMembers]
  | m :: ms => by simp [oneMembers, bareMembers, oneMember_bare, oneMembers_bare]

theorem oneBlock_bare : (x : Block) → oneBlock (bareBlock x) = oneBlock x
  | .mk _ b => by simp [oneBlock, bareBlock, oneStmts_bare]

theorem oneStmt_bare : (x : Stmt) → oneStmt (bareStmt x) = oneStmt x
  | .empty _ => by simp [oneStmt, bareStmt]
  | .debugger _ => by simp [oneStmt, bareStmt]
  | .expr _ e => by simp [oneStmt, bareStmt, oneExpr_bare]
  | .decl _ k ds => by simp [oneStmt, bareStmt, oneDeclarators_bare]
  | .ret _ v => by cases v <;> simp [oneStmt, bareStmt, oneExpr_bare]
  | .brk _ l => by simp [oneStmt, bareStmt, oneIdent_bare, Function.comp_def]
  | .cont _ l => by simp [oneStmt, bareStmt, oneIdent_bare, Function.comp_def]
  | .throw _ e => by simp [oneStmt, bareStmt, oneExpr_bare]
  | .ifS _ t c a => by cases a <;> simp [oneStmt, bareStmt, oneExpr_bare, oneStmt_bare]
  | .whileS _ t b => by simp [oneStmt, bareStmt, oneExpr_bare, oneStmt_bare]
  | .doS _ b t => by simp [oneStmt, bareStmt, oneExpr_bare, oneStmt_bare]
  | .forS _ i t u b => by cases i <;> cases t <;> cases u <;> simp [oneStmt, bareStmt, oneExpr_bare, oneInit_bare, oneStmt_bare]
  | .forIn _ l r b => by simp [oneStmt, bareStmt, oneExpr_bare, oneInit_bare, oneStmt_bare]
  | .forOf _ l r b => by simp [oneStmt, bareStmt, oneExpr_bare, oneInit_bare, oneStmt_bare]
  | .tryS _ b h f => by cases h <;> cases f <;> simp [oneStmt, bareStmt, oneBlock_bare, oneCatch_bare]
  | .block _ b => by simp [oneStmt, bareStmt, oneStmts_bare]
  | .labeled _ l b => by simp [oneStmt, bareStmt, oneStmt_bare]
  | .function _ f => by simp [oneStmt, bareStmt, oneFunc_bare]
  | .class _ c => by simp [oneStmt, bareStmt, oneClass_bare]
  | .switch _ d _ cs => by simp [oneStmt, bareStmt, oneCases_bare, oneExpr_bare]
  | .import _ ss src => by simp [oneStmt, bareStmt, oneSpec_bare, Function.comp_def]

theorem oneStmts_bare : (x : List Stmt) → oneStmts (bareStmts x) = oneStmts x
  | [] => by simp [oneStmts, bareStmts]
  | s :: ss => by simp [oneStmts, bareStmts, oneStmt_bare, oneStmts_bare]

theorem oneDeclarator_bare : (x : Declarator) → oneDeclarator (bareDeclarator x) = oneDeclarator x
  | .mk _ p i => by cases i <;> simp [oneDeclarator, bareDeclarator, oneExpr_bare, onePat_bare]

theorem oneDeclarators_bare : (x : List Declarator) → oneDeclarators (bareDeclarators x) = oneDeclarators x
  | [] => by simp [oneDeclarators, bareDeclarators]
  | d :: ds => by simp [oneDeclarators, bareDeclarators, oneDeclarator_bare, oneDeclarators_bare]

theorem oneInit_bare : (x : ForInit) → oneInit (bareInit x) = oneInit x
  | .decl _ k ds => by simp [oneInit, bareInit, oneDeclarators_bare]
  | .expr _ e => by simp [oneInit, bareInit, oneExpr_bare]

theorem oneCase_bare : (x : SwitchCase) → oneCase (bareCase x) = oneCase x
  | .mk _ t b => by cases t <;> simp [oneCase, bareCase, oneExpr_bare, oneStmts_bare]

theorem oneCases_bare : (x : List SwitchCase) → oneCases (bareCases x) = oneCases x
  | [] => by simp [oneCases, bareCases]
  | c :: cs => by simp [oneCases, bareCases, oneCase_bare, oneCases_bare]

theorem oneCatch_bare : (x : Catch) → oneCatch (bareCatch x) = oneCatch x
  | .mk _ p b => by simp [oneCatch, bareCatch, oneBlock_bare, onePat_bare]

end


/-- Whenever the first serialisation succeeds, so does the second, with the same document up to positions. -/
def Like (x y : Out Json) : Prop := ∀ j, x = .ok j → ∃ j', y = .ok j' ∧ unplaced j' = unplaced j
/-- The same for the fields of an object. -/
def LikeItem (x y : Out Item) : Prop := ∀ ty fs, x = .ok (ty, fs) → ∃ fs', y = .ok (ty, fs') ∧ unplacedFields fs' = unplacedFields fs
/-- The same for lists. -/
inductive Likes : List (Out Json) → List (Out Json) → Prop
  | nil : Likes [] []
  | cons {x y xs ys} (h : Like x y) (hs : Likes xs ys) : Likes (x :: xs) (y :: ys)
/-- The same for named fields. -/
inductive LikeFields : List (String × Out Json) → List (String × Out Json) → Prop
  | nil : LikeFields [] []
  | cons {k x y xs ys} (h : Like x y) (hs : LikeFields xs ys) : LikeFields ((k, x) :: xs) ((k, y) :: ys)
/-- The same for the elements of arrays. -/
inductive LikeElems : List (Option (Out Json)) → List (Option (Out Json)) → Prop
  | nil : LikeElems [] []
  | hole {xs ys} (hs : LikeElems xs ys) : LikeElems (none :: xs) (none :: ys)
  | cons {x y xs ys} (h : Like x y) (hs : LikeElems xs ys) : LikeElems (some x :: xs) (some y :: ys)

theorem Like.refl (x : Out Json) : Like x x := fun j h => ⟨j, h, rfl⟩
theorem LikeItem.refl (x : Out Item) : LikeItem x x := fun _ fs h => ⟨fs, h, rfl⟩
theorem Like.panic {y : Out Json} : Like .panic y := nofun
theorem LikeItem.panic {y : Out Item} : LikeItem .panic y := nofun

theorem unplacedFields_append (a b : List (String × Json)) : unplacedFields (a ++ b) = unplacedFields a ++ unplacedFields b := by
  induction a with
  | nil => rfl
  | cons f a ih =>
    obtain ⟨k, x⟩ := f
    rw [List.cons_append, unplacedFields, unplacedFields, ih]
    split <;> rfl

theorem LikeItem.withLoc {x y : Out Item} (h : LikeItem x y) (l l' : Loc) : Like (withLoc l x) (withLoc l' y) := by
  intro j hj
  obtain ⟨⟨ty, fs⟩, h1, h2⟩ := Out.bind_eq_ok.1 hj
  obtain ⟨fs', h3, h4⟩ := h ty fs h1
  cases h2
  refine ⟨_, Out.bind_eq_ok.2 ⟨_, h3, rfl⟩, ?_⟩
  simp only [unplaced, unplacedFields_append, h4]
  rfl

theorem LikeFields.inLoc {fs fs' : List (String × Out Json)} (h : LikeFields fs fs') (ty : String) : LikeItem (inLoc ty fs) (inLoc ty fs') := by
  suffices hh : ∀ js, fields fs = .ok js → ∃ js', fields fs' = .ok js' ∧ unplacedFields js' = unplacedFields js by
    intro ty' js hj
    obtain ⟨js0, h1, h2⟩ := Out.bind_eq_ok.1 hj
    obtain ⟨js', h3, h4⟩ := hh js0 h1
    cases h2
    exact ⟨js', Out.bind_eq_ok.2 ⟨_, h3, rfl⟩, h4⟩
  induction h with
  | nil => intro js h; exact ⟨js, h, rfl⟩
  | cons h _ ih =>
    intro js hj
    obtain ⟨j, h1, h2⟩ := Out.bind_eq_ok.1 hj
    obtain ⟨js0, h3, h4⟩ := Out.bind_eq_ok.1 h2
    obtain ⟨j', h5, h6⟩ := h j h1
    obtain ⟨js', h7, h8⟩ := ih js0 h3
    cases h4
    refine ⟨_, Out.bind_eq_ok.2 ⟨_, h5, Out.bind_eq_ok.2 ⟨_, h7, rfl⟩⟩, ?_⟩
    rw [unplacedFields, unplacedFields, h6, h8]

theorem Likes.array {xs ys : List (Out Json)} (h : Likes xs ys) : Like (array xs) (array ys) := by
  suffices hh : ∀ js, sequence xs = .ok js → ∃ js', sequence ys = .ok js' ∧ unplacedAll js' = unplacedAll js by
    intro j hj
    obtain ⟨js0, h1, h2⟩ := Out.bind_eq_ok.1 hj
    obtain ⟨js', h3, h4⟩ := hh js0 h1
    cases h2
    exact ⟨.arr js', Out.bind_eq_ok.2 ⟨_, h3, rfl⟩, by rw [unplaced, unplaced, h4]⟩
  induction h with
  | nil => intro js h; exact ⟨js, h, rfl⟩
  | cons h _ ih =>
    intro js hj
    obtain ⟨j, h1, h2⟩ := Out.bind_eq_ok.1 hj
    obtain ⟨js0, h3, h4⟩ := Out.bind_eq_ok.1 h2
    obtain ⟨j', h5, h6⟩ := h j h1
    obtain ⟨js', h7, h8⟩ := ih js0 h3
    cases h4
    refine ⟨_, Out.bind_eq_ok.2 ⟨_, h5, Out.bind_eq_ok.2 ⟨_, h7, rfl⟩⟩, ?_⟩
    rw [unplacedAll, unplacedAll, h6, h8]

theorem LikeElems.elements {xs ys : List (Option (Out Json))} (h : LikeElems xs ys) :
    Likes ((dropTrailing xs).map optional) ((dropTrailing ys).map optional) := by
  suffices hh : LikeElems (dropTrailing xs) (dropTrailing ys) by
    generalize dropTrailing xs = a at hh
    generalize dropTrailing ys = b at hh
    induction hh with
    | nil => exact .nil
    | hole _ ih => exact .cons (.refl _) ih
    | cons h _ ih => exact .cons h ih
  induction h with
  | nil => exact .nil
  | @hole xs ys _ ih =>
    simp only [dropTrailing]
    generalize dropTrailing xs = a at *
    generalize dropTrailing ys = b at *
    cases ih with
    | nil => exact .nil
    | hole h => exact .hole (.hole h)
    | cons h hs => exact .hole (.cons h hs)
  | cons h _ ih =>
    simp only [dropTrailing]
    exact .cons h ih

theorem like_ident (i : Ident) : Like (genIdent i) (genIdent (oneIdent i)) := (LikeItem.refl _).withLoc _ _

theorem like_name (n : Name) : Like (genName n) (genName (oneName n)) := by
  cases n with
  | empty => exact .refl _
  | mandatory n => exact like_ident n
  | optional n =>
    cases n with
    | none => exact .refl _
    | some n => exact like_ident n

theorem like_label (n : Option Ident) : Like (optional (n.map genIdent)) (optional ((n.map oneIdent).map genIdent)) := by
  cases n with
  | none => exact .refl _
  | some n => exact like_ident n

theorem like_spec (s : ImportSpec) : Like (genImportSpec s) (genImportSpec (oneSpec s)) := by
  cases s with
  | named l i n =>
    refine LikeItem.withLoc ?_ _ _
    intro ty fs h
    obtain ⟨a, h1, h⟩ := Out.bind_eq_ok.1 h
    obtain ⟨b, h2, h⟩ := Out.bind_eq_ok.1 h
    obtain ⟨a', h3, h4⟩ := like_ident i a h1
    obtain ⟨b', h5, h6⟩ := like_ident n b h2
    cases h
    exact ⟨_, Out.bind_eq_ok.2 ⟨_, h3, Out.bind_eq_ok.2 ⟨_, h5, rfl⟩⟩, by simp [unplacedFields, h4, h6]⟩
  | «default» l n | «namespace» l n =>
    refine LikeItem.withLoc ?_ _ _
    intro ty fs h
    obtain ⟨b, h2, h⟩ := Out.bind_eq_ok.1 h
    obtain ⟨b', h5, h6⟩ := like_ident n b h2
    cases h
    exact ⟨_, Out.bind_eq_ok.2 ⟨_, h5, rfl⟩, by simp [unplacedFields, h6]⟩

theorem like_specs (ss : List ImportSpec) : Likes (ss.map genImportSpec) ((ss.map oneSpec).map genImportSpec) := by
  induction ss with
  | nil => exact .nil
  | cons s ss ih => exact .cons (like_spec s) ih

theorem like_quasis (qs : List Ident) : Likes (genQuasis qs) (genQuasis (qs.map oneIdent)) := by
  induction qs with
  | nil => exact .nil
  | cons q qs ih =>
    refine .cons ?_ ih
    split
    · exact .panic
    · rw [if_neg (by simp [oneIdent, o1])]
      have : (qs.map oneIdent).isEmpty = qs.isEmpty := by cases qs <;> rfl
      rw [this]
      exact (LikeItem.refl _).withLoc _ _

macro "like" : tactic => `(tactic| (repeat' first
  | exact .refl _
  | exact .panic
  | exact like_ident _
  | exact like_name _
  | exact like_label _
  | exact like_specs _
  | exact like_quasis _
  | assumption
  | with_reducible exact .nil
  | with_reducible refine LikeItem.withLoc ?_ _ _
  | with_reducible refine LikeFields.inLoc ?_ _
  | with_reducible refine Likes.array ?_
  | with_reducible refine LikeElems.elements ?_
  | with_reducible refine .hole ?_
  | with_reducible refine .cons ?_ ?_))

theorem oneName_type (what : String) (n : Name) : declOrExpr what (oneName n) = declOrExpr what n := by
  cases n with
  | optional n => cases n <;> rfl
  | _ => rfl
mutual
theorem likeExpr : (x : Expr) → LikeItem (genExpr x) (genExpr (oneExpr x))
  | .void _ => by
    simp only [oneExpr, genExpr]
    like
  | .this _ => by
    simp only [oneExpr, genExpr]
    like
  | .ident _ n => by
    simp only [oneExpr, genExpr]
    like
  | .lit _ v => by
    simp only [oneExpr, genExpr]
    like
  | .seq _ es => by
    have h1 := likeExprs es
    simp only [oneExpr, genExpr]
    like
  | .array _ es => by
    have h := likeElems es
    simp only [oneExpr, genExpr]
    like
  | .member _ o p => by
    have h1 := likeExpr o
    simp only [oneExpr, genExpr]
    like
  | .cmember _ o p => by
    have h1 := likeExpr o
    have h2 := likeExpr p
    simp only [oneExpr, genExpr]
    like
  | .metaProp _ m p => by
    simp only [oneExpr, genExpr]
    like
  | .call _ c args => by
    have h1 := likeExpr c
    have h2 := likeExprs args
    simp only [oneExpr, genExpr]
    like
  | .binary _ op l r => by
    have h1 := likeExpr l
    have h2 := likeExpr r
    simp only [oneExpr, genExpr]
    like
  | .prefix _ op e => by
    have h := likeExpr e
    cases e with
    | call l c as =>
      have h1 := likeExpr c
      have h2 := likeExprs as
      simp only [oneExpr, genExpr] at h ⊢
      split <;> like
    | lit l v =>
      simp only [oneExpr, genExpr] at h ⊢
      split <;> like
    | _ =>
      simp only [oneExpr, genExpr] at h ⊢
      split <;> like
  | .postfix _ op e => by
    have h1 := likeExpr e
    simp only [oneExpr, genExpr]
    like
  | .cond _ t c a => by
    have h1 := likeExpr t
    have h2 := likeExpr c
    have h3 := likeExpr a
    simp only [oneExpr, genExpr]
    like
  | .template _ es qs => by
    have h1 := likeExprs es
    simp only [oneExpr, genExpr]
    like
  | .tagged _ t _ es qs => by
    have h1 := likeExpr t
    have h2 := likeExprs es
    simp only [oneExpr, genExpr]
    like
  | .spread _ e => by
    have h1 := likeExpr e
    simp only [oneExpr, genExpr]
    like
  | .arrowE _ ps b => by
    have h1 := likePats ps
    have h2 := likeExpr b
    simp only [oneExpr, genExpr]
    like
  | .arrowB _ ps b => by
    have h1 := likePats ps
    have h2 := likeBlock b
    simp only [oneExpr, genExpr]
    like
  | .object _ ps => by
    have h1 := likeProps ps
    simp only [oneExpr, genExpr]
    like
  | .function _ f => by
    have h1 := likeFunc f
    simp only [oneExpr, genExpr]
    like
  | .class _ c => by
    have h1 := likeClass c
    simp only [oneExpr, genExpr]
    like

theorem likeExprs : (x : List Expr) → Likes (genExprs x) (genExprs (oneExprs x))
  | [] => by
    simp only [oneExprs, genExprs]
    like
  | e :: es => by
    have h1 := likeExpr e
    have h2 := likeExprs es
    simp only [oneExprs, genExprs]
    like

theorem likeElems : (x : List Expr) → LikeElems (genElements x) (genElements (oneExprs x))
  | [] => .nil
  | e :: es => by
    have h1 := likeExpr e
    have h2 := likeElems es
    cases e <;> simp only [genElements, oneExprs, oneExpr] at h1 h2 ⊢ <;> like

theorem likeKey : (x : PropKey) → Like (genKey x) (genKey (oneKey x))
  | .computed _ e => by
    have h1 := likeExpr e
    simp only [oneKey, genKey]
    like
  | .literal _ v => by
    simp only [oneKey, genKey]
    like
  | .binary _ v => by
    simp only [oneKey, genKey]
    like

theorem likeProp : (x : Property) → Like (genProperty x) (genProperty (oneProp x))
  | .shorthand _ n => by
    simp only [oneProp, genProperty]
    like
  | .literal _ k v => by
    have h1 := likeKey k
    have h2 := likeExpr v
    cases k <;> simp only [oneProp, genProperty, oneKey] at h1 ⊢ <;> like
  | .method _ k _ f => by
    have h1 := likeKey k
    have h2 := likeFunc f
    simp only [oneProp, genProperty]
    like
  | .spread _ e => by
    have h1 := likeExpr e
    simp only [oneProp, genProperty]
    like

theorem likeProps : (x : List Property) → Likes (genProperties x) (genProperties (oneProps x))
  | [] => by
    simp only [oneProps, genProperties]
    like
  | p :: ps => by
    have h1 := likeProp p
    have h2 := likeProps ps
    simp only [oneProps, genProperties]
    like

theorem likePat : (x : Pattern) → Like (genPattern x) (genPattern (onePat x))
  | .void _ => by
    simp only [onePat, genPattern]
    like
  | .ident _ n => by
    simp only [onePat, genPattern]
    like
  | .object _ ps => by
    have h1 := likeProps ps
    simp only [onePat, genPattern]
    like
  | .array _ es => by
    have h1 := likePats es
    simp only [onePat, genPattern]
    like
  | .rest _ a => by
    simp only [onePat, genPattern]
    like
  | .assign _ l r => by
    have h1 := likePat l
    have h2 := likeExpr r
    simp only [onePat, genPattern]
    like

theorem likePats : (x : List Pattern) → Likes (genPatterns x) (genPatterns (onePats x))
  | [] => by
    simp only [onePats, genPatterns]
    like
  | p :: ps => by
    have h1 := likePat p
    have h2 := likePats ps
    simp only [onePats, genPatterns]
    like

theorem likeFunc : (x : Func) → LikeItem (genFunc x) (genFunc (oneFunc x))
  | .mk n g ps b => by
    have h1 := likePats ps
    have h2 := likeBlock b
    simp only [oneFunc, genFunc, oneName_type]
    like

theorem likeClass : (x : Class) → LikeItem (genClass x) (genClass (oneClass x))
  | .mk n s _ ms => by
    have h1 := likeMembers ms
    have h2 : (match s with | some x => LikeItem (genExpr x) (genExpr (oneExpr x)) | none => True) := by
      cases s with
      | none => trivial
      | some x => exact likeExpr x
    cases s <;> simp only [oneClass, genClass, oneName_type] <;> like

theorem likeMember : (x : ClassMember) → Like (genMember x) (genMember (oneMember x))
  | .error _ => by
    simp only [oneMember, genMember]
    like
  | .method _ s k kd _ f => by
    have h1 := likeKey k
    have h2 := likeFunc f
    simp only [oneMember, genMember]
    like
  | .literal _ s k v => by
    have h1 := likeKey k
    have h2 := likeExpr v
    simp only [oneMember, genMember]
    like

theorem likeMembers : (x : List ClassMember) → Likes (genMembers x) (genMembers (oneMembers x))
  | [] => by
    simp only [oneMembers, genMembers]
    like
  | m :: ms => by
    have h1 := likeMember m
    have h2 := likeMembers ms
    simp only [oneMembers, genMembers]
    like

theorem likeBlock : (x : Block) → Like (genBlock x) (genBlock (oneBlock x))
  | .mk _ b => by
    have h1 := likeStmts b
    simp only [oneBlock, genBlock]
    like

theorem likeStmt : (x : Stmt) → Like (genStmt x) (genStmt (oneStmt x))
  | .empty _ => by
    simp only [oneStmt, genStmt]
    like
  | .debugger _ => by
    simp only [oneStmt, genStmt]
    like
  | .expr _ e => by
    have h1 := likeExpr e
    simp only [oneStmt, genStmt]
    like
  | .decl _ k ds => by
    have h1 := likeDeclarators ds
    simp only [oneStmt, genStmt]
    like
  | .ret _ v => by
    have h1 : (match v with | some x => LikeItem (genExpr x) (genExpr (oneExpr x)) | none => True) := by
      cases v with
      | none => trivial
      | some x => exact likeExpr x
    cases v <;> simp only [oneStmt, genStmt] <;> like
  | .brk _ l => by
    simp only [oneStmt, genStmt]
    like
  | .cont _ l => by
    simp only [oneStmt, genStmt]
    like
  | .throw _ e => by
    have h1 := likeExpr e
    simp only [oneStmt, genStmt]
    like
  | .ifS _ t c a => by
    have h1 := likeExpr t
    have h2 := likeStmt c
    have h3 : (match a with | some x => Like (genStmt x) (genStmt (oneStmt x)) | none => True) := by
      cases a with
      | none => trivial
      | some x => exact likeStmt x
    cases a <;> simp only [oneStmt, genStmt] <;> like
  | .whileS _ t b => by
    have h1 := likeExpr t
    have h2 := likeStmt b
    simp only [oneStmt, genStmt]
    like
  | .doS _ b t => by
    have h1 := likeStmt b
    have h2 := likeExpr t
    simp only [oneStmt, genStmt]
    like
  | .forS _ i t u b => by
    have h1 := likeStmt b
    have h2 : (match i with | some x => Like (genForInit x) (genForInit (oneInit x)) | none => True) := by
      cases i with
      | none => trivial
      | some x => exact likeInit x
    have h3 : (match t with | some x => LikeItem (genExpr x) (genExpr (oneExpr x)) | none => True) := by
      cases t with
      | none => trivial
      | some x => exact likeExpr x
    have h4 : (match u with | some x => LikeItem (genExpr x) (genExpr (oneExpr x)) | none => True) := by
      cases u with
      | none => trivial
      | some x => exact likeExpr x
    cases i <;> cases t <;> cases u <;> simp only [oneStmt, genStmt] <;> like
  | .forIn _ l r b => by
    have h1 := likeInit l
    have h2 := likeExpr r
    have h3 := likeStmt b
    simp only [oneStmt, genStmt]
    like
  | .forOf _ l r b => by
    have h1 := likeInit l
    have h2 := likeExpr r
    have h3 := likeStmt b
    simp only [oneStmt, genStmt]
    like
  | .tryS _ b h f => by
    have h1 := likeBlock b
    have h2 : (match h with | some x => Like (genCatch x) (genCatch (oneCatch x)) | none => True) := by
      cases h with
      | none => trivial
      | some x => exact likeCatch x
    have h3 : (match f with | some x => Like (genBlock x) (genBlock (oneBlock x)) | none => True) := by
      cases f with
      | none => trivial
      | some x => exact likeBlock x
    cases h <;> cases f <;> simp only [oneStmt, genStmt] <;> like
  | .block _ b => by
    have h1 := likeStmts b
    simp only [oneStmt, genStmt]
    like
  | .labeled _ l b => by
    have h1 := likeStmt b
    simp only [oneStmt, genStmt]
    like
  | .function _ f => by
    have h1 := likeFunc f
    simp only [oneStmt, genStmt]
    like
  | .class _ c => by
    have h1 := likeClass c
    simp only [oneStmt, genStmt]
    like
  | .switch _ d _ cs => by
    have h1 := likeExpr d
    have h2 := likeCases cs
    simp only [oneStmt, genStmt]
    like
  | .import _ ss src => by
    simp only [oneStmt, genStmt]
    like

theorem likeStmts : (x : List Stmt) → Likes (genStmts x) (genStmts (oneStmts x))
  | [] => by
    simp only [oneStmts, genStmts]
    like
  | s :: ss => by
    have h1 := likeStmt s
    have h2 := likeStmts ss
    simp only [oneStmts, genStmts]
    like

theorem likeDeclarator : (x : Declarator) → Like (genDeclarator x) (genDeclarator (oneDeclarator x))
  | .mk _ p i => by
    have h1 := likePat p
    have h2 : (match i with | some x => LikeItem (genExpr x) (genExpr (oneExpr x)) | none => True) := by
      cases i with
      | none => trivial
      | some x => exact likeExpr x
    cases i <;> simp only [oneDeclarator, genDeclarator] <;> like

theorem likeDeclarators : (x : List Declarator) → Likes (genDeclarators x) (genDeclarators (oneDeclarators x))
  | [] => by
    simp only [oneDeclarators, genDeclarators]
    like
  | d :: ds => by
    have h1 := likeDeclarator d
    have h2 := likeDeclarators ds
    simp only [oneDeclarators, genDeclarators]
    like

theorem likeInit : (x : ForInit) → Like (genForInit x) (genForInit (oneInit x))
  | .decl _ k ds => by
    have h1 := likeDeclarators ds
    simp only [oneInit, genForInit]
    like
  | .expr _ e => by
    have h1 := likeExpr e
    simp only [oneInit, genForInit]
    like

theorem likeCase : (x : SwitchCase) → Like (genCase x) (genCase (oneCase x))
  | .mk _ t b => by
    have h1 := likeStmts b
    have h2 : (match t with | some x => LikeItem (genExpr x) (genExpr (oneExpr x)) | none => True) := by
      cases t with
      | none => trivial
      | some x => exact likeExpr x
    cases t <;> simp only [oneCase, genCase] <;> like

theorem likeCases : (x : List SwitchCase) → Likes (genCases x) (genCases (oneCases x))
  | [] => by
    simp only [oneCases, genCases]
    like
  | c :: cs => by
    have h1 := likeCase c
    have h2 := likeCases cs
    simp only [oneCases, genCases]
    like

theorem likeCatch : (x : Catch) → Like (genCatch x) (genCatch (oneCatch x))
  | .mk _ p b => by
    have h1 := likePat p
    have h2 := likeBlock b
    simp only [oneCatch, genCatch]
    like

end

end Ratel
