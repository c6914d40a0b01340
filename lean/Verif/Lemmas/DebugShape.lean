import Verif.Debug
import Verif.Spec.Code
import Verif.Lemmas.Decode
/-! What the dumps of trees look like, and that all strings in them are texts of the tree. -/
namespace Ratel
open Spec

/-- The name of a type or of a variant. -/
def isTypeName (s : String) : Bool := !s.toList.isEmpty && s.toList.all Char.isAlpha

/-- The name of a field. -/
def isFieldName (s : String) : Bool := s ≠ "" && s.toList.all (fun c => c != ':')

mutual
/-- A dump with proper names, where structures have named fields. -/
def Dbg.shaped : Dbg → Bool
  | .word s => isTypeName s
  | .num _ => true
  | .str _ => true
  | .struct n fs => isTypeName n && fs.filled && fs.shaped true
  | .tuple n fs => isTypeName n && fs.filled && fs.shaped false
  | .list fs => fs.shaped false
/-- The same for fields and entries. -/
def DbgItems.shaped (labelled : Bool) : DbgItems → Bool
  | .nil => true
  | .cons l d r => (if labelled then isFieldName l else l = "") && d.shaped && r.shaped labelled
/-- There is a field. -/
def DbgItems.filled : DbgItems → Bool
  | .nil => false
  | .cons .. => true
end

/-- The dump of a node. -/
def dbgNode : Node → Dbg
  | .expr e => dbgExpr e
  | .key k => dbgKey k
  | .prop p => dbgProp p
  | .pat p => dbgPat p
  | .func f => dbgFunc f
  | .cls c => dbgClass c
  | .member m => dbgMember m
  | .block b => dbgBlock b
  | .stmt s => dbgStmt s
  | .declarator d => dbgDeclarator d
  | .forInit i => dbgInit i
  | .case c => dbgCase c
  | .catch c => dbgCatch c
  | .switchBody cs => dbgBody (dbgCases cs)

/-- Anything that is checked on every part of a dump. -/
class Checked (f : Dbg → Bool) (g : outParam (Bool → DbgItems → Bool)) : Prop where
  num : ∀ n, f (.num n) = true
  word : ∀ s, isTypeName s = true → f (.word s) = true
  struct : ∀ n fs, isTypeName n = true → fs.filled = true → f (.struct n fs) = g true fs
  tuple : ∀ n fs, isTypeName n = true → fs.filled = true → f (.tuple n fs) = g false fs
  list : ∀ fs, f (.list fs) = g false fs
  nil : ∀ b, g b .nil = true
  field : ∀ l d r, isFieldName l = true → g true (.cons l d r) = (f d && g true r)
  entry : ∀ d r, g false (.cons "" d r) = (f d && g false r)

instance Dbg.checked_shaped : Checked Dbg.shaped DbgItems.shaped where
  num _ := rfl
  word s h := by simp [Dbg.shaped, h]
  struct n fs h h' := by simp [Dbg.shaped, h, h']
  tuple n fs h h' := by simp [Dbg.shaped, h, h']
  list _ := rfl
  nil _ := rfl
  field l d r h := by simp [DbgItems.shaped, h]
  entry d r := by simp [DbgItems.shaped]

instance Dbg.checked_sound : Checked Dbg.sound (fun _ => DbgItems.sound) where
  num _ := rfl
  word _ _ := rfl
  struct _ _ _ _ := rfl
  tuple _ _ _ _ := rfl
  list _ := rfl
  nil _ := rfl
  field _ _ _ _ := rfl
  entry _ _ := rfl

theorem option_all_iff {α : Type} (o : Option α) (p : α → Bool) : o.all p = true ↔ ∀ x, o = some x → p x = true := by
  cases o <;> simp

section
variable {f : Dbg → Bool} {g : Bool → DbgItems → Bool} [hc : Checked f g]
include hc

theorem checked_lone (d : Dbg) : g false (lone d) = f d := by
  rw [lone, hc.entry, hc.nil, Bool.and_true]

theorem checked_one (n : String) (h : isTypeName n = true) (d : Dbg) : f (.tuple n (lone d)) = f d := by
  rw [hc.tuple n _ h rfl, checked_lone (f := f)]

theorem checked_loc (l : Loc) (d : Dbg) : f (dbgLoc l d) = f d := by
  rw [dbgLoc, hc.struct _ _ (by decide +kernel) rfl, hc.field _ _ _ (by decide +kernel), hc.field _ _ _ (by decide +kernel),
    hc.field _ _ _ (by decide +kernel), hc.num, hc.num, hc.nil]
  simp

theorem checked_s1 (n : String) (h : isTypeName n = true) (l : String) (hl : isFieldName l = true) (d : Dbg) :
    f (.struct n (.cons l d .nil)) = f d := by
  rw [hc.struct _ _ h rfl, hc.field _ _ _ hl, hc.nil, Bool.and_true]

theorem checked_s2 (n : String) (h : isTypeName n = true) (l : String) (hl : isFieldName l = true) (d : Dbg)
    (l' : String) (hl' : isFieldName l' = true) (d' : Dbg) :
    f (.struct n (.cons l d (.cons l' d' .nil))) = (f d && f d') := by
  rw [hc.struct _ _ h rfl, hc.field _ _ _ hl, hc.field _ _ _ hl', hc.nil, Bool.and_true]

theorem checked_s3 (n : String) (h : isTypeName n = true) (l : String) (hl : isFieldName l = true) (d : Dbg)
    (l' : String) (hl' : isFieldName l' = true) (d' : Dbg) (l2 : String) (hl2 : isFieldName l2 = true) (d2 : Dbg) :
    f (.struct n (.cons l d (.cons l' d' (.cons l2 d2 .nil)))) = (f d && f d' && f d2) := by
  rw [hc.struct _ _ h rfl, hc.field _ _ _ hl, hc.field _ _ _ hl', hc.field _ _ _ hl2, hc.nil, Bool.and_true, Bool.and_assoc]

theorem checked_s4 (n : String) (h : isTypeName n = true) (l : String) (hl : isFieldName l = true) (d : Dbg)
    (l' : String) (hl' : isFieldName l' = true) (d' : Dbg) (l2 : String) (hl2 : isFieldName l2 = true) (d2 : Dbg)
    (l3 : String) (hl3 : isFieldName l3 = true) (d3 : Dbg) :
    f (.struct n (.cons l d (.cons l' d' (.cons l2 d2 (.cons l3 d3 .nil))))) = (f d && f d' && f d2 && f d3) := by
  rw [hc.struct _ _ h rfl, hc.field _ _ _ hl, hc.field _ _ _ hl', hc.field _ _ _ hl2, hc.field _ _ _ hl3, hc.nil, Bool.and_true,
    Bool.and_assoc, Bool.and_assoc]

theorem checked_op (op : Op) : f (.word (dbgOp op)) = true := hc.word _ (by cases op <;> decide +kernel)
theorem checked_bool (b : Bool) : f (dbgBool b) = true := hc.word _ (by cases b <;> decide +kernel)
theorem checked_declKind (k : DeclKind) : f (dbgDeclKind k) = true := by cases k <;> exact hc.word _ (by decide +kernel)
theorem checked_methodKind (k : MethodKind) : f (dbgMethodKind k) = true := by cases k <;> exact hc.word _ (by decide +kernel)

theorem checked_ident (i : Ident) : f (dbgIdent i) = f (.str i.name) := checked_loc ..

theorem checked_label (o : Option Ident) : f (dbgOption (o.map dbgIdent)) = o.all fun i => f (.str i.name) := by
  cases o with
  | none => exact hc.word _ (by decide +kernel)
  | some i => exact (checked_one _ (by decide +kernel) _).trans (checked_ident _)

theorem checked_name (n : Name) (h : ∀ t, (∃ l, n = .optional (some ⟨l, t⟩) ∨ n = .mandatory ⟨l, t⟩) → f (.str t) = true) :
    f (dbgName n) = true := by
  cases n with
  | empty => exact hc.word _ (by decide +kernel)
  | optional o =>
    rw [dbgName, checked_one (f := f) _ (by decide +kernel), checked_label (f := f)]
    cases o with
    | none => rfl
    | some i => exact h _ ⟨i.loc, .inl rfl⟩
  | mandatory i =>
    rw [dbgName, checked_one (f := f) _ (by decide +kernel), checked_ident (f := f)]
    exact h _ ⟨i.loc, .inr rfl⟩

theorem checked_idents : ∀ is : List Ident, g false (dbgIdents is) = is.all fun i => f (.str i.name)
  | [] => hc.nil _
  | i :: is => by rw [dbgIdents, hc.entry, checked_ident (f := f), checked_idents is]; rfl

/-- Entries of a list. -/
theorem checked_entries {α : Type} (d : α → Dbg) (ds : List α → DbgItems) (h0 : ds [] = .nil)
    (h1 : ∀ x xs, ds (x :: xs) = .cons "" (d x) (ds xs)) : ∀ xs, g false (ds xs) = xs.all fun x => f (d x)
  | [] => by rw [h0, hc.nil]; rfl
  | x :: xs => by rw [h1, hc.entry, checked_entries d ds h0 h1 xs]; rfl

theorem checked_list {α : Type} (d : α → Dbg) (ds : List α → DbgItems) (h0 : ds [] = .nil)
    (h1 : ∀ x xs, ds (x :: xs) = .cons "" (d x) (ds xs)) (xs : List α) : f (.list (ds xs)) = xs.all fun x => f (d x) := by
  rw [hc.list, checked_entries (f := f) d ds h0 h1]

theorem checked_exprs (xs : List Expr) : f (.list (dbgExprs xs)) = xs.all fun x => f (dbgExpr x) :=
  checked_list _ _ (by rw [dbgExprs]) (fun _ _ => by rw [dbgExprs]) xs
theorem checked_props (xs : List Property) : f (.list (dbgProps xs)) = xs.all fun x => f (dbgProp x) :=
  checked_list _ _ (by rw [dbgProps]) (fun _ _ => by rw [dbgProps]) xs
theorem checked_pats (xs : List Pattern) : f (.list (dbgPats xs)) = xs.all fun x => f (dbgPat x) :=
  checked_list _ _ (by rw [dbgPats]) (fun _ _ => by rw [dbgPats]) xs
theorem checked_members (xs : List ClassMember) : f (.list (dbgMembers xs)) = xs.all fun x => f (dbgMember x) :=
  checked_list _ _ (by rw [dbgMembers]) (fun _ _ => by rw [dbgMembers]) xs
theorem checked_stmts (xs : List Stmt) : f (.list (dbgStmts xs)) = xs.all fun x => f (dbgStmt x) :=
  checked_list _ _ (by rw [dbgStmts]) (fun _ _ => by rw [dbgStmts]) xs
theorem checked_declarators (xs : List Declarator) : f (.list (dbgDeclarators xs)) = xs.all fun x => f (dbgDeclarator x) :=
  checked_list _ _ (by rw [dbgDeclarators]) (fun _ _ => by rw [dbgDeclarators]) xs
theorem checked_cases (xs : List SwitchCase) : f (.list (dbgCases xs)) = xs.all fun x => f (dbgCase x) :=
  checked_list _ _ (by rw [dbgCases]) (fun _ _ => by rw [dbgCases]) xs
theorem checked_specs (xs : List ImportSpec) : f (.list (dbgSpecs xs)) = xs.all fun x => f (dbgSpec x) :=
  checked_list _ _ (by rw [dbgSpecs]) (fun _ _ => by rw [dbgSpecs]) xs
theorem checked_idents' (xs : List Ident) : f (.list (dbgIdents xs)) = xs.all fun x => f (.str x.name) := by
  rw [hc.list, checked_idents (f := f)]

theorem checked_exprO (o : Option Expr) : f (dbgExprO o) = o.all fun x => f (dbgExpr x) := by
  cases o with
  | none => rw [dbgExprO]; exact hc.word _ (by decide +kernel)
  | some x => rw [dbgExprO]; exact checked_one _ (by decide +kernel) _
theorem checked_stmtO (o : Option Stmt) : f (dbgStmtO o) = o.all fun x => f (dbgStmt x) := by
  cases o with
  | none => rw [dbgStmtO]; exact hc.word _ (by decide +kernel)
  | some x => rw [dbgStmtO]; exact checked_one _ (by decide +kernel) _
theorem checked_blockO (o : Option Block) : f (dbgBlockO o) = o.all fun x => f (dbgBlock x) := by
  cases o with
  | none => rw [dbgBlockO]; exact hc.word _ (by decide +kernel)
  | some x => rw [dbgBlockO]; exact checked_one _ (by decide +kernel) _
theorem checked_initO (o : Option ForInit) : f (dbgInitO o) = o.all fun x => f (dbgInit x) := by
  cases o with
  | none => rw [dbgInitO]; exact hc.word _ (by decide +kernel)
  | some x => rw [dbgInitO]; exact checked_one _ (by decide +kernel) _
theorem checked_catchO (o : Option Catch) : f (dbgCatchO o) = o.all fun x => f (dbgCatch x) := by
  cases o with
  | none => rw [dbgCatchO]; exact hc.word _ (by decide +kernel)
  | some x => rw [dbgCatchO]; exact checked_one _ (by decide +kernel) _

set_option maxHeartbeats 4000000 in
/-- A node passes if its own texts and its children pass. -/
theorem checked_node (n : Node) (ht : ∀ t ∈ n.texts, f (.str t) = true) (hk : ∀ c ∈ n.children, f (dbgNode c) = true) :
    f (dbgNode n) = true := by
  rcases n with e | k | p | p | fn | c' | m | b | s | d | i | c' | c' | cs
  all_goals first | cases e | cases k | cases p | cases fn | cases c' | cases m | cases b | cases s | cases d | cases i | skip
  all_goals try (rename Literal => v; cases v)
  all_goals try (rename Option Ident => o; cases o)
  all_goals try (rename Name => nm; rcases nm with _ | (_ | nm) | nm)
  all_goals try (rename Block => bl; cases bl)
  all_goals simp (disch := decide +kernel) only [dbgNode, dbgExpr, dbgKey, dbgProp, dbgPat, dbgFunc, dbgClass, dbgMember, dbgBlock, dbgStmt,
    dbgDeclarator, dbgInit, dbgCase, dbgCatch, dbgBody, dbgDeclaration, dbgTemplate, dbgLiteral,
    checked_loc, checked_one, checked_s1, checked_s2, checked_s3, checked_s4, checked_op, checked_bool, checked_declKind,
    checked_methodKind, checked_ident, checked_label, checked_exprs, checked_props, checked_pats, checked_members, checked_stmts,
    checked_declarators, checked_cases, checked_specs, checked_idents', checked_exprO, checked_stmtO, checked_blockO,
    checked_initO, checked_catchO, hc.word]
  all_goals simp only [Node.texts, Node.children, List.forall_mem_append, List.forall_mem_cons, List.forall_mem_map] at ht hk
  all_goals simp (disch := decide +kernel) [dbgNode, dbgBlock, dbgBody, checked_loc, checked_stmts, checked_cases, checked_s1, dbgName,
    checked_one, dbgOption, checked_ident, hc.word, option_all_iff] at ht hk ⊢
  all_goals try (simp_all; done)
  · refine ⟨fun x hx => ?_, ht.1⟩
    have := fun t ht' => ht.2 t x hx ht'
    cases x <;> simp (disch := decide +kernel) [dbgSpec, checked_loc, checked_one, checked_s1, checked_s2, checked_ident] at this ⊢ <;>
      simp_all
theorem checked_tree (n : Node) : (∀ m ∈ n.all, ∀ t ∈ m.texts, f (.str t) = true) → f (dbgNode n) = true :=
  Node.ind (P := fun n => (∀ m ∈ n.all, ∀ t ∈ m.texts, f (.str t) = true) → f (dbgNode n) = true) (fun n ih h => by
    rw [Node.all_eq] at h
    refine checked_node n (h n (by simp)) fun c hc => ih c hc fun m hm => h m ?_
    simp only [List.mem_cons, List.mem_flatMap]
    exact .inr ⟨c, hc, hm⟩) n

theorem checked_body (m : List Stmt) (h : ∀ n ∈ moduleNodes m, ∀ t ∈ n.texts, f (.str t) = true) : f (.list (dbgStmts m)) = true := by
  rw [checked_stmts (f := f), List.all_eq_true]
  intro s hs
  refine checked_tree (.stmt s) fun n hn => h n ?_
  simp only [moduleNodes, List.mem_flatMap]
  exact ⟨s, hs, hn⟩

end

/-! ### Strings -/

theorem charsGo_utf8 : ∀ (cs : List Char) (n : Nat), (utf8 cs).length ≤ n → charsGo n (utf8 cs) = cs
  | [], n, _ => by cases n <;> rfl
  | c :: cs, n, h => by
    rw [utf8_cons, List.length_append] at h
    have hp : 0 < (String.utf8EncodeChar c).length := by
      obtain ⟨b, r, e, -⟩ := encode_shape c
      rw [e]
      simp
    cases n with
    | zero => omega
    | succ n =>
      have hl : Lex.lenUtf8 c.val.toNat = (String.utf8EncodeChar c).length := by
        unfold String.utf8EncodeChar Lex.lenUtf8
        simp only
        generalize c.val.toNat = v
        split <;> split <;> (try split) <;> (try split) <;> (try split) <;> (try split) <;> first | rfl | (exfalso; omega)
      have hk : Char.ofNat c.val.toNat = c := Char.ofNat_toNat c
      rw [utf8_cons, charsGo, Lex.decodeFirst_encode]
      simp only [hl, List.drop_left]
      rw [charsGo_utf8 cs n (by omega), hk]

theorem chars_utf8 (cs : List Char) : chars (utf8 cs) = cs := charsGo_utf8 _ _ (Nat.le_refl _)

theorem sound_str (s : Bytes) : (Dbg.str s).sound = true ↔ Utf8 s := by
  simp only [Dbg.sound, decide_eq_true_eq]
  constructor
  · exact fun h => ⟨_, h⟩
  · rintro ⟨cs, rfl⟩
    rw [chars_utf8]
    rfl

end Ratel
