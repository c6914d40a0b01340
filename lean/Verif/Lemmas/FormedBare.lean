import Verif.Lemmas.FormedG
import Verif.Lemmas.CompleteLists
/-! A tree is well formed if the tree without positions is. -/
namespace Ratel
open Spec

set_option linter.unusedSectionVars false

def bareNode : Node → Node
  | .expr e => .expr (bareExpr e)
  | .key k => .key (bareKey k)
  | .prop p => .prop (bareProp p)
  | .pat p => .pat (barePat p)
  | .func f => .func (bareFunc f)
  | .cls c => .cls (bareClass c)
  | .member m => .member (bareMember m)
  | .block b => .block (bareBlock b)
  | .stmt s => .stmt (bareStmt s)
  | .declarator d => .declarator (bareDeclarator d)
  | .forInit i => .forInit (bareInit i)
  | .case c => .case (bareCase c)
  | .catch c => .catch (bareCatch c)
  | .switchBody cs => .switchBody (bareCases cs)

section
variable [Unicode]

theorem bareNode_children (n : Node) : (bareNode n).children = n.children.map bareNode := by
  rcases n with e | k | p | p | f | c | m | b | s | d | i | c | c | cs
  · cases e with
    | arrowB l ps b => cases b; simp [bareNode, bareExpr, bareBlock, Node.children, barePats_map, bareStmts_map, Function.comp_def]
    | _ => simp [bareNode, bareExpr, Node.children, bareExprs_map, bareProps_map, barePats_map, Function.comp_def]
  · cases k <;> simp [bareNode, bareKey, Node.children]
  · cases p <;> simp [bareNode, bareProp, Node.children]
  · cases p <;> simp [bareNode, barePat, Node.children, bareProps_map, barePats_map, Function.comp_def]
  · obtain ⟨n, g, ps, ⟨l, b⟩⟩ := f
    simp [bareNode, bareFunc, bareBlock, Node.children, barePats_map, bareStmts_map, Function.comp_def]
  · obtain ⟨n, s, l, ms⟩ := c
    cases s <;> simp [bareNode, bareClass, Node.children, bareMembers_map, Function.comp_def]
  · cases m <;> simp [bareNode, bareMember, Node.children]
  · cases b; simp [bareNode, bareBlock, Node.children, bareStmts_map, Function.comp_def]
  · cases s with
    | ret l v => cases v <;> simp [bareNode, bareStmt, Node.children]
    | ifS l t c a => cases a <;> simp [bareNode, bareStmt, Node.children]
    | forS l i t u b => cases i <;> cases t <;> cases u <;> simp [bareNode, bareStmt, Node.children]
    | tryS l b h f => cases h <;> cases f <;> simp [bareNode, bareStmt, Node.children]
    | _ => simp [bareNode, bareStmt, Node.children, bareDeclarators_map, bareStmts_map, Function.comp_def]
  · obtain ⟨l, p, i⟩ := d
    cases i <;> simp [bareNode, bareDeclarator, Node.children]
  · cases i <;> simp [bareNode, bareInit, Node.children, bareDeclarators_map, Function.comp_def]
  · obtain ⟨l, t, b⟩ := c
    cases t <;> simp [bareNode, bareCase, Node.children, bareStmts_map, Function.comp_def]
  · obtain ⟨l, p, b⟩ := c
    simp [bareNode, bareCatch, Node.children]
  · simp [bareNode, Node.children, bareCases_map, Function.comp_def]

theorem bare_proper (e : Expr) : proper (bareExpr e) = proper e := by cases e <;> simp [bareExpr, proper]
theorem bare_isVoid (e : Expr) : isVoid (bareExpr e) = isVoid e := by cases e <;> simp [bareExpr, isVoid]
theorem bare_target (e : Expr) : target (bareExpr e) = target e := by cases e <;> simp [bareExpr, target]
theorem bare_plain (p : Pattern) : plain (barePat p) = plain p := by cases p <;> simp [barePat, plain]
theorem bare_isRest (p : Pattern) : isRest (barePat p) = isRest p := by cases p <;> simp [barePat, isRest]
theorem bare_isHole (p : Pattern) : isHole (barePat p) = isHole p := by cases p <;> simp [barePat, isHole]
theorem bare_arrowParam (p : Pattern) : arrowParam (barePat p) = arrowParam p := by
  cases p with
  | assign l p e => cases p <;> simp [barePat, arrowParam]
  | _ => simp [barePat, arrowParam]
theorem bare_isIn (e : Expr) : isIn (bareExpr e) = isIn e := by
  cases e with
  | binary l op a b => cases op <;> simp [bareExpr, isIn]
  | _ => simp [bareExpr, isIn]
theorem bare_endsInIf : (s : Stmt) → endsInIf (bareStmt s) = endsInIf s
  | .ifS _ _ _ none => by simp only [bareStmt, endsInIf]
  | .ifS _ _ _ (some s) => by simp only [bareStmt, endsInIf, bare_endsInIf s]
  | .whileS _ _ s => by simp only [bareStmt, endsInIf, bare_endsInIf s]
  | .forS _ i t u s => by cases i <;> cases t <;> cases u <;> simp only [bareStmt, endsInIf, bare_endsInIf s]
  | .forIn _ _ _ s => by simp only [bareStmt, endsInIf, bare_endsInIf s]
  | .forOf _ _ _ s => by simp only [bareStmt, endsInIf, bare_endsInIf s]
  | .labeled _ _ s => by simp only [bareStmt, endsInIf, bare_endsInIf s]
  | .empty _ | .debugger _ | .expr .. | .decl .. | .ret .. | .brk .. | .cont .. | .throw .. | .doS .. | .tryS .. | .block .. | .function ..
  | .class .. | .switch .. | .import .. => by simp only [bareStmt, endsInIf]
theorem bare_hasInit (d : Declarator) : hasInit (bareDeclarator d) = hasInit d := by
  obtain ⟨l, p, i⟩ := d
  cases i <;> simp [bareDeclarator, hasInit]
theorem bare_isOptional (n : Name) : Name.isOptional (bareName n) = Name.isOptional n := by cases n <;> rfl
theorem bare_isMandatory (n : Name) : Name.isMandatory (bareName n) = Name.isMandatory n := by cases n <;> rfl
theorem bare_funcName (f : Func) : funcName (bareFunc f) = bareName (funcName f) := by cases f; simp [bareFunc, funcName]
theorem bare_className (c : Class) : className (bareClass c) = bareName (className c) := by cases c; simp [bareClass, className]
theorem bare_empty {n : Name} : bareName n = .empty ↔ n = .empty := by cases n <;> simp [bareName]
theorem bare_isNamed (s : ImportSpec) : Spec.isNamed (bareSpec s) = Spec.isNamed s := by cases s <;> rfl

theorem bare_nameText (n : Name) : NameText (bareName n) ↔ NameText n := by
  cases n with
  | optional n => cases n <;> simp [bareName, NameText, bareIdent]
  | _ => simp [bareName, NameText, bareIdent]
theorem bare_objectKey (k : PropKey) : ObjectKey (bareKey k) ↔ ObjectKey k := by cases k <;> simp [bareKey, ObjectKey, bare_proper]
theorem bare_memberKey (k : PropKey) : MemberKey (bareKey k) ↔ MemberKey k := by cases k <;> simp [bareKey, MemberKey, bare_proper]
theorem bare_literal {k : PropKey} {l : Loc} {v : Bytes} : bareKey k = .literal l v ↔ l = z ∧ ∃ l', k = .literal l' v := by
  cases k <;> simp [bareKey, eq_comm]
theorem bare_methodKind (s : Bool) (k : PropKey) (kd : MethodKind) (h : MethodKindOk s (bareKey k) kd) : MethodKindOk s k kd := by
  cases kd with
  | Get | Set =>
    obtain ⟨l, v, h1, h2⟩ := h
    obtain ⟨-, l', rfl⟩ := bare_literal.1 h1
    exact ⟨_, _, rfl, h2⟩
  | Constructor =>
    obtain ⟨h1, l, h2⟩ := h
    obtain ⟨-, l', rfl⟩ := bare_literal.1 h2
    exact ⟨h1, _, rfl⟩
  | Method =>
    rintro l v rfl hs
    exact h z v (by simp [bareKey]) hs
theorem bare_specText (s : ImportSpec) : SpecText (bareSpec s) ↔ SpecText s := by cases s <;> simp [bareSpec, SpecText, bareIdent]

theorem bare_importRest {ss : List ImportSpec} (h : ImportRest (ss.map bareSpec)) : ImportRest ss := by
  rcases h with ⟨h1, h2⟩ | ⟨l, n, h⟩
  · refine .inl ⟨by simpa using h1, fun s hs => ?_⟩
    rw [← bare_isNamed]
    exact h2 _ (List.mem_map_of_mem hs)
  · match ss, h with
    | [.namespace l n], _ => exact .inr ⟨_, _, rfl⟩

theorem bare_importShape {ss : List ImportSpec} (h : ImportShape (ss.map bareSpec)) : ImportShape ss := by
  generalize he : ss.map bareSpec = ss' at h
  cases h with
  | none => rw [List.map_eq_nil_iff.1 he]; exact .none
  | one =>
    match ss, he with
    | [.default l n], _ => exact .one
  | rest h => subst he; exact .rest (bare_importRest h)
  | both h =>
    match ss, he with
    | .default l n :: ss, he =>
      simp only [List.map_cons, List.cons.injEq] at he
      obtain ⟨-, rfl⟩ := he
      exact .both (bare_importRest h)

theorem bare_wellFormed {n : Node} (h : WellFormed (bareNode n)) : WellFormed n := by
  rcases n with e | k | p | p | f | c | m | b | s | d | i | c | c | cs
  · cases e <;> simp only [bareNode, bareExpr, WellFormed, bareExprs_map, barePats_map, List.forall_mem_map, List.length_map, bare_proper, bare_isVoid,
      bare_target, bare_arrowParam, bare_funcName, bare_className, bare_isOptional, bareIdent] at h ⊢ <;> try exact h
    · intro l hl
      subst hl
      exact h z (by simp [bareExpr])
  · trivial
  · cases p <;> simp only [bareNode, bareProp, WellFormed, bare_proper, bare_objectKey, bare_funcName, bare_empty] at h ⊢ <;> exact h
  · cases p <;> simp only [bareNode, barePat, WellFormed, barePats_map, List.forall_mem_map, bare_proper, bare_plain, bare_isRest, bareIdent] at h ⊢ <;> try exact h
    · refine ⟨h.1, fun l hl => ?_⟩
      subst hl
      exact h.2 z (by simp [barePat])
  · obtain ⟨n, g, ps, ⟨l, b⟩⟩ := f
    simp only [bareNode, bareFunc, WellFormed, barePats_map, List.forall_mem_map, bare_nameText, bare_isHole] at h ⊢
    refine ⟨h.1, h.2.1, fun p hp => ?_⟩
    rw [← bare_isRest]
    exact h.2.2 _ (by rw [← List.map_dropLast]; exact List.mem_map_of_mem hp)
  · obtain ⟨n, s, l, ms⟩ := c
    cases s <;> simpa [bareNode, bareClass, WellFormed, bare_nameText, bare_proper] using h
  · cases m <;> simp only [bareNode, bareMember, WellFormed, bare_proper, bare_memberKey, bare_funcName, bare_empty] at h ⊢ <;> try exact h
    exact ⟨h.1, bare_methodKind _ _ _ h.2.1, h.2.2⟩
  · trivial
  · cases s with
    | ret l v => cases v <;> simpa [bareNode, bareStmt, WellFormed, bare_proper] using h
    | brk l v => cases v <;> simpa [bareNode, bareStmt, WellFormed, bareIdent] using h
    | cont l v => cases v <;> simpa [bareNode, bareStmt, WellFormed, bareIdent] using h
    | forS l i t u b =>
      have h1 : ∀ l e, i.map bareInit = some (.expr l e) → isIn e = false := by
        cases i <;> cases t <;> cases u <;> exact h.1
      have h2 : ∀ e ∈ t.map bareExpr, proper e = true := by
        cases i <;> cases t <;> cases u <;> exact h.2.1
      have h3 : ∀ e ∈ u.map bareExpr, proper e = true := by
        cases i <;> cases t <;> cases u <;> exact h.2.2
      refine ⟨?_, ?_, ?_⟩
      · intro l e hi
        rw [← bare_isIn]
        exact h1 z _ (by rw [hi]; simp [bareInit])
      · intro e he
        rw [← bare_proper]
        exact h2 _ (by rw [he]; rfl)
      · intro e he
        rw [← bare_proper]
        exact h3 _ (by rw [he]; rfl)
    | forIn l i r b =>
      simp only [bareNode, bareStmt, WellFormed, bare_proper] at h ⊢
      refine ⟨?_, h.2⟩
      rintro l k ds rfl d hd
      rw [← bare_hasInit]
      exact h.1 z k _ (by simp [bareInit]; rfl) _ (by rw [bareDeclarators_map, List.getLast?_map]; simp [hd]; exact ⟨d, hd, rfl⟩)
    | forOf l i r b =>
      simp only [bareNode, bareStmt, WellFormed, bare_proper] at h ⊢
      refine ⟨?_, h.2⟩
      rintro l e rfl
      rw [← bare_isIn]
      exact h.1 z _ (by simp [bareInit])
    | tryS l b hd f => cases hd <;> cases f <;> simp [bareNode, bareStmt, WellFormed] at h ⊢
    | «import» l ss src =>
      simp only [bareNode, bareStmt, WellFormed, List.forall_mem_map, bare_specText] at h ⊢
      exact ⟨bare_importShape h.1, h.2⟩
    | decl l k ds =>
      simp only [bareNode, bareStmt, WellFormed, bareDeclarators_map] at h ⊢
      simpa using h
    | ifS l t c a =>
      cases a with
      | none => exact ⟨by simpa only [bareNode, bareStmt, WellFormed, bare_proper] using h.1, fun h => absurd rfl h⟩
      | some a =>
        simp only [bareNode, bareStmt, WellFormed, bare_proper, bare_endsInIf] at h
        exact ⟨h.1, fun _ => h.2 nofun⟩
    | _ => simpa only [bareNode, bareStmt, WellFormed, bare_proper, bare_funcName, bare_className, bare_isMandatory] using h
  · obtain ⟨l, p, i⟩ := d
    cases i <;> simpa [bareNode, bareDeclarator, WellFormed, bare_plain, bare_proper] using h
  · cases i with
    | decl l k ds =>
      simp only [bareNode, bareInit, WellFormed, bareDeclarators_map] at h ⊢
      simpa using h
    | expr => simpa only [bareNode, bareInit, WellFormed, bare_proper] using h
  · obtain ⟨l, t, b⟩ := c
    cases t <;> simpa [bareNode, bareCase, WellFormed, bare_proper] using h
  · obtain ⟨l, p, b⟩ := c
    simpa only [bareNode, bareCatch, WellFormed, bare_plain] using h
  · trivial

theorem bare_formed (n : Node) : Formed (bareNode n) → Formed n := by
  induction n using Node.ind with
  | h n ih =>
    intro h
    obtain ⟨h1, h2⟩ := Node.forall_iff.1 h
    refine formed (bare_wellFormed h1) fun c hc => ih c hc (h2 _ ?_)
    rw [bareNode_children]
    exact List.mem_map_of_mem hc

end
end Ratel
