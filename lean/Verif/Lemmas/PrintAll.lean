import Verif.Lemmas.PrintImport
/-! Reading back generated code: all nodes, and modules. -/
namespace Ratel
open Spec

set_option linter.unusedSectionVars false
variable [Unicode] {min : Bool} {X g r : Bytes} {j : List Item} {l : Loc}

theorem Spec.Node.Forall.self {P : Node → Prop} {n : Node} (h : n.Forall P) : P n := (Node.forall_iff.mp h).1
theorem Spec.Node.Forall.child {P : Node → Prop} {n c : Node} (h : n.Forall P) (hc : c ∈ n.children) : c.Forall P :=
  (Node.forall_iff.mp h).2 c hc

/-- An expression that is not a sequence is not continued by a comma. -/
theorem reach_pos : ∀ {e : Expr}, (Node.expr e).Forall (Printable min) → 1 ≤ strength e → 1 ≤ reach e
  | .binary l op a b, h, _ => by
    have hb : 1 ≤ strength b → 1 ≤ reach b := reach_pos (h.child (by simp [Node.children]))
    obtain ⟨_, hs⟩ := h.self
    rw [reach]
    split
    · rename_i p hp
      obtain ⟨-, hs⟩ := hs p hp
      split
      · omega
      · rename_i hn
        rcases hs with hs | hs
        · exact absurd hs hn
        · have := hb (by omega)
          omega
    · omega
  | .prefix l op e, h, _ => by
    have he : 1 ≤ strength e → 1 ≤ reach e := reach_pos (h.child (by simp [Node.children]))
    obtain ⟨_, hs⟩ := h.self
    have : 16 ≤ strength e := hs.1
    rw [reach]
    have := he (by omega)
    omega
  | .seq .., _, h => by simp [strength] at h
  | .cond .., _, _ => by simp [reach]
  | .arrowE .., _, _ => by simp [reach]
  | .void .., _, _ | .this .., _, _ | .ident .., _, _ | .lit .., _, _ | .array .., _, _ | .member .., _, _ | .cmember .., _, _
  | .metaProp .., _, _ | .call .., _, _ | .postfix .., _, _ | .template .., _, _ | .tagged .., _, _ | .spread .., _, _
  | .arrowB .., _, _ | .object .., _, _ | .function .., _, _ | .class .., _, _ => by simp [reach]

/-- The code of every printable node can be read back. -/
theorem reads_back (n : Node) : n.Forall (Printable min) → ReadsBack min n := by
  refine Node.ind (P := fun n => n.Forall (Printable min) → ReadsBack min n) ?_ n
  intro n ih h
  have ih : ∀ c ∈ n.children, ReadsBack min c := fun c hc => ih c hc (h.child hc)
  obtain ⟨hw, hs⟩ := h.self
  have wf : ∀ c ∈ n.children, WellFormed c := fun c hc => (h.child hc).self.1
  rcases n with e | k | p | p | f | c | m | b | s | d | i | c | c | cs
  · cases e with
    | void => trivial
    | this => exact reads_this
    | ident => exact reads_ident hw hs
    | lit => exact reads_lit hw hs
    | seq => exact reads_seq (fun e he => ih _ (by simp [Node.children, he])) hw hs
    | array => exact reads_array (fun e he => ih _ (by simp [Node.children, he])) hw hs
    | member => exact reads_member (ih _ (by simp [Node.children])) hw hs
    | cmember => exact reads_cmember (ih _ (by simp [Node.children])) (ih _ (by simp [Node.children])) hw
    | metaProp => exact reads_metaProp hw
    | call => exact reads_call (ih _ (by simp [Node.children])) (fun e he => ih _ (by simp [Node.children, he])) hw hs
    | binary =>
      exact reads_binary (ih _ (by simp [Node.children])) (ih _ (by simp [Node.children])) hw hs
        (reach_pos (h.child (by simp [Node.children])))
    | «prefix» => exact reads_prefix (ih _ (by simp [Node.children])) hw hs
    | «postfix» => exact reads_postfix (ih _ (by simp [Node.children])) hw
    | cond => exact reads_cond (ih _ (by simp [Node.children])) (ih _ (by simp [Node.children])) (ih _ (by simp [Node.children])) hw hs
    | template => exact reads_template (fun e he => ih _ (by simp [Node.children, he])) hw
    | tagged => exact reads_tagged (ih _ (by simp [Node.children])) (fun e he => ih _ (by simp [Node.children, he])) hw hs
    | spread => exact reads_spread (ih _ (by simp [Node.children])) hw hs
    | arrowE =>
      exact reads_arrowE (fun e he => ih _ (by simp [Node.children, he])) (fun e he => wf _ (by simp [Node.children, he]))
        (ih _ (by simp [Node.children])) hw hs
    | arrowB l ps b =>
      cases b
      exact reads_arrowB (fun e he => ih _ (by simp [Node.children, he])) (fun e he => wf _ (by simp [Node.children, he]))
        (reads_block fun e he => ih _ (by simp [Node.children, he])) hw
    | object => exact reads_object (fun e he => ih (.prop e) (by simp [Node.children, he]))
    | function l f => exact reads_function (ih (.func f) (by simp [Node.children])) hw
    | «class» l c => exact reads_class (ih (.cls c) (by simp [Node.children])) hw
  · cases k with
    | computed => exact fun hp => (ih _ (by simp [Node.children])).expr hp
    | literal => trivial
    | binary => trivial
  · cases p with
    | shorthand => exact reads_prop_shorthand hw
    | literal => exact reads_prop_literal (ih _ (by simp [Node.children])) (ih _ (by simp [Node.children])) hw hs
    | method l k l' f => exact reads_prop_method (ih _ (by simp [Node.children])) (ih (.func f) (by simp [Node.children])) hw
    | spread => exact reads_prop_spread (ih _ (by simp [Node.children])) hw hs
  · have pl : plain p = true → ReadsPlain min p := by
      intro hp
      cases p with
      | ident => exact reads_plain_ident hw
      | object => exact reads_plain_object (fun e he => ih (.prop e) (by simp [Node.children, he]))
      | array => exact reads_plain_array (fun e he => ih _ (by simp [Node.children, he])) hw
      | _ => cases hp
    refine ⟨pl, fun h1 h2 => ?_⟩
    cases hp : plain p with
    | true => exact reads_param_plain hp hw (pl hp)
    | false =>
      cases p with
      | assign l p e =>
        exact reads_param_assign ((ih (.pat p) (by simp [Node.children])).1 hw.1) (ih _ (by simp [Node.children])) hw
          (wf _ (by simp [Node.children])) hs
      | void => cases h1
      | rest => cases h2
      | _ => cases hp
  · obtain ⟨n, gen, ps, b⟩ := f
    cases b
    exact reads_func (fun e he => ih _ (by simp [Node.children, he])) (fun e he => wf _ (by simp [Node.children, he]))
      (reads_block fun e he => ih _ (by simp [Node.children, he])) hw
  · obtain ⟨n, sup, l', ms⟩ := c
    exact reads_cls (fun e he => ih _ (by simp [Node.children]; exact he)) (fun m hm => ih (.member m) (by simp [Node.children, hm])) hw hs
  · cases m with
    | error => exact hw.elim
    | method l s k kd l' f => exact reads_member_method (ih _ (by simp [Node.children])) (ih (.func f) (by simp [Node.children])) hw
    | literal => exact reads_member_literal (ih _ (by simp [Node.children])) (ih _ (by simp [Node.children])) hw hs
  · cases b
    exact reads_block fun e he => ih _ (by simp [Node.children, he])
  · intro he
    cases s with
    | empty => cases he
    | debugger => exact hs.elim
    | expr => exact reads_stmt_expr (ih _ (by simp [Node.children])) hw hs
    | decl => exact reads_stmt_decl (fun d hd => ih (.declarator d) (by simp [Node.children, hd])) hw
    | ret => exact reads_stmt_ret (fun e he => ih _ (by simp [Node.children]; exact he)) hw
    | brk => exact reads_stmt_brk hw
    | cont => exact reads_stmt_cont hw
    | throw => exact reads_stmt_throw (ih _ (by simp [Node.children])) hw
    | ifS =>
      exact reads_stmt_if (ih _ (by simp [Node.children])) (ih _ (by simp [Node.children]))
        (fun e he => ih _ (by simp [Node.children]; exact .inr he)) hw hs
    | whileS => exact reads_stmt_while (ih _ (by simp [Node.children])) (ih _ (by simp [Node.children])) hw hs
    | doS => exact reads_stmt_do (ih _ (by simp [Node.children])) (ih _ (by simp [Node.children])) hw hs
    | forS =>
      exact reads_stmt_for (fun e he => ih _ (by simp [Node.children]; exact he))
        (fun e he => ih _ (by simp [Node.children]; exact .inl he)) (fun e he => ih _ (by simp [Node.children]; exact .inr he))
        (ih _ (by simp [Node.children])) hw hs
    | forIn => exact reads_stmt_forIn (ih _ (by simp [Node.children])) (ih _ (by simp [Node.children])) (ih _ (by simp [Node.children])) hw hs
    | forOf => exact reads_stmt_forOf (ih _ (by simp [Node.children])) (ih _ (by simp [Node.children])) (ih _ (by simp [Node.children])) hw hs
    | tryS l b h f => exact reads_stmt_try (ih (.block b) (by simp [Node.children])) (fun c hc => ih (.catch c) (by simp [Node.children]; exact hc)) hw hs
    | block => exact reads_stmt_block (fun e he => ih _ (by simp [Node.children, he]))
    | labeled => exact reads_stmt_labeled (ih _ (by simp [Node.children])) hw hs
    | function l f => exact reads_stmt_function (ih (.func f) (by simp [Node.children])) hw
    | «class» l c => exact reads_stmt_class (ih (.cls c) (by simp [Node.children])) hw
    | switch l d l' cs => exact reads_stmt_switch (ih _ (by simp [Node.children])) (ih (.switchBody cs) (by simp [Node.children])) hw
    | «import» => exact reads_stmt_import hw hs
  · obtain ⟨l, p, i⟩ := d
    exact reads_declarator (ih _ (by simp [Node.children])) (fun e he => ih _ (by simp [Node.children]; exact he)) hw hs
  · cases i with
    | decl => exact reads_forDecl (fun d hd => ih (.declarator d) (by simp [Node.children, hd])) hw
    | expr => exact (ih _ (by simp [Node.children])).expr hw
  · obtain ⟨l, t, ss⟩ := c
    exact reads_case (fun e he => ih _ (by simp [Node.children]; exact he)) (fun e he => ih _ (by simp [Node.children, he])) hw
  · obtain ⟨l, p, b⟩ := c
    exact reads_catch (ih _ (by simp [Node.children])) (ih (.block b) (by simp [Node.children])) hw
  · exact reads_switchBody (fun c hc => ih (.case c) (by simp [Node.children, hc]))

theorem Lay.join {b : List Piece} : ∀ {a : List Piece} {X Y : Bytes}, Lay min a X → Lay min b Y → Lay min (a ++ b) (X ++ Y)
  | [], _, _, rfl, h => h
  | .text t :: a, _, _, ⟨Z, rfl, h⟩, h' => ⟨_, by simp, h.join h'⟩
  | .pretty c :: a, _, _, ⟨Z, rfl, h⟩, h' => ⟨_, by simp, h.join h'⟩
  | .newLine :: a, _, _, ⟨g, Z, hg, rfl, h⟩, h' => ⟨g, _, hg, by simp, h.join h'⟩
  | .indent :: a, _, _, h, h' => Lay.join (a := a) h h'
  | .dedent :: a, _, _, h, h' => Lay.join (a := a) h h'

/-- Both generators write the statements one after the other. -/
theorem lay_module {m : List Stmt} (h : codegen m min = .ok X) : Lay min (writeLines (m.map codeStmt)) X := by
  have flat : ∀ (xs : List (List Piece)) X, Lay min xs.flatten X → Lay min (writeLines xs) X := by
    intro xs
    induction xs with
    | nil => exact fun _ h => h
    | cons x xs ih =>
      intro X hX
      obtain ⟨A, B, rfl, hA, hB⟩ := Lay.append (a := x) (b := xs.flatten) hX
      have : Lay min (.newLine :: (x ++ writeLines xs)) (A ++ B) := ⟨[], _, .nil, rfl, hA.join (ih B hB)⟩
      exact this
  rcases lay_codegen h with ⟨-, h⟩ | ⟨-, h⟩
  · rw [codeModuleMin, codeStmts_eq] at h
    exact flat _ _ h
  · rw [codeModulePretty, codeStmts_eq] at h
    cases m with
    | nil => exact h
    | cons s m =>
      have : Lay min (.newLine :: (codeStmt s ++ writeLines (m.map codeStmt))) X := ⟨[], _, .nil, rfl, h⟩
      exact this

/-- The code of a printable module spells the module. -/
theorem reads_module {m : List Stmt} (hm : ∀ s ∈ m, (Node.stmt s).Forall (Printable min)) (h : codegen m min = .ok X) :
    ∃ i, Spells X i ∧ G i (.program (rereadStmts m)) [] := by
  obtain ⟨i, j, s1, t1, rfl, -⟩ := reads_stmts (ss := m) (X := X) (g := []) (r := []) (ph := .program) (Q := (· = [])) (E := fun _ => True)
    (fun s hs => reads_back _ (hm s hs)) (lay_module h) .nil
    (fun g hg => ⟨[], [], (.eof (r := []) (gap_blank hg) rfl), .programEnd, rfl, trivial, by nofun, by nofun⟩)
    (fun _ _ _ _ _ h h' => .programMore h h')
  exact ⟨i, by simpa using s1, t1⟩

end Ratel
