import Verif.Codegen
import Verif.Spec.Code
/-! Induction over the code of a tree. -/
namespace Ratel
open Spec

theorem codeExprs_eq (l : List Expr) : codeExprs l = l.map codeExpr := by
  induction l <;> simp [codeExprs, *]
theorem codeProperties_eq (l : List Property) : codeProperties l = l.map codeProperty := by
  induction l <;> simp [codeProperties, *]
theorem codePatterns_eq (l : List Pattern) : codePatterns l = l.map codePattern := by
  induction l <;> simp [codePatterns, *]
theorem codeMembers_eq (l : List ClassMember) : codeMembers l = l.map codeMember := by
  induction l <;> simp [codeMembers, *]
theorem codeStmts_eq (l : List Stmt) : codeStmts l = l.map codeStmt := by
  induction l <;> simp [codeStmts, *]
theorem codeDeclarators_eq (l : List Declarator) : codeDeclarators l = l.map codeDeclarator := by
  induction l <;> simp [codeDeclarators, *]
theorem codeCases_eq (l : List SwitchCase) : codeCases l = l.map codeCase := by
  induction l <;> simp [codeCases, *]

/-- The code of a node of any kind. -/
def codeNode : Node → List Piece
  | .expr e => codeExpr e
  | .key k => codeKey k
  | .prop p => codeProperty p
  | .pat p => codePattern p
  | .func f => codeFunc f
  | .cls c => codeClass c
  | .member m => codeMember m
  | .block b => codeBlock b
  | .stmt s => codeStmt s
  | .declarator d => codeDeclarator d
  | .forInit i => codeForInit i
  | .case c => codeCase c
  | .catch c => codeCatch c
  | .switchBody cs => writeBraces (codeCases cs)

/-- A property of lists of pieces that is preserved by concatenation and by the layout of blocks. -/
structure Layout (Q : List Piece → Prop) (T : Bytes → Prop) : Prop where
  nil : Q []
  append : ∀ {a b}, Q a → Q b → Q (a ++ b)
  text : ∀ {t}, T t → Q [.text t]
  sp : Q [pSp]
  line : Q [.newLine]
  nest : ∀ {a}, Q a → Q (.indent :: a ++ [.dedent])
  /-- texts of the code generator itself -/
  own : ∀ {t : Bytes}, (∀ b ∈ t, b ≠ #b'\n' ∧ b < 128) → T t

namespace Layout
variable {Q : List Piece → Prop} {T : Bytes → Prop} (L : Layout Q T)
include L

theorem cons {p : Piece} {l : List Piece} (h : Q [p]) (h' : Q l) : Q (p :: l) := L.append h h'

theorem cons2 {p q : Piece} {l : List Piece} (h : Q [p]) (h' : Q (q :: l)) : Q (p :: q :: l) :=
  L.append h h'

theorem txt {t : Bytes} (h : (t.all fun b => b != #b'\n' && decide (b < 128)) = true) : Q [.text t] := by
  apply L.text
  apply L.own
  intro b hb
  simpa using List.all_eq_true.mp h _ hb

theorem list {l : List (List Piece)} (h : ∀ x ∈ l, Q x) : Q (writeList l) := by
  induction l with
  | nil => exact L.nil
  | cons x l ih =>
    cases l with
    | nil => exact h x (by simp)
    | cons y l =>
      exact L.append (L.append (h x (by simp)) (L.cons (L.txt (by decide)) L.sp))
        (ih fun z hz => h z (by simp [hz]))

theorem lines {l : List (List Piece)} (h : ∀ x ∈ l, Q x) : Q (writeLines l) := by
  induction l with
  | nil => exact L.nil
  | cons x l ih =>
    exact L.cons L.line (L.append (h x (by simp)) (ih fun z hz => h z (by simp [hz])))

theorem block {l : List (List Piece)} (h : ∀ x ∈ l, Q x) : Q (writeBlock l) := by
  cases l with
  | nil => exact L.nil
  | cons x l =>
    have h1 : Q ([.newLine] ++ x ++ writeLines l) :=
      L.append (L.append L.line (h x (by simp))) (L.lines fun z hz => h z (by simp [hz]))
    have := L.append (L.nest h1) L.line
    simpa [writeBlock] using this

theorem braces {l : List (List Piece)} (h : ∀ x ∈ l, Q x) : Q (writeBraces l) :=
  L.append (L.append (L.txt (by decide)) (L.block h)) (L.txt (by decide))

theorem props {l : List (List Piece)} (h : ∀ x ∈ l, Q x) : Q (writeProps l) := by
  induction l with
  | nil => exact L.nil
  | cons x l ih =>
    exact L.append (L.append (L.cons (L.txt (by decide)) L.line) (h x (by simp)))
      (ih fun z hz => h z (by simp [hz]))

theorem object {l : List (List Piece)} (h : ∀ x ∈ l, Q x) : Q (writeObject l) := by
  cases l with
  | nil => exact L.txt (by decide)
  | cons x l =>
    have h1 : Q ([.newLine] ++ x ++ writeProps l) :=
      L.append (L.append L.line (h x (by simp))) (L.props fun z hz => h z (by simp [hz]))
    have := L.append (L.append (L.txt (t := bs!"{") (by decide)) (L.append (L.nest h1) L.line))
      (L.txt (t := bs!"}") (by decide))
    simpa [writeObject] using this

theorem expression {e : Expr} {c : List Piece} {bp : Nat} (h : Q c) : Q (writeExpression e c bp) := by
  unfold writeExpression
  split
  · exact L.cons (L.txt (by decide)) (L.append h (L.txt (by decide)))
  · exact h

theorem space (b : Bool) : Q [Ratel.space b] := by
  cases b
  · exact L.sp
  · exact L.txt (by decide)

theorem templateRest {qs : List Ident} {es : List (List Piece)} (hq : ∀ q ∈ qs, T q.name)
    (he : ∀ e ∈ es, Q e) : Q (writeTemplateRest qs es) := by
  induction qs generalizing es with
  | nil => simpa [writeTemplateRest] using L.nil
  | cons q qs ih =>
    cases es with
    | nil => simpa [writeTemplateRest] using L.nil
    | cons e es =>
      rw [writeTemplateRest]
      exact L.append (L.append (L.append (L.cons (L.txt (by decide)) L.sp) (he e (by simp)))
        (L.cons L.sp (L.cons (L.txt (by decide)) (L.text (hq q (by simp))))))
        (ih (fun q h => hq q (by simp [h])) fun e h => he e (by simp [h]))

theorem template {qs : List Ident} {es : List (List Piece)} (hq : ∀ q ∈ qs, T q.name)
    (he : ∀ e ∈ es, Q e) : Q (writeTemplate qs es) := by
  match qs with
  | [] => simpa [writeTemplate] using L.nil
  | [q] => simpa [writeTemplate] using L.text (hq q (by simp))
  | q :: q' :: qs =>
    rw [writeTemplate]
    exact L.cons (L.text (hq q (by simp))) (L.templateRest (fun q h => hq q (by simp_all)) he)

theorem importSpec {s : ImportSpec} {source : Bytes} {l : Loc} {specs : List ImportSpec}
    (h : ∀ t ∈ (Node.stmt (.import l specs source)).texts, T t) (hs : s ∈ specs) :
    Q (codeImportSpec s) := by
  have hm : ∀ t ∈ (match s with
      | .named _ i l => [i.name, l.name]
      | .default _ l => [l.name]
      | .namespace _ l => [l.name]), T t := by
    intro t ht
    apply h
    simp only [Node.texts, List.mem_cons, List.mem_flatMap]
    exact Or.inr ⟨s, hs, ht⟩
  cases s
  case named l i l' =>
    simp at hm
    simp only [codeImportSpec]
    split
    · exact L.text hm.1
    · exact L.cons (L.text hm.1) (L.cons (L.txt (by decide)) (L.text hm.2))
  case default => simp at hm; exact L.text hm
  case «namespace» => simp at hm; exact L.cons (L.txt (by decide)) (L.text hm)

theorem importDecl {source : Bytes} {l : Loc} {specs : List ImportSpec}
    (h : ∀ t ∈ (Node.stmt (.import l specs source)).texts, T t) : Q (codeImport specs source) := by
  have hsrc : T source := h source (by simp [Node.texts])
  unfold codeImport
  split
  · exact L.cons (L.txt (by decide)) (L.cons (L.txt (by decide)) (L.cons (L.text hsrc) (L.txt (by decide))))
  · refine L.append (L.append (L.append (L.txt (by decide)) (L.list ?_)) ?_)
      (L.cons (L.txt (by decide)) (L.cons (L.text hsrc) (L.txt (by decide))))
    · intro x hx
      simp only [List.mem_map, List.mem_filter] at hx
      obtain ⟨s, ⟨hs, _⟩, rfl⟩ := hx
      exact L.importSpec h hs
    · split
      · exact L.nil
      · refine L.append (L.append (L.append ?_ (L.txt (by decide))) (L.list ?_)) (L.txt (by decide))
        · split
          · exact L.nil
          · exact L.txt (by decide)
        · intro x hx
          simp only [List.mem_map, List.mem_filter] at hx
          obtain ⟨s, ⟨hs, _⟩, rfl⟩ := hx
          exact L.importSpec h hs

end Layout

theorem onlyIdent_some {ps : List Pattern} {n : Bytes} (h : onlyIdent ps = some n) :
    ∃ l, ps = [.ident l n] := by
  unfold onlyIdent at h
  split at h
  · simp at h; subst h; exact ⟨_, rfl⟩
  · simp at h

theorem code_op (o : Op) : (o.asStr.all fun b => b != #b'\n' && decide (b < 128)) = true := by cases o <;> decide

set_option maxHeartbeats 1000000 in
/-- The code of a node has every layout property. -/
theorem Layout.code {Q : List Piece → Prop} {T : Bytes → Prop} (L : Layout Q T) (n : Node)
    (he : ∀ k ∈ n.all, k.isErrorMember = false) (ht : ∀ k ∈ n.all, ∀ t ∈ k.texts, T t) :
    Q (codeNode n) := by
  induction n using Node.ind with
  | h n ih =>
    rw [Node.all_eq] at he ht
    simp only [List.mem_cons, List.mem_flatMap] at he ht
    have he1 := he n (Or.inl rfl)
    have ht1 := ht n (Or.inl rfl)
    have hk : ∀ c ∈ n.children, Q (codeNode c) := fun c hc =>
      ih c hc (fun k hk => he k (Or.inr ⟨c, hc, hk⟩)) (fun k hk => ht k (Or.inr ⟨c, hc, hk⟩))
    clear ih he ht
    rcases n with e | k | p | p | f | c' | m | b | s | d | i | c' | c' | cs
    all_goals first | cases e | cases k | cases p | cases f | cases c' | cases m | cases b | cases s | cases d | cases i | skip
    case member.error => simp [Node.isErrorMember] at he1
    all_goals try (rename_i b; have hb : Block := b; clear hb; cases b)
    case stmt.import => simp only [codeNode, codeStmt]; exact L.importDecl ht1
    case expr.arrowE ps b =>
      have hE := hk (.expr b) (by simp [Node.children])
      have hP : ∀ p ∈ ps, Q (codePattern p) := fun p hp => hk (.pat p) (by simp [Node.children, hp])
      simp only [codeNode, codeExpr, codePatterns_eq]
      refine L.append (L.append ?_ (L.cons L.sp (L.cons (L.txt (by decide)) L.sp))) hE
      split
      · rename_i h
        obtain ⟨l, rfl⟩ := onlyIdent_some h
        simpa [codePattern] using hP _ (List.mem_singleton.mpr rfl)
      · exact L.append (L.append (L.txt (by decide)) (L.list (by simpa using hP))) (L.txt (by decide))
    case expr.arrowB.mk ps _ b =>
      have hE : ∀ p ∈ b, Q (codeStmt p) := fun p hp => hk (.stmt p) (by simp [Node.children, hp])
      have hP : ∀ p ∈ ps, Q (codePattern p) := fun p hp => hk (.pat p) (by simp [Node.children, hp])
      simp only [codeNode, codeExpr, codePatterns_eq, codeBlock, codeStmts_eq]
      refine L.append (L.append ?_ (L.cons L.sp (L.cons (L.txt (by decide)) L.sp))) (L.braces (by simpa using hE))
      split
      · rename_i h
        obtain ⟨l, rfl⟩ := onlyIdent_some h
        simpa [codePattern] using hP _ (List.mem_singleton.mpr rfl)
      · exact L.append (L.append (L.txt (by decide)) (L.list (by simpa using hP))) (L.txt (by decide))
    case' cls.mk nm ex _ _ => rcases nm with _ | ⟨_ | _⟩ | _ <;> cases ex
    case' func.mk.mk nm _ _ _ _ => rcases nm with _ | ⟨_ | _⟩ | _
    case' stmt.ret e => cases e
    case' stmt.ifS e => cases e
    case' stmt.brk e => cases e
    case' stmt.cont e => cases e
    case' stmt.forS a b c _ => cases a <;> cases b <;> cases c
    case' stmt.tryS a b => cases a <;> cases b
    case' declarator.mk e => cases e
    case' case.mk e _ => cases e
    case' expr.lit v => cases v
    all_goals
      revert hk ht1
      simp only [Node.children, Node.texts, List.forall_mem_cons, List.forall_mem_append, List.forall_mem_map,
        List.not_mem_nil, false_implies, implies_true, Option.toList_some, Option.toList_none, List.map_nil,
        List.map_cons, and_imp, true_implies, and_true, true_and,
        codeNode, codeExpr, codeKey, codeProperty, codePattern, codeFunc, codeClass, codeMember,
        codeStmt, codeDeclarator, codeForInit, codeCase, codeCatch, codeExprs_eq, codeProperties_eq,
        codePatterns_eq, codeMembers_eq, codeStmts_eq, codeDeclarators_eq, codeCases_eq, codeBlock, codeName,
        codeKeyword, codeKind, codeJump, codeMethodPrefix, codeLiteral]
      intros
      repeat' (first
        | assumption
        | with_reducible exact L.nil
        | with_reducible exact L.sp
        | with_reducible exact L.line
        | with_reducible exact L.space _
        | with_reducible exact L.text (by assumption)
        | with_reducible exact L.txt (by decide)
        | with_reducible exact L.txt (code_op _)
        | with_reducible apply L.expression
        | with_reducible apply L.list
        | with_reducible apply L.braces
        | with_reducible apply L.block
        | with_reducible apply L.object
        | with_reducible apply L.template
        | with_reducible apply L.append
        | with_reducible apply L.cons2
        | with_reducible apply L.cons L.sp
        | with_reducible apply L.cons (L.txt (by decide))
        | split
        | (rw [List.forall_mem_map]))

end Ratel
