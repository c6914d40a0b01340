import Verif.Lemmas.EstreeBackAll
import Verif.Lemmas.CompleteLists
/-! What the document keeps is the whole tree (C52), up to positions, if it has only `recorded` nodes. -/
namespace Ratel
open Spec

set_option linter.unusedSimpArgs false

/-- Up to positions everything is kept. -/
def Kept : Node → Prop
  | .expr e => bareExpr (keptExpr e) = bareExpr e
  | .key k => ∀ c, (c = true ∨ bracketedName k = false) → bareKey (keptKey c k) = bareKey k
  | .prop p => bareProp (keptProp p) = bareProp p
  | .pat p => barePat (keptPat p) = barePat p
  | .func f => bareFunc (keptFunc f) = bareFunc f
  | .cls c => bareClass (keptClass c) = bareClass c
  | .member m => bareMember (keptMember m) = bareMember m
  | .block b => bareBlock (keptBlock b) = bareBlock b
  | .stmt s => bareStmt (keptStmt s) = bareStmt s
  | .declarator d => bareDeclarator (keptDeclarator d) = bareDeclarator d
  | .forInit i => bareInit (keptInit i) = bareInit i
  | .case c => bareCase (keptCase c) = bareCase c
  | .catch c => bareCatch (keptCatch c) = bareCatch c
  | .switchBody cs => bareCases (keptCases cs) = bareCases cs

variable [Unicode]
set_option linter.unusedSectionVars false

theorem map_map_eq {f : α → β} {g : α → α} {l : List α} (h : ∀ x ∈ l, f (g x) = f x) : (l.map g).map f = l.map f := by
  rw [List.map_map]
  exact List.map_congr_left h

theorem Kept.exprs {es : List Expr} (h : ∀ e ∈ es, Kept (.expr e)) : bareExprs (keptExprs es) = bareExprs es := by
  rw [keptExprs_map, bareExprs_map, bareExprs_map]; exact map_map_eq h
theorem Kept.props {es : List Property} (h : ∀ e ∈ es, Kept (.prop e)) : bareProps (keptProps es) = bareProps es := by
  rw [keptProps_map, bareProps_map, bareProps_map]; exact map_map_eq h
theorem Kept.pats {es : List Pattern} (h : ∀ e ∈ es, Kept (.pat e)) : barePats (keptPats es) = barePats es := by
  rw [keptPats_map, barePats_map, barePats_map]; exact map_map_eq h
theorem Kept.members {es : List ClassMember} (h : ∀ e ∈ es, Kept (.member e)) : bareMembers (keptMembers es) = bareMembers es := by
  rw [keptMembers_map, bareMembers_map, bareMembers_map]; exact map_map_eq h
theorem Kept.stmts {es : List Stmt} (h : ∀ e ∈ es, Kept (.stmt e)) : bareStmts (keptStmts es) = bareStmts es := by
  rw [keptStmts_map, bareStmts_map, bareStmts_map]; exact map_map_eq h
theorem Kept.declarators {es : List Declarator} (h : ∀ e ∈ es, Kept (.declarator e)) :
    bareDeclarators (keptDeclarators es) = bareDeclarators es := by
  rw [keptDeclarators_map, bareDeclarators_map, bareDeclarators_map]; exact map_map_eq h
theorem Kept.cases {es : List SwitchCase} (h : ∀ e ∈ es, Kept (.case e)) : bareCases (keptCases es) = bareCases es := by
  rw [keptCases_map, bareCases_map, bareCases_map]; exact map_map_eq h

theorem bare_at (l : Loc) (e : Expr) : bareExpr (Expr.at l e) = bareExpr e := by cases e <;> rfl

theorem trim_id {es : List Expr} (h : endsInHole es = false) : trim es = es := by
  unfold trim
  cases hr : es.reverse with
  | nil => simp at hr; simp [hr]
  | cons e r =>
    have : es.getLast? = some e := by
      rw [List.getLast?_eq_head?_reverse, hr]; rfl
    have he : hole e = false := by simpa [endsInHole, this] using h
    rw [List.dropWhile_cons_of_neg (by simp [he]), ← hr, List.reverse_reverse]

theorem expr_kept {e : Expr} (hr : (Node.expr e).recorded) (hc : ∀ c ∈ (Node.expr e).children, Kept c) : Kept (.expr e) := by
  show bareExpr (keptExpr e) = bareExpr e
  cases e
  case seq l es => rw [keptExpr, bareExpr, bareExpr, Kept.exprs fun e he => hc _ (by simp [Node.children, he])]
  case array l es =>
    rw [keptExpr, bareExpr, bareExpr, trim_kept, trim_id hr, ← keptExprs_map,
      Kept.exprs fun e he => hc _ (by simp [Node.children, he])]
  case member l o p => rw [keptExpr, bareExpr, bareExpr, hc (.expr o) (by simp [Node.children])]
  case cmember l o p =>
    rw [keptExpr, bareExpr, bareExpr, hc (.expr o) (by simp [Node.children]), hc (.expr p) (by simp [Node.children])]
  case call l c as =>
    rw [keptExpr, bareExpr, bareExpr, hc (.expr c) (by simp [Node.children]),
      Kept.exprs fun e he => hc _ (by simp [Node.children, he])]
  case binary l op a b =>
    rw [keptExpr, bareExpr, bareExpr, hc (.expr a) (by simp [Node.children]), hc (.expr b) (by simp [Node.children])]
  case «prefix» l op x =>
    have hx := hc (.expr x) (by simp [Node.children])
    by_cases ho : op = .New
    · subst ho
      cases x
      case lit => exact hr.elim
      case call cl c as =>
        show Expr.prefix z .New (bareExpr (Expr.at z (keptExpr (.call cl c as)))) = Expr.prefix z .New _
        rw [bare_at, hx]
      all_goals
        show Expr.prefix z .New (bareExpr (keptExpr _)) = Expr.prefix z .New _
        rw [hx]
    · rw [kept_prefix ho, bareExpr, bareExpr, hx]
  case «postfix» l op x => rw [keptExpr, bareExpr, bareExpr, hc (.expr x) (by simp [Node.children])]
  case cond l t c a =>
    rw [keptExpr, bareExpr, bareExpr, hc (.expr t) (by simp [Node.children]), hc (.expr c) (by simp [Node.children]),
      hc (.expr a) (by simp [Node.children])]
  case template l es qs => rw [keptExpr, bareExpr, bareExpr, Kept.exprs fun e he => hc _ (by simp [Node.children, he])]
  case tagged l t ql es qs =>
    rw [keptExpr, bareExpr, bareExpr, Kept.exprs fun e he => hc _ (by simp [Node.children, he]),
      hc (.expr t) (by simp [Node.children])]
  case spread l x => rw [keptExpr, bareExpr, bareExpr, hc (.expr x) (by simp [Node.children])]
  case arrowE l ps x =>
    rw [keptExpr, bareExpr, bareExpr, hc (.expr x) (by simp [Node.children]),
      Kept.pats fun p hp => hc _ (by simp [Node.children, hp])]
  case arrowB l ps b =>
    rcases b with ⟨bl, ss⟩
    rw [keptExpr, bareExpr, bareExpr, Kept.pats fun p hp => hc _ (by simp [Node.children, hp]), keptBlock, bareBlock, bareBlock,
      Kept.stmts fun s hs => hc _ (by simp [Node.children, hs])]
  case object l ps => rw [keptExpr, bareExpr, bareExpr, Kept.props fun p hp => hc _ (by simp [Node.children, hp])]
  case function l f => rw [keptExpr, bareExpr, bareExpr, hc (.func f) (by simp [Node.children])]
  case «class» l c => rw [keptExpr, bareExpr, bareExpr, hc (.cls c) (by simp [Node.children])]
  all_goals rfl

theorem key_kept {k : PropKey} (hc : ∀ c ∈ (Node.key k).children, Kept c) : Kept (.key k) := by
  intro c h
  cases k with
  | computed l e =>
    have he := hc (.expr e) (by simp [Node.children])
    cases e
    case ident il n =>
      have : c = true := by
        rcases h with h | h
        · exact h
        · simp [bracketedName] at h
      subst this
      rfl
    all_goals
      rw [keptKey, bareKey, bareKey, he] <;> simp
  | literal => rfl
  | binary => rfl

theorem stmt_kept {s : Stmt} (hc : ∀ c ∈ (Node.stmt s).children, Kept c) : Kept (.stmt s) := by
  show bareStmt (keptStmt s) = bareStmt s
  cases s
  case expr l e => rw [keptStmt, bareStmt, bareStmt, hc (.expr e) (by simp [Node.children])]
  case decl l kd ds => rw [keptStmt, bareStmt, bareStmt, Kept.declarators fun d hd => hc _ (by simp [Node.children, hd])]
  case ret l v =>
    cases v with
    | none => rfl
    | some e => rw [keptStmt.eq_def, bareStmt.eq_def, bareStmt.eq_def]; simp only; rw [hc (.expr e) (by simp [Node.children])]
  case throw l e => rw [keptStmt, bareStmt, bareStmt, hc (.expr e) (by simp [Node.children])]
  case ifS l t c a =>
    have ht := hc (.expr t) (by simp [Node.children])
    have hc' := hc (.stmt c) (by simp [Node.children])
    cases a with
    | none => rw [keptStmt.eq_def, bareStmt.eq_def, bareStmt.eq_def]; simp only; rw [ht, hc']
    | some a =>
      rw [keptStmt.eq_def, bareStmt.eq_def, bareStmt.eq_def]; simp only
      rw [ht, hc', hc (.stmt a) (by simp [Node.children])]
  case whileS l t b =>
    rw [keptStmt, bareStmt, bareStmt, hc (.expr t) (by simp [Node.children]), hc (.stmt b) (by simp [Node.children])]
  case doS l b t =>
    rw [keptStmt, bareStmt, bareStmt, hc (.expr t) (by simp [Node.children]), hc (.stmt b) (by simp [Node.children])]
  case forS l i t u b =>
    have hi : ∀ x ∈ i, Kept (.forInit x) := fun x hx => hc _ (by
      simp only [Node.children, List.mem_append, List.mem_map, Option.mem_toList]
      exact .inl (.inl (.inl ⟨x, hx, rfl⟩)))
    have ht : ∀ x ∈ t, Kept (.expr x) := fun x hx => hc _ (by
      simp only [Node.children, List.mem_append, List.mem_map, Option.mem_toList]
      exact .inl (.inl (.inr ⟨x, hx, rfl⟩)))
    have hu : ∀ x ∈ u, Kept (.expr x) := fun x hx => hc _ (by
      simp only [Node.children, List.mem_append, List.mem_map, Option.mem_toList]
      exact .inl (.inr ⟨x, hx, rfl⟩))
    have hb := hc (.stmt b) (by simp [Node.children])
    rw [keptStmt.eq_def, bareStmt.eq_def, bareStmt.eq_def]
    simp only
    rw [hb]
    congr 1
    · cases i with
      | none => rfl
      | some x => exact congrArg some (hi x rfl)
    · cases t with
      | none => rfl
      | some x => exact congrArg some (ht x rfl)
    · cases u with
      | none => rfl
      | some x => exact congrArg some (hu x rfl)
  case forIn l i r b =>
    rw [keptStmt, bareStmt, bareStmt, hc (.forInit i) (by simp [Node.children]), hc (.expr r) (by simp [Node.children]),
      hc (.stmt b) (by simp [Node.children])]
  case forOf l i r b =>
    rw [keptStmt, bareStmt, bareStmt, hc (.forInit i) (by simp [Node.children]), hc (.expr r) (by simp [Node.children]),
      hc (.stmt b) (by simp [Node.children])]
  case tryS l b h f =>
    have hh : ∀ x ∈ h, Kept (.catch x) := fun x hx => hc _ (by
      simp only [Node.children, List.mem_append, List.mem_map, Option.mem_toList]
      exact .inl (.inr ⟨x, hx, rfl⟩))
    have hf : ∀ x ∈ f, Kept (.block x) := fun x hx => hc _ (by
      simp only [Node.children, List.mem_append, List.mem_map, Option.mem_toList]
      exact .inr ⟨x, hx, rfl⟩)
    rw [keptStmt.eq_def, bareStmt.eq_def, bareStmt.eq_def]
    simp only
    rw [hc (.block b) (by simp [Node.children])]
    congr 1
    · cases h with
      | none => rfl
      | some x => exact congrArg some (hh x rfl)
    · cases f with
      | none => rfl
      | some x => exact congrArg some (hf x rfl)
  case block l ss => rw [keptStmt, bareStmt, bareStmt, Kept.stmts fun s hs => hc _ (by simp [Node.children, hs])]
  case labeled l n b => rw [keptStmt, bareStmt, bareStmt, hc (.stmt b) (by simp [Node.children])]
  case function l f => rw [keptStmt, bareStmt, bareStmt, hc (.func f) (by simp [Node.children])]
  case «class» l c => rw [keptStmt, bareStmt, bareStmt, hc (.cls c) (by simp [Node.children])]
  case switch l d bl cs =>
    rw [keptStmt, bareStmt, bareStmt, hc (.expr d) (by simp [Node.children]), hc (.switchBody cs) (by simp [Node.children])]
  all_goals rfl

theorem kept (n : Node) (hr : n.Forall Node.recorded) : Kept n := by
  induction n using Node.ind with
  | h n ih =>
    obtain ⟨hn, hch⟩ := Node.forall_iff.1 hr
    have hc : ∀ c ∈ n.children, Kept c := fun c hc => ih c hc (hch c hc)
    clear ih hch hr
    cases n with
    | expr e => exact expr_kept hn hc
    | key key => exact key_kept hc
    | stmt s => exact stmt_kept hc
    | prop p =>
      show bareProp (keptProp p) = bareProp p
      cases p with
      | shorthand => rfl
      | literal l k v =>
        rw [keptProp, bareProp, bareProp, hc (.expr v) (by simp [Node.children]),
          hc (.key k) (by simp [Node.children]) (isComputed k) (by cases k <;> simp [isComputed, bracketedName])]
      | method l k vl f =>
        rw [keptProp, bareProp, bareProp, hc (.func f) (by simp [Node.children]),
          hc (.key k) (by simp [Node.children]) false (.inr hn)]
      | spread l e => rw [keptProp, bareProp, bareProp, hc (.expr e) (by simp [Node.children])]
    | pat p =>
      show barePat (keptPat p) = barePat p
      cases p with
      | object l ps => rw [keptPat, barePat, barePat, Kept.props fun p hp => hc _ (by simp [Node.children, hp])]
      | array l ps => rw [keptPat, barePat, barePat, Kept.pats fun p hp => hc _ (by simp [Node.children, hp])]
      | assign l p e =>
        rw [keptPat, barePat, barePat, hc (.pat p) (by simp [Node.children]), hc (.expr e) (by simp [Node.children])]
      | _ => rfl
    | func f =>
      rcases f with ⟨n, g, ps, ⟨bl, ss⟩⟩
      show bareFunc (keptFunc (.mk n g ps (.mk bl ss))) = bareFunc (.mk n g ps (.mk bl ss))
      rw [keptFunc, bareFunc, bareFunc, Kept.pats fun p hp => hc _ (by simp [Node.children, hp]), keptBlock, bareBlock, bareBlock,
        Kept.stmts fun s hs => hc _ (by simp [Node.children, hs])]
    | cls c =>
      rcases c with ⟨n, s, bl, ms⟩
      show bareClass (keptClass (.mk n s bl ms)) = bareClass (.mk n s bl ms)
      rw [keptClass.eq_def, bareClass.eq_def, bareClass.eq_def]
      simp only
      rw [Kept.members fun m hm => hc _ (by simp [Node.children, hm])]
      cases s with
      | none => rfl
      | some e => simp only [show bareExpr (keptExpr e) = bareExpr e from hc (.expr e) (by simp [Node.children])]
    | member m =>
      show bareMember (keptMember m) = bareMember m
      cases m with
      | error => rfl
      | method l st k kd vl f =>
        rw [keptMember, bareMember, bareMember, hc (.func f) (by simp [Node.children]),
          hc (.key k) (by simp [Node.children]) false (.inr hn)]
      | literal l st k v => rw [keptMember, bareMember, bareMember, hc (.expr v) (by simp [Node.children])]
    | block b =>
      rcases b with ⟨bl, ss⟩
      show bareBlock (keptBlock (.mk bl ss)) = bareBlock (.mk bl ss)
      rw [keptBlock, bareBlock, bareBlock, Kept.stmts fun s hs => hc _ (by simp [Node.children, hs])]
    | declarator d =>
      rcases d with ⟨l, p, i⟩
      show bareDeclarator (keptDeclarator (.mk l p i)) = bareDeclarator (.mk l p i)
      rw [keptDeclarator.eq_def, bareDeclarator.eq_def, bareDeclarator.eq_def]
      simp only
      rw [hc (.pat p) (by simp [Node.children])]
      cases i with
      | none => rfl
      | some e => simp only [show bareExpr (keptExpr e) = bareExpr e from hc (.expr e) (by simp [Node.children])]
    | forInit i =>
      show bareInit (keptInit i) = bareInit i
      cases i with
      | decl l kd ds => rw [keptInit, bareInit, bareInit, Kept.declarators fun d hd => hc _ (by simp [Node.children, hd])]
      | expr l e => rw [keptInit, bareInit, bareInit, bare_at, hc (.expr e) (by simp [Node.children])]
    | case c =>
      rcases c with ⟨l, t, ss⟩
      show bareCase (keptCase (.mk l t ss)) = bareCase (.mk l t ss)
      rw [keptCase.eq_def, bareCase.eq_def, bareCase.eq_def]
      simp only
      rw [Kept.stmts fun s hs => hc _ (by simp [Node.children, hs])]
      cases t with
      | none => rfl
      | some e => simp only [show bareExpr (keptExpr e) = bareExpr e from hc (.expr e) (by simp [Node.children])]
    | «catch» c =>
      rcases c with ⟨l, p, b⟩
      show bareCatch (keptCatch (.mk l p b)) = bareCatch (.mk l p b)
      rw [keptCatch, bareCatch, bareCatch, hc (.pat p) (by simp [Node.children]), hc (.block b) (by simp [Node.children])]
    | switchBody cs => exact Kept.cases fun c h => hc _ (by simp [Node.children, h])

end Ratel
