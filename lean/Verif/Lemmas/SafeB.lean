import Verif.Spec.Printable
/-! A checker for `Legible` and `Safe`, for examples. -/
namespace Ratel
open Spec

def strBodyB (q : Byte) : Bytes → Bool
  | [] => true
  | [c] => c != q && c != #b'\\' && c != 0
  | c :: d :: r => if c = #b'\\' then d != 0 && strBodyB q r else c != q && c != 0 && strBodyB q (d :: r)

theorem of_strBodyB {q : Byte} : ∀ {s : Bytes}, strBodyB q s = true → StrBody q s
  | [], _ => .nil
  | [c], h => by
    simp [strBodyB] at h
    exact .plain h.1.1 h.1.2 h.2 .nil
  | c :: d :: r, h => by
    rw [strBodyB] at h
    split at h
    · rename_i hc
      subst hc
      simp at h
      exact .esc h.1 (of_strBodyB h.2)
    · rename_i hc
      simp at h
      exact .plain h.1.1 hc h.1.2 (of_strBodyB h.2)

/-- `Legible`, decided. -/
def legibleB (minify : Bool) : Node → Bool
  | .expr (.ident _ n) => n != bs!"import"
  | .expr (.lit _ (.Number v)) => !bareExponent v
  | .expr (.seq _ es) => es.all (fits 1)
  | .expr (.array _ es) => es.all (fits 1)
  | .expr (.call _ c args) => fitsHead c && args.all (fits 1)
  | .expr (.cond _ t c a) => fitsLeft 2 t && fits 1 c && fits 1 a
  | .expr (.tagged _ t _ _ _) => fitsHead t
  | .expr (.spread _ e) => fits 1 e
  | .expr (.member _ (.lit _ (.Number v)) _) => !v.all isDigit
  | .expr (.binary _ op a b) => match precedence op with
    | some p => (codePower a < codeOp op || fitsLeft p a) &&
      (codePower b < codeOp op + 1 || (p + 1 ≤ strength b &&
        (!minify || !glues op (firstToken b) || blankAfter op b)))
    | none => true
  | .expr (.prefix _ op e) => 16 ≤ strength e && !glues op (firstToken e)
  | .expr (.arrowE _ _ b) => fits 1 b && firstToken b != .BraceOpen
  | .prop (.literal _ _ v) => fits 1 v
  | .prop (.spread _ e) => fits 1 e
  | .pat (.assign _ _ e) => fits 1 e
  | .cls (.mk _ s _ _) => s.all (fits 1)
  | .member (.literal _ s (.literal _ k) v) => fits 1 v && (s || k != bs!"static")
  | .member (.literal _ _ _ v) => fits 1 v
  | .stmt (.debugger _) => false
  | .stmt (.ifS _ _ c a) => !isEmptyStmt c && a.all (fun s => !isEmptyStmt s)
  | .stmt (.whileS _ _ b) => !isEmptyStmt b
  | .stmt (.doS _ b _) => !isEmptyStmt b
  | .stmt (.forS _ _ _ _ b) => !isEmptyStmt b
  | .stmt (.forIn _ (.expr _ e) r b) => !isEmptyStmt b && fitsLeft 11 e && 12 ≤ strength r
  | .stmt (.forIn _ _ _ b) => !isEmptyStmt b
  | .stmt (.forOf _ _ _ b) => !isEmptyStmt b
  | .stmt (.labeled _ _ b) => !isEmptyStmt b
  | .stmt (.expr _ e) => wrapped e || !([Token.BraceOpen, .Function, .Class].contains (firstToken e))
  | .stmt (.tryS _ _ _ f) => f.isNone
  | .stmt (.import _ _ src) => strBodyB #b'\'' src
  | .declarator (.mk _ _ i) => i.all (fits 1)
  | _ => true

theorem of_legibleB {minify : Bool} {n : Node} (h : legibleB minify n = true) : Legible minify n := by
  rcases n with e | k | p | p | f | c | m | b | s | d | i | c | c | cs
  · cases e with
    | lit l v => cases v <;> simp_all [legibleB, Legible]
    | member l o p => cases o with
      | lit l' v => cases v <;> simp_all [legibleB, Legible]
      | _ => trivial
    | binary l op a b =>
      intro p hp
      simp only [legibleB, hp] at h
      simp at h
      refine ⟨h.1, h.2.imp id fun h' => ⟨h'.1, fun h1 h2 => ?_⟩⟩
      rcases h'.2 with (h3 | h3) | h3
      · rw [h1] at h3; cases h3
      · rw [h2] at h3; cases h3
      · exact h3
    | _ => simp_all [legibleB, Legible]
  · trivial
  · cases p <;> simp_all [legibleB, Legible]
  · cases p <;> simp_all [legibleB, Legible]
  · trivial
  · obtain ⟨_, s, _, _⟩ := c
    cases s <;> simp_all [legibleB, Legible]
  · cases m with
    | literal l s k v =>
      cases k with
      | literal l' k =>
        simp only [legibleB] at h
        simp at h
        refine ⟨h.1, fun hs l hk => ?_⟩
        cases hk
        rcases h.2 with h' | h'
        · rw [hs] at h'; cases h'
        · exact h' rfl
      | _ =>
        simp only [legibleB] at h
        exact ⟨h, fun _ _ => nofun⟩
    | _ => trivial
  · trivial
  · cases s with
    | ifS l t c a => cases a <;> simp_all [legibleB, Legible]
    | forIn l i r b =>
      cases i with
      | expr l' e =>
        simp [legibleB] at h
        refine ⟨h.1.1, fun l e he => ?_⟩
        cases he
        exact ⟨h.1.2, h.2⟩
      | decl =>
        simp [legibleB] at h
        exact ⟨h, fun l e => nofun⟩
    | expr l e =>
      simp only [legibleB] at h
      intro he
      rw [he] at h
      simpa using h
    | «import» l ss src => exact of_strBodyB h
    | _ => simp_all [legibleB, Legible]
  · obtain ⟨_, _, i⟩ := d
    cases i <;> simp_all [legibleB, Legible]
  all_goals trivial

def ordinaryB : Node → Bool
  | .func (.mk _ generator _ _) => !generator
  | _ => true

theorem of_ordinaryB {n : Node} (h : ordinaryB n = true) : Ordinary n := by
  cases n with
  | func f => cases f; simpa [ordinaryB, Ordinary] using h
  | _ => trivial

/-- `Safe`, decided. -/
def safeB (minify : Bool) (n : Node) : Bool := legibleB minify n && ordinaryB n

theorem of_safeB {minify : Bool} {n : Node} (h : safeB minify n = true) : Safe minify n := by
  simp only [safeB, Bool.and_eq_true] at h
  exact ⟨of_legibleB h.1, of_ordinaryB h.2⟩

/-- `f` holds of the node and of all nodes below it, if they are not deeper than `n`. -/
def allB (f : Node → Bool) : Nat → Node → Bool
  | 0, _ => false
  | n + 1, x => f x && x.children.all (allB f n)

theorem of_allB {f : Node → Bool} {P : Node → Prop} (hf : ∀ n, f n = true → P n) :
    ∀ {n : Nat} {x : Node}, allB f n x = true → x.Forall P
  | 0, _, h => by simp [allB] at h
  | n + 1, x, h => by
    simp [allB] at h
    exact Node.forall_iff.2 ⟨hf _ h.1, fun c hc => of_allB hf (h.2 c hc)⟩

theorem of_allB_module {f : Node → Bool} {P : Node → Prop} (hf : ∀ n, f n = true → P n) {n : Nat} {m : List Stmt}
    (h : (m.all fun s => allB f n (.stmt s)) = true) : ∀ x ∈ moduleNodes m, P x := by
  intro x hx
  obtain ⟨s, hs, hx⟩ := List.mem_flatMap.1 hx
  exact of_allB hf (List.all_eq_true.1 h s hs) x hx

end Ratel
