import Verif.Lemmas.EstreeLossless
import Verif.Props.Estree
import Verif.Props.RoundTripExamples
/-! C51: the serialised document has the whole tree in it. C52: what equal documents say about the trees. -/
namespace Ratel
open Spec

section
variable [Unicode]
set_option linter.unusedSectionVars false

/-- A reader of ESTree gets back the tree from the document of an accepted module. -/
theorem estree_back {m : List Stmt} {j : Json} (hw : ∀ n ∈ moduleNodes m, WellFormed n) (hj : genModule m = .ok j) :
    ∃ depth, ∀ k, depth ≤ k → readProgram k j = some (keptStmts m) := by
  unfold genModule at hj
  rw [node1] at hj
  obtain ⟨a, ha, rfl⟩ := hj
  refine ⟨sizeOf m + 1, fun k hk => ?_⟩
  show listOf (readStmt k) a = _
  refine Told.stmts (fun s hs => told (.stmt s) (fun n hn => hw n ?_) k ?_) ha
  · exact List.mem_flatMap.2 ⟨s, hs, hn⟩
  · have := List.sizeOf_lt_of_mem hs
    show sizeOf s < k
    omega

/-- C51: reading the document of an accepted module gives back the module, up to what `keptStmts` says. -/
theorem C51_reads_back {fuel : Nat} {src : Bytes} {m : List Stmt} {j : Json} (h : parse fuel src = .ok (.ok m))
    (hj : genModule m = .ok j) : ∃ depth, ∀ k, depth ≤ k → readProgram k j = some (keptStmts m) :=
  estree_back (accepted_wellFormed h) hj

/-- C51: if the module has none of the nodes that the document cannot tell apart, what is read is the module up to
positions. -/
theorem C51_reads_back_bare {fuel : Nat} {src : Bytes} {m : List Stmt} {j : Json} (h : parse fuel src = .ok (.ok m))
    (hr : ∀ n ∈ moduleNodes m, n.recorded) (hj : genModule m = .ok j) :
    ∃ depth, ∀ k, depth ≤ k → ∃ m', readProgram k j = some m' ∧ bareStmts m' = bareStmts m := by
  obtain ⟨d, hd⟩ := C51_reads_back h hj
  refine ⟨d, fun k hk => ⟨_, hd k hk, Kept.stmts fun s hs => kept (.stmt s) fun n hn => hr n ?_⟩⟩
  exact List.mem_flatMap.2 ⟨s, hs, hn⟩

/-- C52: accepted modules with the same document have the same tree, up to what `keptStmts` says. -/
theorem C52_same_kept {fuel fuel' : Nat} {src src' : Bytes} {m m' : List Stmt} {j : Json} (h : parse fuel src = .ok (.ok m))
    (h' : parse fuel' src' = .ok (.ok m')) (hj : genModule m = .ok j) (hj' : genModule m' = .ok j) :
    keptStmts m = keptStmts m' := by
  obtain ⟨d, hd⟩ := C51_reads_back h hj
  obtain ⟨d', hd'⟩ := C51_reads_back h' hj'
  have h1 := hd (max d d') (Nat.le_max_left _ _)
  have h2 := hd' (max d d') (Nat.le_max_right _ _)
  rw [h1] at h2
  exact Option.some.inj h2

/-- C52: accepted modules with the same document that have only recorded nodes have the same tree up to positions, and
the same code is generated for them. -/
theorem C52_same_tree {fuel fuel' : Nat} {src src' : Bytes} {m m' : List Stmt} {j : Json} (h : parse fuel src = .ok (.ok m))
    (h' : parse fuel' src' = .ok (.ok m')) (hr : ∀ n ∈ moduleNodes m, n.recorded) (hr' : ∀ n ∈ moduleNodes m', n.recorded)
    (hj : genModule m = .ok j) (hj' : genModule m' = .ok j) :
    bareStmts m = bareStmts m' ∧ ∀ minify, codegen m minify = codegen m' minify := by
  have hk := C52_same_kept h h' hj hj'
  have h1 : bareStmts (keptStmts m) = bareStmts m :=
    Kept.stmts fun s hs => kept (.stmt s) fun n hn => hr n (List.mem_flatMap.2 ⟨s, hs, hn⟩)
  have h2 : bareStmts (keptStmts m') = bareStmts m' :=
    Kept.stmts fun s hs => kept (.stmt s) fun n hn => hr' n (List.mem_flatMap.2 ⟨s, hs, hn⟩)
  have hb : bareStmts m = bareStmts m' := by rw [← h1, hk, h2]
  exact ⟨hb, C44_positions hb⟩

end

/-! ### Cases -/

mutual
/-- The documents are the same. -/
def Json.same : Json → Json → Bool
  | .null, .null => true
  | .bool a, .bool b => a == b
  | .int a, .int b => a == b
  | .float a, .float b => a == b
  | .str a, .str b => a == b
  | .sym a, .sym b => a == b
  | .arr a, .arr b => Json.sames a b
  | .obj a, .obj b => Json.sameFields a b
  | _, _ => false
def Json.sames : List Json → List Json → Bool
  | [], [] => true
  | a :: as, b :: bs => Json.same a b && Json.sames as bs
  | _, _ => false
def Json.sameFields : List (String × Json) → List (String × Json) → Bool
  | [], [] => true
  | (k, a) :: as, (l, b) :: bs => k == l && Json.same a b && Json.sameFields as bs
  | _, _ => false
end

mutual
theorem Json.eq_of_same : ∀ {a b : Json}, Json.same a b = true → a = b
  | .null, b, h => by cases b <;> simp [Json.same] at h ⊢
  | .bool _, b, h => by cases b <;> simp [Json.same] at h ⊢ <;> exact h
  | .int _, b, h => by cases b <;> simp [Json.same] at h ⊢ <;> exact h
  | .float _, b, h => by cases b <;> simp [Json.same] at h ⊢ <;> exact h
  | .str _, b, h => by cases b <;> simp [Json.same] at h ⊢ <;> exact h
  | .sym _, b, h => by cases b <;> simp [Json.same] at h ⊢ <;> exact h
  | .arr _, b, h => by cases b <;> simp [Json.same] at h ⊢ <;> exact Json.eq_of_sames h
  | .obj _, b, h => by cases b <;> simp [Json.same] at h ⊢ <;> exact Json.eq_of_sameFields h
theorem Json.eq_of_sames : ∀ {a b : List Json}, Json.sames a b = true → a = b
  | [], b, h => by cases b <;> simp [Json.sames] at h ⊢
  | a :: as, b, h => by
    cases b <;> simp [Json.sames] at h ⊢
    exact ⟨Json.eq_of_same h.1, Json.eq_of_sames h.2⟩
theorem Json.eq_of_sameFields : ∀ {a b : List (String × Json)}, Json.sameFields a b = true → a = b
  | [], b, h => by cases b <;> simp [Json.sameFields] at h ⊢
  | (k, a) :: as, b, h => by
    cases b with
    | nil => simp [Json.sameFields] at h
    | cons x xs =>
      obtain ⟨l, b⟩ := x
      simp [Json.sameFields] at h
      simp [h.1.1, Json.eq_of_same h.1.2, Json.eq_of_sameFields h.2]
end

section
local instance uniReadEstree : Unicode := ⟨fun _ => true⟩

/-- Both sources are accepted, their modules have the same document and different minified code. -/
def Confused (src src' : Bytes) : Prop :=
  ∃ fuel m m' j, parse fuel src = .ok (.ok m) ∧ parse fuel src' = .ok (.ok m') ∧ genModule m = .ok j ∧ genModule m' = .ok j ∧
    codegen m true ≠ codegen m' true

def confusedB (fuel : Nat) (src src' : Bytes) : Bool :=
  match parse fuel src, parse fuel src' with
  | .ok (.ok m), .ok (.ok m') =>
    match genModule m, genModule m', codegen m true, codegen m' true with
    | .ok j, .ok j', .ok c, .ok c' => Json.same j j' && c != c'
    | _, _, _, _ => false
  | _, _ => false

theorem of_confusedB {fuel : Nat} {src src' : Bytes} (h : confusedB fuel src src' = true) : Confused src src' := by
  unfold confusedB at h
  split at h
  · rename_i m m' hm hm'
    split at h
    · rename_i j j' c c' hj hj' hc hc'
      rw [Bool.and_eq_true] at h
      refine ⟨fuel, m, m', j, hm, hm', hj, by rw [hj', Json.eq_of_same h.1], ?_⟩
      rw [hc, hc']
      simpa using h.2
    · cases h
  · cases h

/-- C52: the three kinds of nodes that are not `recorded` are real: the methods `static [a]` and `static a`, arrays that
differ in the holes at their end, `new 1` and `new 1()`. -/
theorem C52_confused :
    Confused bs!"class A{static [a](){}}" bs!"class A{static  a (){}}" ∧
    Confused bs!"[a,,]" bs!"[a, ]" ∧ Confused bs!"(new 1())" bs!"(new 1  )" :=
  ⟨of_confusedB (fuel := 60) (by decide +kernel), of_confusedB (fuel := 60) (by decide +kernel),
    of_confusedB (fuel := 60) (by decide +kernel)⟩

def recordedB : Node → Bool
  | .expr (.array _ es) => !endsInHole es
  | .expr (.prefix _ .New (.lit ..)) => false
  | .prop (.method _ k _ _) => !bracketedName k
  | .member (.method _ _ k _ _ _) => !bracketedName k
  | _ => true

theorem of_recordedB {n : Node} (h : recordedB n = true) : n.recorded := by
  unfold recordedB at h
  unfold Node.recorded
  split at h <;> simp_all

/-- A source with most statements and expressions. -/
def exportableSource : Bytes := bs!"import d, {x as y} from 'mod'
a.b[c](1, 0b1, ...e).f += `p${q}r${s}t` /* c */
  let [f, g = 2] = [,h], {i, j: k} = {l, 'm': n, [o]: p, q() {}, [r + s]() {}, ...t}
  lbl: for (var u of v) break lbl
  class A extends B { constructor(z, ...w) { x = new.target } static get y() {} }
  function gen(o = 1) { try { throw -1 } catch (e) { i++ } return (x, y) => x ? y : this }
  switch (t) { case 1: tag`x`; default: }
  if (a - (-b)) { a = (b + c) * d - e } else if (typeof a == 'x') return; else { do { continue } while (a) }
  for (i = 0; i < 5; i++) { (a, b); ({}); (function () {}) }
  for (i in c) while (1) a ? b : new C(1.5, /x[/]/g, undefined)"

/-- The hypotheses of C51 and C52 are met. -/
example : ∃ m j, parse 300 exportableSource = .ok (.ok m) ∧ (∀ n ∈ moduleNodes m, n.recorded) ∧ genModule m = .ok j := by
  have h : (match parse 300 exportableSource with
      | .ok (.ok m) => (m.all fun s => allB recordedB 300 (.stmt s)) && (match genModule m with | .ok _ => true | _ => false)
      | _ => false) = true := by decide +kernel
  split at h
  · rename_i m hm
    rw [Bool.and_eq_true] at h
    have h2 := h.2
    split at h2
    · rename_i j hj
      exact ⟨m, j, hm, of_allB_module (fun n hn => of_recordedB hn) h.1, hj⟩
    · cases h2
  · cases h

/-- A document is read: `a = 0x1f`. -/
example : (match parse 60 bs!"a = 0x1f" with
    | .ok (.ok m) => (match genModule m with
      | .ok j => (match readProgram 9 j with
        | some [.expr ⟨0, 8⟩ (.binary ⟨0, 8⟩ .Assign (.ident ⟨0, 1⟩ n) (.lit ⟨4, 8⟩ (.Number v)))] => n == bs!"a" && v == bs!"0x1f"
        | _ => false)
      | _ => false)
    | _ => false) = true := by decide +kernel

end
end Ratel
