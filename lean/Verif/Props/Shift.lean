import Verif.Lemmas.SimRun
import Verif.Lemmas.ShiftBare
import Verif.Spec.Spelling
import Verif.Lemmas.SpellBack
import Verif.Props.Accepted
import Verif.Props.Join
import Verif.Lemmas.MovedDoc
import Verif.Props.Unplaced
/-! C77: positions move with the text. -/
namespace Ratel
open Spec

section
set_option linter.unusedSectionVars false
variable [Unicode]

/-- C77: white space and comments (also with line breaks) in front of an accepted source: the same tree is read, and every
position in it is greater by exactly the number of bytes put in front. -/
theorem C77_positions_move {g src : Bytes} {b : Bool} (hg : Gap false g src b) {fuel : Nat} {m : List Stmt}
    (h : parse fuel src = .ok (.ok m)) : parse fuel (g ++ src) = .ok (.ok (shiftStmts g.length m)) :=
  parse_gap hg h

/-- C58: white space and comments in front of a source change nothing about what is read, also not whether it is accepted. -/
theorem C58_leading_iff {g src : Bytes} {b : Bool} {ss : List Stmt} (hg : Gap false g src b) :
    Accepts parse (g ++ src) ss ↔ Accepts parse src ss := by
  refine ⟨fun h => ?_, C58_leading hg⟩
  obtain ⟨i, h1, h2⟩ := accepts_iff.1 h
  obtain ⟨i', h3, h4⟩ := spells_behind hg h1
  refine C42_accepts h3 ?_
  rcases h4 with rfl | h4
  · exact h2
  · exact h2.program_head h4

/-- C77, the other way round: if a source with white space and comments in front is accepted, so is the source alone, and its tree
is the one whose positions moved. -/
theorem C77_iff {g src : Bytes} {b : Bool} (hg : Gap false g src b) {m' : List Stmt} :
    (∃ n, parse n (g ++ src) = .ok (.ok m')) ↔ ∃ n m, parse n src = .ok (.ok m) ∧ m' = shiftStmts g.length m := by
  constructor
  · rintro ⟨n, h⟩
    obtain ⟨N, m, -, h1⟩ := (C58_leading_iff hg).1 (⟨n, m', rfl, fun k hk => by
      rw [parse_fuel hk _ (by rw [h]; nofun), h]⟩ : Accepts parse (g ++ src) (bareStmts m'))
    replace h1 := h1 N (Nat.le_refl _)
    refine ⟨N, m, h1, ?_⟩
    have h2 := C77_positions_move hg h1
    have h3 := parse_fuel (Nat.le_max_left n N) (g ++ src) (by rw [h]; nofun)
    have h4 := parse_fuel (Nat.le_max_right n N) (g ++ src) (by rw [h2]; nofun)
    rw [h] at h3
    rw [h2, h3] at h4
    cases h4
    rfl
  · rintro ⟨n, m, h, rfl⟩
    exact ⟨n, C77_positions_move hg h⟩

theorem moduleLoc_shift (k : Nat) {m : List Stmt} (h : m ≠ []) : moduleLoc (shiftStmts k m) = shiftLoc k (moduleLoc m) := by
  cases m with
  | nil => exact absurd rfl h
  | cons s ss =>
    have h1 : ∀ (l : List Stmt) (hl : l ≠ []) (hl' : l.map (shiftStmt k) ≠ []),
        ((l.map (shiftStmt k)).getLast hl').loc.stop = (l.getLast hl).loc.stop + k := fun l hl hl' => by
      rw [List.getLast_map, shiftStmt_loc]; rfl
    have h2 := h1 (s :: ss) (by simp) (by simp)
    rw [shiftStmts_eq]
    exact (Loc.mk.injEq ..).mpr ⟨by rw [shiftStmt_loc]; rfl, h2⟩

/-- C77: the ESTree document of the source with white space and comments in front is that of the source with the same number of
bytes added to all fields `start` and `end` (or there is none of both). (The document of an empty program says 0 to 0 in any
case, see `C77_empty_document`.) -/
theorem C77_document {g src : Bytes} {b : Bool} (hg : Gap false g src b) {fuel : Nat} {m : List Stmt}
    (h : parse fuel src = .ok (.ok m)) (hm : m ≠ []) :
    ∃ m', parse fuel (g ++ src) = .ok (.ok m') ∧ ((genModule m = .panic ∧ genModule m' = .panic) ∨
      ∃ j, genModule m = .ok j ∧ genModule m' = .ok (moved g.length j)) := by
  have h1 := C77_positions_move hg h
  refine ⟨_, h1, ?_⟩
  rcases C66_accepted h h1 (bare_shiftStmts _ _).symm with h2 | ⟨j, j', h2, h3, -⟩
  · exact .inl h2
  · refine .inr ⟨j, h2, ?_⟩
    have h4 : Mv g.length (genModule m) (genModule (shiftStmts g.length m)) := by
      unfold genModule
      rw [moduleLoc_shift _ hm]
      exact MvItem.withLoc (MvFields.inLoc (.cons (by decide) (mvStmts _ m).array .nil) _) _
    exact h4 j h2

/-- The program without statements. -/
theorem C77_empty_document : genModule [] = .ok (.obj [("type", .sym "Program"), ("body", .arr []), ("start", .int 0), ("end", .int 0)]) := rfl

theorem spaces_gap {g : Bytes} (h : ∀ c ∈ g, isSpace c) (src : Bytes) : ∀ a, ∃ b, Gap a g src b := by
  induction g with
  | nil => exact fun a => ⟨a, .nil⟩
  | cons c g ih =>
    intro a
    obtain ⟨b, hb⟩ := ih (fun x hx => h x (List.mem_cons_of_mem _ hx)) (a || c == #b'\n')
    exact ⟨b, .space (h c List.mem_cons_self) hb⟩

/-- C77: spaces, tabs and line breaks in front of a source, whatever the source. -/
theorem C77_spaces {g src : Bytes} (hg : ∀ c ∈ g, isSpace c) {fuel : Nat} {m : List Stmt}
    (h : parse fuel src = .ok (.ok m)) : parse fuel (g ++ src) = .ok (.ok (shiftStmts g.length m)) :=
  (spaces_gap hg src false).elim fun _ hb => C77_positions_move hb h

end

/-- C77: moving a tree changes only its positions. -/
theorem C77_same_tree (k : Nat) (m : List Stmt) : bareStmts (shiftStmts k m) = bareStmts m := bare_shiftStmts k m

/-! ### Examples -/

local instance shiftUnicode : Unicode := ⟨fun _ => true⟩

/-- A comment and a line break in front of a script, with a function, a template, an object and a loop. -/
def movedSource : Bytes := bs!"function f(a, b = 1) { return `x${a.b}y` }\nfor (let k in {a, b: 2}) f(k)[0] = -k;"

def movedGap : Bytes := bs!"\n /* one \n two */ // three\n"

theorem movedGap_gap : ∃ b, Gap false movedGap movedSource b :=
  ⟨_, .space (c := #b'\n') (by decide) (.space (c := #b' ') (by decide)
    (.comment (p := bs!"/* one \n two */") (g := bs!" // three\n") (.block (s := bs!" one \n two ") (by decide) (by decide)) (by simp)
      (.space (c := #b' ') (by decide)
        (.comment (p := bs!"// three") (g := bs!"\n") (.line (s := bs!" three") (by decide) (by decide)) (by simp)
          (.space (c := #b'\n') (by decide) .nil)))))⟩

example : ∃ m, parse 60 movedSource = .ok (.ok m) ∧ parse 60 (movedGap ++ movedSource) = .ok (.ok (shiftStmts 27 m)) := by
  obtain ⟨m, h⟩ := of_accepted (r := parse 60 movedSource) (by decide +kernel)
  obtain ⟨b, hb⟩ := movedGap_gap
  exact ⟨m, h, C77_positions_move hb h⟩

/-- The spans of the two statements, before and after. -/
example : statementSpans movedSource = some [(0, 42, none), (43, 81, none)] := by decide +kernel
example : statementSpans (movedGap ++ movedSource) = some [(27, 69, none), (70, 108, none)] := by decide +kernel

/-- The documents, with the numbers of the program unchanged. -/
example : (match docOf bs!"a.b+`x${1}y`", docOf bs!" /*c*/\na.b+`x${1}y`" with
    | some j, some j' => sameDoc (moved 7 j) j' && !sameDoc (moved 6 j) j' && !sameDoc j j'
    | _, _ => false) = true := by decide +kernel
end Ratel
