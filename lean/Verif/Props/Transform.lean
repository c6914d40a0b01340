import Verif.Lemmas.Transform
import Verif.Codegen
import Verif.Visitor
/-! C33: the ES2015 transform. The property "no arrow function is left" is false in this code: `swap` gets a copy of the
cell, so no cell of the module is ever written. -/
namespace Ratel
open Spec

/-- What the transform does: the objects that were in the arena, with the contents of their cells, and the cells of the
module are what they were. -/
theorem C33_transform_keeps_cells (fuel : Nat) (mem : Mem) :
    (transform fuel mem).objs.take mem.objs.length = mem.objs ∧ (transform fuel mem).body = mem.body := by
  obtain ⟨ext, new, h⟩ := transform_grows fuel mem
  rw [h]
  simp

/-- The module in memory is the same before and after. -/
theorem C33_transform_changes_nothing (fuel : Nat) (mem : Mem) (m m' : List Stmt) (h : HoldsModule mem m) :
    HoldsModule (transform fuel mem) m' ↔ m' = m := by
  obtain ⟨ext, new, hg⟩ := transform_grows fuel mem
  have h' : HoldsModule (transform fuel mem) m := by
    obtain ⟨hl, hk⟩ := h
    rw [hg]
    exact ⟨hl, fun j hj => (hk j hj).mono⟩
  exact ⟨fun g => g.unique h', fun g => g ▸ h'⟩

/-- C33 is false: every arrow function of every module is still there after the transform, at its place in the list of
all nodes. -/
theorem C33_arrows_remain (fuel : Nat) (mem : Mem) (m : List Stmt) (h : HoldsModule mem m) {k : Nat} {n : Node}
    (hk : (moduleNodes m)[k]? = some n) (_ : n.isArrow = true) :
    ∃ m', HoldsModule (transform fuel mem) m' ∧ (moduleNodes m')[k]? = some n :=
  ⟨m, (C33_transform_changes_nothing fuel mem m m h).mpr rfl, hk⟩

/-- C33, the part that holds: a module without arrow functions has none after the transform.
Missing: modules with arrow functions, for which the property is false. -/
theorem C33_no_arrows_partial (fuel : Nat) (mem : Mem) (m m' : List Stmt) (h : HoldsModule mem m)
    (hn : ∀ n ∈ moduleNodes m, n.isArrow = false) (h' : HoldsModule (transform fuel mem) m') :
    ∀ n ∈ moduleNodes m', n.isArrow = false := by
  rw [(C33_transform_changes_nothing fuel mem m m' h).mp h']
  exact hn

/-- The functions that were meant to replace the arrow functions are all made, each from the parameters and the body of
its arrow function and with its span; for `ps => e` with the body `{ return e }`. They are in the cells that `swap` made,
in the order of the source, and those cells are the only ones. -/
theorem C33_functions_dropped (mem : Mem) (m : List Stmt) (h : HoldsModule mem m) :
    ∃ bound, ∀ fuel, bound ≤ fuel → ∃ made, (transform fuel mem).stack = mem.stack ++ made ∧
      HoldsAll (transform fuel mem).objs made ((moduleNodes m).filterMap asFunction) := by
  obtain ⟨hl, hk⟩ := h
  obtain ⟨bound, hb⟩ : ∃ bound, ∀ s ∈ m, (Node.stmt s).size < bound := by
    clear hl hk
    induction m with
    | nil => exact ⟨0, by simp⟩
    | cons s m ih =>
      obtain ⟨b, hb⟩ := ih
      refine ⟨max b ((Node.stmt s).size + 1), fun t ht => ?_⟩
      rcases List.mem_cons.mp ht with rfl | ht
      · omega
      · have := hb t ht; omega
  refine ⟨bound, fun fuel hf => ?_⟩
  obtain ⟨ext, ⟨new, hg⟩, hh⟩ := foldl_spec (m0 := mem) (f := fun m k => visitCell fuel m (.inBody k))
    (g := fun n => n.all.filterMap asFunction) (ks := List.range mem.body.length) (ns := m.map .stmt)
    (by simpa using hl)
    (fun j hj m' x hm' => by
      simp only [List.getElem_range, List.getElem_map]
      simp only [List.length_map] at hj
      refine visitCell_spec fuel m' (.inBody j) _ _ (hm'.get ?_) (hm'.holds (hk j hj)) ?_
      · simp [Mem.get]
      · have := hb _ (List.getElem_mem hj)
        omega) mem [] (.refl mem)
  refine ⟨ext, ?_, ?_⟩
  · rw [transform, hg]
  · rw [transform, moduleNodes, List.filterMap_flatMap]
    simpa only [List.flatMap_map] using hh

/-- Every module can be in memory. -/
theorem C33_stored (m : List Stmt) : ∃ mem, HoldsModule mem m := store_module m

/-- So whatever the module is, the code and the events after the transform are those before. -/
theorem C33_output_unchanged (fuel : Nat) (mem : Mem) (m m' : List Stmt) (h : HoldsModule mem m)
    (h' : HoldsModule (transform fuel mem) m') (minify : Bool) :
    codegen m' minify = codegen m minify ∧ visitModule m' = visitModule m := by
  rw [(C33_transform_changes_nothing fuel mem m m' h).mp h']
  exact ⟨rfl, rfl⟩

/-- The memory of the module `x => x`. -/
def arrowMem : Mem :=
  ⟨[⟨.pat (.ident ⟨0, 1⟩ bs!"x"), []⟩, ⟨.expr (.ident ⟨5, 6⟩ bs!"x"), []⟩,
    ⟨.expr (.arrowE ⟨0, 6⟩ [] (.void ⟨0, 0⟩)), [0, 1]⟩, ⟨.stmt (.expr ⟨0, 6⟩ (.void ⟨0, 0⟩)), [2]⟩], [3], []⟩

/-- Its module. -/
def arrowModule : List Stmt := [.expr ⟨0, 6⟩ (.arrowE ⟨0, 6⟩ [.ident ⟨0, 1⟩ bs!"x"] (.ident ⟨5, 6⟩ bs!"x"))]

/-- The hypotheses are met by it. -/
theorem arrowMem_holds : HoldsModule arrowMem arrowModule := by
  refine ⟨rfl, fun j hj => ?_⟩
  obtain rfl : j = 0 := by simpa [arrowModule] using hj
  exact HoldsAll.holds (o := ⟨.stmt (.expr ⟨0, 6⟩ (.void ⟨0, 0⟩)), [2]⟩) rfl
    (.cons (HoldsAll.holds (o := ⟨.expr (.arrowE ⟨0, 6⟩ [] (.void ⟨0, 0⟩)), [0, 1]⟩) rfl
      (.cons (HoldsAll.holds (o := ⟨.pat (.ident ⟨0, 1⟩ bs!"x"), []⟩) rfl .nil rfl)
        (.cons (HoldsAll.holds (o := ⟨.expr (.ident ⟨5, 6⟩ bs!"x"), []⟩) rfl .nil rfl) .nil)) rfl) .nil) rfl

example : ((moduleNodes arrowModule).map Node.isArrow) = [false, true, false, false] := by
  simp [moduleNodes, arrowModule, Node.all_eq, Node.children, Node.isArrow]

/-- Three objects are made for it, a `return` (4), a function (5) and the expression with it (6); the last is in a cell
of its own, and the cell of the arrow function, the only one of object 3, is what it was. -/
example : ((transform 9 arrowMem).objs.map Obj.kids, (transform 9 arrowMem).body, (transform 9 arrowMem).stack) =
    ([[], [], [0, 1], [2], [1], [0, 4], [5]], [3], [6]) := by decide +kernel

/-- The transform of `x => x`, then code: the arrow function is printed. -/
example (fuel : Nat) (m : List Stmt) (h : HoldsModule (transform fuel arrowMem) m) :
    codegen m true = .ok bs!"x=>x;" := by
  rw [(C33_output_unchanged fuel _ _ _ arrowMem_holds h true).1]
  decide +kernel

end Ratel
