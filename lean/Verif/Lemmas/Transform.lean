import Verif.Lemmas.Memory
/-! What the transform does to the memory. -/
namespace Ratel
open Spec

/-- Objects were allocated and stack cells were made; no cell that was there is written. -/
def Mem.Grows (m m' : Mem) (ext : List Nat) : Prop :=
  ∃ new, m' = ⟨m.objs ++ new, m.body, m.stack ++ ext⟩

theorem Mem.Grows.refl (m : Mem) : m.Grows m [] := ⟨[], by simp⟩

theorem Mem.Grows.trans {m m' m'' : Mem} {a b : List Nat} (h : m.Grows m' a) (h' : m'.Grows m'' b) : m.Grows m'' (a ++ b) := by
  obtain ⟨x, rfl⟩ := h
  obtain ⟨y, rfl⟩ := h'
  exact ⟨x ++ y, by simp⟩

theorem Mem.Grows.holds {m m' : Mem} {a : List Nat} (h : m.Grows m' a) {i : Nat} {n : Node} (hn : Holds m.objs i n) :
    Holds m'.objs i n := by
  obtain ⟨x, rfl⟩ := h
  exact hn.mono

theorem Mem.Grows.holdsAll {m m' : Mem} {a : List Nat} (h : m.Grows m' a) {is : List Nat} {ns : List Node}
    (hn : HoldsAll m.objs is ns) : HoldsAll m'.objs is ns := by
  obtain ⟨x, rfl⟩ := h
  exact hn.mono

theorem Mem.Grows.get {m m' : Mem} {a : List Nat} (h : m.Grows m' a) {c : Cell} {p : Nat} (hc : m.get c = some p) :
    m'.get c = some p := by
  obtain ⟨x, rfl⟩ := h
  have ap : ∀ {α} {l r : List α} {i : Nat} {v : α}, l[i]? = some v → (l ++ r)[i]? = some v := by
    intro α l r i v h
    rw [List.getElem?_append_left ?_, h]
    rcases Nat.lt_or_ge i l.length with g | g
    · exact g
    · rw [List.getElem?_eq_none g] at h; cases h
  cases c with
  | inObj q k =>
    simp only [Mem.get, Option.bind_eq_some_iff] at hc ⊢
    obtain ⟨o, h1, h2⟩ := hc
    exact ⟨o, ap h1, h2⟩
  | inBody k => exact hc
  | onStack k => exact ap hc

theorem swap_eq (m : Mem) (p : Nat) (item : Loc → Obj) :
    swap (m.copy p).1 (m.copy p).2 item =
      ⟨m.objs ++ [item (nodeLoc (m.shapeAt p))], m.body, m.stack ++ [m.objs.length]⟩ := by
  simp [swap, Mem.copy, Mem.alloc, Mem.set, Mem.get, Mem.shapeAt]

theorem alloc_grows (m : Mem) (o : Obj) : m.Grows (m.alloc o).1 [] := ⟨[o], by simp [Mem.alloc]⟩

theorem allocFunction_grows (m : Mem) (l : Loc) (ks : List Nat) : m.Grows (allocFunction m l ks).1 [] := alloc_grows _ _

theorem swap_grows (m : Mem) (p : Nat) (item : Loc → Obj) :
    m.Grows (swap (m.copy p).1 (m.copy p).2 item) [m.objs.length] := ⟨_, swap_eq m p item⟩

/-- The callback writes no cell that was there. -/
theorem onArrow_grows (m : Mem) (o : Obj) (c : Cell) : ∃ ext, m.Grows (onArrowExpression m o c) ext := by
  unfold onArrowExpression
  split
  · simp only
    split
    · exact ⟨_, (allocFunction_grows m _ _).trans (swap_grows _ _ _)⟩
    · exact ⟨_, allocFunction_grows m _ _⟩
  · simp only
    split
    · exact ⟨_, ((alloc_grows m _).trans (allocFunction_grows _ _ _)).trans (swap_grows _ _ _)⟩
    · exact ⟨_, (alloc_grows m _).trans (allocFunction_grows _ _ _)⟩
  · exact ⟨[], .refl m⟩

theorem foldl_grows {f : Mem → Nat → Mem} (h : ∀ (m : Mem) k, ∃ ext, m.Grows (f m k) ext) (ks : List Nat) (m : Mem) :
    ∃ ext, m.Grows (ks.foldl f m) ext := by
  induction ks generalizing m with
  | nil => exact ⟨[], .refl m⟩
  | cons k ks ih =>
    obtain ⟨a, ha⟩ := h m k
    obtain ⟨b, hb⟩ := ih (f m k)
    exact ⟨a ++ b, ha.trans hb⟩

theorem visitCell_grows (fuel : Nat) (m : Mem) (c : Cell) : ∃ ext, m.Grows (visitCell fuel m c) ext := by
  induction fuel generalizing m c with
  | zero => exact ⟨[], .refl m⟩
  | succ fuel ih =>
    rw [visitCell]
    split
    · exact ⟨[], .refl m⟩
    · split
      · exact ⟨[], .refl m⟩
      · rename_i o _
        obtain ⟨a, ha⟩ := onArrow_grows m o c
        obtain ⟨b, hb⟩ := foldl_grows (fun m k => ih m (.inObj _ k)) (List.range o.kids.length) (onArrowExpression m o c)
        exact ⟨a ++ b, ha.trans hb⟩

theorem transform_grows (fuel : Nat) (m : Mem) : ∃ ext, m.Grows (transform fuel m) ext :=
  foldl_grows (fun m k => visitCell_grows fuel m (.inBody k)) _ m

theorem shapeAt_eq {m : Mem} {p : Nat} {o : Obj} (h : m.objs[p]? = some o) : m.shapeAt p = o.shape := by
  simp [Mem.shapeAt, h]

theorem shapeAt_loc {m : Mem} {p : Nat} {n : Node} (h : Holds m.objs p n) : nodeLoc (m.shapeAt p) = nodeLoc n := by
  cases h with
  | mk ho hn hl hk =>
    rw [shapeAt_eq ho]
    calc nodeLoc _ = nodeLoc (Node.rebuild _ n.children) := (rebuild_loc _ _).symm
      _ = _ := by rw [hn]

/-- A function expression in a new cell. -/
theorem function_spec {m : Mem} {c : Cell} {p : Nat} {n : Node} (hc : m.get c = some p) (h : Holds m.objs p n)
    {bl : Loc} {ks : List Nat} {ps : List Pattern} {b : List Stmt} (hk : HoldsAll m.objs ks (ps.map .pat ++ b.map .stmt)) :
    ∃ ext m', (match (allocFunction m bl ks).1.get c with
        | some p => swap ((allocFunction m bl ks).1.copy p).1 ((allocFunction m bl ks).1.copy p).2 (allocFunction m bl ks).2
        | none => (allocFunction m bl ks).1) = m' ∧ m.Grows m' ext ∧
      HoldsAll m'.objs ext [.expr (.function (nodeLoc n) (.mk (.optional none) false ps (.mk bl b)))] := by
  have g := allocFunction_grows m bl ks
  rw [g.get hc]
  simp only
  refine ⟨_, _, rfl, g.trans (swap_grows _ _ _), ?_⟩
  rw [swap_eq, shapeAt_loc (g.holds h)]
  refine .cons ?_ .nil
  simp only [allocFunction, Mem.alloc]
  refine HoldsAll.holds (o := ⟨.expr (.function (nodeLoc n) (.mk (.optional none) false [] (.mk bl []))), [m.objs.length]⟩) (by simp) ?_ rfl
  refine .cons (HoldsAll.holds (o := ⟨.func (.mk (.optional none) false [] (.mk bl [])), ks⟩) (by simp) ?_ ?_) .nil
  · rw [List.append_assoc]
    exact hk.mono
  · exact (show _ = _ from by simp [Node.rebuild, Node.children, pats_append, stmts_append, pats_map, stmts_map, pats_stmts, stmts_pats])

/-- The callback for an arrow function makes the function expression it stands for, in a cell of its own. -/
theorem onArrow_spec {m : Mem} {o : Obj} {c : Cell} {p : Nat} {n : Node} (hc : m.get c = some p)
    (ho : m.objs[p]? = some o) (h : Holds m.objs p n) :
    ∃ ext, m.Grows (onArrowExpression m o c) ext ∧
      HoldsAll (onArrowExpression m o c).objs ext (asFunction n).toList := by
  have hh := h
  cases h with
  | mk ho' hn hl hk =>
    cases ho.symm.trans ho'
    have hall := Holds.all hl hk
    by_cases ha : n.isArrow = true
    · unfold Node.isArrow at ha
      split at ha
      · -- `ps => e`
        rename_i l ps e
        obtain ⟨ps', e', hs⟩ := rebuild_arrowE hn
        obtain ⟨js, ks, hjk, hj, hk'⟩ := HoldsAll.split (ns := ps.map .pat) (ms := [.expr e]) hall
        obtain ⟨x, rfl, hx⟩ : ∃ x, ks = [x] ∧ Holds m.objs x (.expr e) := by
          cases hk' with
          | cons g h => cases h; exact ⟨_, rfl, g⟩
        have e1 : o.kids.getLastD 0 = x := by rw [hjk]; simp
        have e2 : o.kids.dropLast = js := by rw [hjk]; simp
        have e3 : nodeLoc (m.shapeAt x) = e.loc := shapeAt_loc hx
        have g := alloc_grows m ⟨.stmt (.ret e.loc (some (.void e.loc))), [x]⟩
        have hr : Holds (m.alloc ⟨.stmt (.ret e.loc (some (.void e.loc))), [x]⟩).1.objs m.objs.length (.stmt (.ret e.loc (some e))) :=
          HoldsAll.holds (o := ⟨.stmt (.ret e.loc (some (.void e.loc))), [x]⟩) (by simp [Mem.alloc]) (.cons (g.holds hx) .nil) rfl
        obtain ⟨ext, m', he, h1, h2⟩ := function_spec (g.get hc) (g.holds hh) (bl := e.loc) (b := [.ret e.loc (some e)])
          ((g.holdsAll hj).append (.cons hr .nil))
        have : onArrowExpression m o c = m' := by
          rw [← he, onArrowExpression, hs]
          simp only [e1, e2, e3]
          rfl
        rw [this]
        exact ⟨_, g.trans h1, h2⟩
      · -- `ps => { b }`
        rename_i l ps b
        obtain ⟨bl, b⟩ := b
        obtain ⟨ps', b', hs⟩ := rebuild_arrowB hn
        obtain ⟨ext, m', he, h1, h2⟩ := function_spec hc hh (bl := bl) (ks := o.kids) (ps := ps) (b := b) hall
        have : onArrowExpression m o c = m' := by
          rw [← he, onArrowExpression, hs]
          rfl
        rw [this]
        exact ⟨_, h1, h2⟩
      · cases ha
    · have hs : o.shape.isArrow = false := by
        rw [← rebuild_isArrow o.shape n.children, hn]
        simpa using ha
      have h1 : onArrowExpression m o c = m := by
        unfold onArrowExpression
        split
        · rename_i hs'; rw [hs'] at hs; cases hs
        · rename_i hs'; rw [hs'] at hs; cases hs
        · rfl
      have h2 : asFunction n = none := by
        unfold asFunction
        split
        · exact absurd rfl ha
        · exact absurd rfl ha
        · rfl
      rw [h1, h2]
      exact ⟨[], .refl m, .nil⟩

/-- A loop over cells. -/
theorem foldl_spec {f : Mem → Nat → Mem} {g : Node → List Node} {m0 : Mem} {ks : List Nat} {ns : List Node}
    (hl : ns.length = ks.length)
    (h : ∀ j (h : j < ns.length), ∀ m a, m0.Grows m a → ∃ ext, m.Grows (f m (ks[j]'(hl ▸ h))) ext ∧
      HoldsAll (f m (ks[j]'(hl ▸ h))).objs ext (g ns[j])) (m : Mem) (a : List Nat) (hm : m0.Grows m a) :
    ∃ ext, m.Grows (ks.foldl f m) ext ∧ HoldsAll (ks.foldl f m).objs ext (ns.flatMap g) := by
  induction ns generalizing ks m a with
  | nil =>
    obtain rfl : ks = [] := by simpa using hl.symm
    exact ⟨[], .refl m, .nil⟩
  | cons n ns ih =>
    cases ks with
    | nil => simp at hl
    | cons k ks =>
      obtain ⟨x, hx, hx'⟩ := h 0 (by simp) m a hm
      obtain ⟨y, hy, hy'⟩ := ih (ks := ks) (by simpa using hl)
        (fun j hj m a hm => h (j + 1) (by simpa using hj) m a hm) (f m k) _ (hm.trans hx)
      exact ⟨x ++ y, hx.trans hy, (hy.holdsAll hx').append hy'⟩

theorem visitCell_spec (fuel : Nat) (m : Mem) (c : Cell) (p : Nat) (n : Node) (hc : m.get c = some p)
    (h : Holds m.objs p n) (hf : n.size < fuel) :
    ∃ ext, m.Grows (visitCell fuel m c) ext ∧
      HoldsAll (visitCell fuel m c).objs ext (n.all.filterMap asFunction) := by
  induction fuel generalizing m c p n with
  | zero => omega
  | succ fuel ih =>
    cases h with
    | mk ho hn hl hk =>
      rename_i o
      rw [visitCell, hc]
      simp only [ho]
      obtain ⟨a, ha, ha'⟩ := onArrow_spec hc ho (.mk ho hn hl hk)
      obtain ⟨b, hb, hb'⟩ := foldl_spec (m0 := m) (f := fun m k => visitCell fuel m (.inObj p k))
        (g := fun n => n.all.filterMap asFunction) (ks := List.range o.kids.length) (ns := n.children)
        (by simpa using hl)
        (fun j hj m' x hm' => by
          simp only [List.getElem_range]
          refine ih m' (.inObj p j) _ _ (hm'.get ?_) (hm'.holds (hk j hj)) ?_
          · simp [Mem.get, ho]
          · have := Node.child_lt (List.getElem_mem hj)
            omega)
        (onArrowExpression m o c) a ha
      refine ⟨a ++ b, ha.trans hb, ?_⟩
      have e : n.all.filterMap asFunction = (asFunction n).toList ++ n.children.flatMap fun n => n.all.filterMap asFunction := by
        rw [Node.all_eq, List.filterMap_cons, List.filterMap_flatMap]
        cases asFunction n <;> rfl
      rw [e]
      exact (hb.holdsAll ha').append hb'

end Ratel
