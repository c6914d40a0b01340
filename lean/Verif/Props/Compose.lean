import Verif.Props.Accepted
/-! C78: code generation is compositional. -/
namespace Ratel
open Spec

namespace Spec

/-- `x` with four blanks behind every line break. -/
def indented (x : Bytes) : Bytes := x.flatMap fun c => if c = #b'\n' then bs!"\n    " else [c]

/-- The texts `xs`, one below the other. -/
def lined (xs : List Bytes) : Bytes := [#b'\n'].intercalate xs

/-- `x`, the code of at least one statement, in braces. -/
def inBraces (minify : Bool) (x : Bytes) : Bytes :=
  if minify then bs!"{" ++ x ++ bs!"}" else bs!"{\n    " ++ indented x ++ bs!"\n}"

end Spec

theorem Spec.lined_cons (x : Bytes) (xs : List Bytes) : lined (x :: xs) = x ++ xs.flatMap fun y => #b'\n' :: y := by
  induction xs generalizing x with
  | nil => simp [lined, List.intercalate, List.intersperse]
  | cons y ys ih =>
    have h := ih y
    simp only [lined, List.intercalate, List.intersperse, List.flatten_cons, List.flatMap_cons, List.cons_append,
      List.nil_append] at h ⊢
    rw [← h]

theorem Spec.indented_append (x y : Bytes) : indented (x ++ y) = indented x ++ indented y := by
  simp [indented]

theorem Spec.indented_plain {x : Bytes} (h : #b'\n' ∉ x) : indented x = x := by
  induction x with
  | nil => rfl
  | cons c x ih =>
    simp only [List.mem_cons, not_or] at h
    simp only [indented, List.flatMap_cons, if_neg (Ne.symm h.1), List.singleton_append]
    exact congrArg _ (ih h.2)

/-- Printed at depth `d` it is `x`, printed one deeper it is `x` indented. -/
def Indents (l : List Piece) : Prop :=
  ∀ d, ∃ x, (∀ r, runPretty d (l ++ r) = (runPretty d r >>= fun y => .ok (x ++ y.1, y.2))) ∧
    ∀ r, runPretty (d + 1) (l ++ r) = (runPretty (d + 1) r >>= fun y => .ok (indented x ++ y.1, y.2))

theorem indents_layout : Layout Indents fun t => #b'\n' ∉ t where
  nil d := ⟨[], fun r => by rw [List.nil_append]; cases runPretty d r <;> simp,
    fun r => by rw [List.nil_append]; cases runPretty (d + 1) r <;> simp [indented]⟩
  append {a b} ha hb d := by
    obtain ⟨x, hx, hx'⟩ := ha d
    obtain ⟨y, hy, hy'⟩ := hb d
    refine ⟨x ++ y, fun r => ?_, fun r => ?_⟩
    · rw [List.append_assoc, hx, hy]
      cases runPretty d r <;> simp
    · rw [List.append_assoc, hx', hy', indented_append]
      cases runPretty (d + 1) r <;> simp
  text {t} ht d := ⟨t, fun r => rfl, fun r => by rw [indented_plain ht]; rfl⟩
  sp d := ⟨bs!" ", fun r => rfl, fun r => rfl⟩
  line d := ⟨newLineText d, fun r => rfl, fun r => by
    have : indented (newLineText d) = newLineText (d + 1) := by
      have h : indented (List.replicate (4 * d) #b' ') = List.replicate (4 * d) #b' ' :=
        indented_plain fun h => by simp at h
      rw [newLineText, newLineText, show 4 * (d + 1) = 4 + 4 * d by omega, ← List.replicate_append_replicate,
        ← List.singleton_append, indented_append, h]
      rfl
    rw [this]
    rfl⟩
  nest {a} ha d := by
    obtain ⟨x, hx, hx'⟩ := ha (d + 1)
    refine ⟨x, fun r => ?_, fun r => ?_⟩
    · simpa [runPretty] using hx (.dedent :: r)
    · simpa [runPretty] using hx' (.dedent :: r)
  own h h' := (h _ h').1 rfl

/-! ### The hypothesis: no error members -/

/-- No class of the module has a member that is an error (accepted modules have none: C13). -/
def Printed (m : List Stmt) : Prop := ∀ n ∈ moduleNodes m, n.isErrorMember = false

theorem Printed.sub {m m' : List Stmt} (h : Printed m) (hs : ∀ s ∈ m', s ∈ m) : Printed m' := by
  intro n hn
  simp only [moduleNodes, List.mem_flatMap] at hn
  obtain ⟨s, hs', hn⟩ := hn
  exact h n (by simp only [moduleNodes, List.mem_flatMap]; exact ⟨s, hs s hs', hn⟩)

theorem Printed.tail {s : Stmt} {m : List Stmt} (h : Printed (s :: m)) : Printed m :=
  h.sub fun _ ht => List.mem_cons_of_mem _ ht

theorem Printed.head {s : Stmt} {m : List Stmt} (h : Printed (s :: m)) : Printed [s] :=
  h.sub fun t ht => by simp at ht; simp [ht]

theorem Printed.run {s : Stmt} (h : Printed [s]) (d : Nat) :
    ∃ x, ∀ r, runPretty d (codeStmt s ++ r) = (runPretty d r >>= fun y => .ok (x ++ y.1, y.2)) :=
  codeStmt_layout levelled_layout h (fun _ _ _ _ => trivial) (List.mem_singleton.2 rfl) d

theorem codegen_single {s : Stmt} {x : Bytes}
    (hx : ∀ r, runPretty 0 (codeStmt s ++ r) = (runPretty 0 r >>= fun y => .ok (x ++ y.1, y.2))) :
    codegen [s] false = .ok x := by
  have := hx []
  simp [codegen, codeModulePretty, codeStmts_eq, writeLines, runPretty] at this ⊢
  simp [this]

/-! ### C78 -/

/-- C78: minified code of a module is that of its statements, one directly behind the other. -/
theorem C78_minified {m : List Stmt} (h : Printed m) :
    ∃ xs : List Bytes, m.map (fun s => codegen [s] true) = xs.map .ok ∧ codegen m true = .ok xs.flatten := by
  induction m with
  | nil => exact ⟨[], rfl, rfl⟩
  | cons s m ih =>
    obtain ⟨xs, h1, h2⟩ := ih h.tail
    obtain ⟨x, hx⟩ := C22_codegen_no_panic [s] h.head true
    refine ⟨x :: xs, by simp [hx, h1], ?_⟩
    have hx' : runMin (codeStmt s) = .ok x := by simpa [codegen, codeModuleMin, codeStmts_eq] using hx
    have h2' : runMin (codeModuleMin m) = .ok xs.flatten := by simpa [codegen] using h2
    have := runMin_append (b := codeModuleMin m) hx'
    rw [h2'] at this
    simpa [codegen, codeModuleMin, codeStmts_eq] using this

theorem run_lines {m : List Stmt} (h : Printed m) (d : Nat) :
    ∃ xs : List Bytes, (∀ r, runPretty d (writeLines (codeStmts m) ++ r) =
      (runPretty d r >>= fun y => .ok ((xs.flatMap fun x => newLineText d ++ x) ++ y.1, y.2))) ∧
      (d = 0 → m.map (fun s => codegen [s] false) = xs.map .ok) := by
  induction m with
  | nil =>
    refine ⟨[], fun r => ?_, fun _ => rfl⟩
    rw [codeStmts_eq, List.map_nil, writeLines, List.nil_append]
    cases runPretty d r <;> simp
  | cons s m ih =>
    obtain ⟨xs, h1, h2⟩ := ih h.tail
    obtain ⟨x, hx⟩ := h.head.run d
    refine ⟨x :: xs, fun r => ?_, fun hd => ?_⟩
    · rw [codeStmts_eq] at h1 ⊢
      rw [List.map_cons, writeLines, List.cons_append, List.cons_append, List.append_assoc, runPretty, hx, h1]
      cases runPretty d r <;> simp
    · subst hd
      simp [codegen_single hx, h2 rfl]

/-- C78: pretty printed code of a module is that of its statements, one below the other. -/
theorem C78_pretty {m : List Stmt} (h : Printed m) :
    ∃ xs : List Bytes, m.map (fun s => codegen [s] false) = xs.map .ok ∧ codegen m false = .ok (lined xs) := by
  cases m with
  | nil => exact ⟨[], rfl, rfl⟩
  | cons s m =>
    obtain ⟨x, hx⟩ := h.head.run 0
    obtain ⟨xs, h1, h2⟩ := run_lines (m := m) h.tail 0
    refine ⟨x :: xs, by simp [codegen_single hx, h2 rfl], ?_⟩
    have h3 := h1 []
    rw [List.append_nil] at h3
    rw [lined_cons]
    simp [codegen, codeModulePretty, codeStmts_eq] at h3 ⊢
    rw [hx, h3]
    simp [runPretty, newLineText]

theorem map_ok_inj {a b : List Bytes} (h : a.map Out.ok = b.map Out.ok) : a = b := by
  induction a generalizing b with
  | nil => cases b <;> simp_all
  | cons x a ih =>
    cases b with
    | nil => simp at h
    | cons y b => simp at h; rw [h.1, ih h.2]

/-- C78: the code of two modules one behind the other: `x ++ y` minified, `x`, a line break and `y` pretty printed. -/
theorem C78_append {a b : List Stmt} (h : Printed (a ++ b)) {minify : Bool} {x y : Bytes}
    (hx : codegen a minify = .ok x) (hy : codegen b minify = .ok y) :
    codegen (a ++ b) minify = .ok (x ++ (if minify ∨ a = [] ∨ b = [] then [] else [#b'\n']) ++ y) := by
  have ha : Printed a := h.sub fun _ hs => List.mem_append_left _ hs
  have hb : Printed b := h.sub fun _ hs => List.mem_append_right _ hs
  cases minify
  · obtain ⟨xs, h1, h2⟩ := C78_pretty ha
    obtain ⟨ys, h3, h4⟩ := C78_pretty hb
    obtain ⟨zs, h5, h6⟩ := C78_pretty h
    rw [List.map_append, h1, h3, ← List.map_append] at h5
    have h7 := map_ok_inj h5
    subst h7
    rw [hx] at h2; rw [hy] at h4
    cases h2; cases h4
    rw [h6]
    cases a with
    | nil =>
      cases xs with
      | nil => simp [lined, List.intercalate]
      | cons => simp at h1
    | cons s a =>
      cases xs with
      | nil => simp at h1
      | cons z xs =>
        cases b with
        | nil =>
          cases ys with
          | nil => simp [lined, List.intercalate]
          | cons => simp at h3
        | cons t b =>
          cases ys with
          | nil => simp at h3
          | cons w ys =>
            rw [List.cons_append, lined_cons, lined_cons, lined_cons]
            simp
  · obtain ⟨xs, h1, h2⟩ := C78_minified ha
    obtain ⟨ys, h3, h4⟩ := C78_minified hb
    obtain ⟨zs, h5, h6⟩ := C78_minified h
    rw [List.map_append, h1, h3, ← List.map_append] at h5
    have h7 := map_ok_inj h5
    subst h7
    rw [hx] at h2; rw [hy] at h4
    cases h2; cases h4
    rw [h6]
    simp

/-! ### Braces -/

/-- No name or literal text holds a line break (a template, or a string literal with a line continuation, may). -/
def OneLine (m : List Stmt) : Prop := ∀ n ∈ moduleNodes m, ∀ t ∈ n.texts, #b'\n' ∉ t

theorem braces_pretty {m : List Stmt} (h : Printed m) (ho : OneLine m) (hm : m ≠ []) {x : Bytes} (hx : codegen m false = .ok x)
    (r : List Piece) : runPretty 0 (writeBraces (codeStmts m) ++ r) =
      (runPretty 0 r >>= fun y => .ok (inBraces false x ++ y.1, y.2)) := by
  obtain ⟨z, h1, h2⟩ := codeModulePretty_layout indents_layout h ho 0
  have h3 := h1 []
  rw [List.append_nil] at h3
  have h4 : z = x := by simpa [codegen, h3, runPretty] using hx
  subst h4
  have h5 : writeBraces (codeStmts m) ++ r =
      .text bs!"{" :: .indent :: .newLine :: (codeModulePretty m ++ .dedent :: .newLine :: .text bs!"}" :: r) := by
    cases m with
    | nil => exact absurd rfl hm
    | cons s m => simp [writeBraces, writeBlock, codeModulePretty, codeStmts_eq]
  rw [h5]
  simp only [runPretty, h2]
  cases runPretty 0 r <;> simp [inBraces, newLineText]

theorem braces_min {m : List Stmt} {x : Bytes} (hx : codegen m true = .ok x)
    (r : List Piece) : runMin (writeBraces (codeStmts m) ++ r) = (runMin r >>= fun y => .ok (inBraces true x ++ y)) := by
  have hx' : runMin (codeModuleMin m) = .ok x := by simpa [codegen] using hx
  have hc : ∀ y a b, runMin a = runMin b → runMin (y ++ a) = runMin (y ++ b) := by
    intro y a b hab
    induction y with
    | nil => exact hab
    | cons p y ih => cases p <;> simp [runMin, ih]
  have hl : ∀ (l : List (List Piece)) (r : List Piece), runMin (writeLines l ++ r) = runMin (l.flatten ++ r) := by
    intro l
    induction l with
    | nil => intro r; rfl
    | cons y l ih =>
      intro r
      rw [writeLines, List.append_assoc, List.flatten_cons, List.append_assoc]
      simp only [List.cons_append, runMin]
      exact hc _ _ _ (ih r)
  have h5 : runMin (writeBraces (codeStmts m) ++ r) = (runMin (codeModuleMin m ++ .text bs!"}" :: r) >>= fun y => .ok (bs!"{" ++ y)) := by
    cases m with
    | nil => simp [writeBraces, writeBlock, codeModuleMin, codeStmts_eq, runMin]
    | cons s m =>
      have h6 : writeBraces (codeStmts (s :: m)) ++ r =
          .text bs!"{" :: .indent :: .newLine :: (codeStmt s ++ (writeLines (m.map codeStmt) ++ (.dedent :: .newLine :: .text bs!"}" :: r))) := by
        simp [writeBraces, writeBlock, codeStmts_eq]
      have h7 : codeModuleMin (s :: m) ++ .text bs!"}" :: r = codeStmt s ++ ((m.map codeStmt).flatten ++ (.text bs!"}" :: r)) := by
        simp [codeModuleMin, codeStmts_eq]
      rw [h6, h7]
      simp only [runMin]
      rw [hc _ _ ((m.map codeStmt).flatten ++ (.text bs!"}" :: r))]
      rw [hl]
      exact hc _ _ _ (by simp only [runMin])
  rw [h5, runMin_append hx']
  simp only [runMin]
  cases runMin r <;> simp [inBraces]

/-- C78: minified, a block is its statements in braces; pretty printed, they are on lines of their own, and indented. -/
theorem C78_block (l : Loc) {m : List Stmt} (h : Printed m) (hm : m ≠ []) {minify : Bool} (ho : minify = false → OneLine m)
    {x : Bytes} (hx : codegen m minify = .ok x) : codegen [.block l m] minify = .ok (inBraces minify x) := by
  cases minify
  · have := braces_pretty h (ho rfl) hm hx []
    simp [runPretty] at this
    simp [codegen, codeModulePretty, codeStmts, codeStmt, writeLines, this]
  · have := braces_min hx []
    simpa [codegen, codeModuleMin, codeStmts, codeStmt, runMin] using this

theorem runPretty_append (a b : List Piece) (d : Nat) :
    runPretty d (a ++ b) = (runPretty d a >>= fun y => runPretty y.2 b >>= fun z => .ok (y.1 ++ z.1, z.2)) := by
  induction a generalizing d with
  | nil =>
    simp only [List.nil_append, runPretty, Out.bind_ok]
    cases runPretty d b <;> simp
  | cons p a ih =>
    cases p
    case text t =>
      simp only [List.cons_append, runPretty, ih]
      cases h : runPretty d a <;> simp
      rename_i y
      cases runPretty y.2 b <;> simp
    case «pretty» t =>
      simp only [List.cons_append, runPretty, ih]
      cases h : runPretty d a <;> simp
      rename_i y
      cases runPretty y.2 b <;> simp
    case newLine =>
      simp only [List.cons_append, runPretty, ih]
      cases h : runPretty d a <;> simp
      rename_i y
      cases runPretty y.2 b <;> simp
    case indent => simp only [List.cons_append, runPretty, ih]
    case dedent => cases d <;> simp only [List.cons_append, runPretty, ih] <;> simp
    case panic => cases d <;> simp [runPretty]

theorem runMin_ok_left {a b : List Piece} {x : Bytes} (h : runMin (a ++ b) = .ok x) : ∃ y, runMin a = .ok y := by
  induction a generalizing x with
  | nil => exact ⟨[], rfl⟩
  | cons p a ih =>
    cases p
    case text t =>
      simp only [List.cons_append, runMin, Out.bind_eq_ok] at h ⊢
      obtain ⟨z, hz, _⟩ := h
      obtain ⟨y, hy⟩ := ih hz
      exact ⟨_, y, hy, rfl⟩
    case panic => simp [runMin] at h
    all_goals simp only [List.cons_append, runMin] at *; exact ih h

/-- C78: a function declaration with the body `m` is the same function declaration with the empty body, whose code ends with
`{}`, and `m` in braces instead. -/
theorem C78_function (l l' : Loc) (name : Name) (gen : Bool) (ps : List Pattern) {m : List Stmt}
    (h : Printed [.function l (.mk name gen ps (.mk l' m))]) (hm : m ≠ []) {minify : Bool} (ho : minify = false → OneLine m)
    {x : Bytes} (hx : codegen m minify = .ok x) :
    ∃ p : Bytes, codegen [.function l (.mk name gen ps (.mk l' []))] minify = .ok (p ++ bs!"{}") ∧
      codegen [.function l (.mk name gen ps (.mk l' m))] minify = .ok (p ++ inBraces minify x) := by
  have h1 : Printed m := by
    intro n hn
    simp only [moduleNodes, List.mem_flatMap] at hn
    obtain ⟨s, hs, hn⟩ := hn
    refine h n ?_
    simp only [moduleNodes, List.flatMap_cons, List.flatMap_nil, List.append_nil, Node.all_eq (.stmt (.function ..)), Node.children,
      Node.all_eq (.func _)]
    simp only [List.mem_cons, List.mem_flatMap, List.mem_append, List.mem_map]
    exact .inr (.inr ⟨.stmt s, .inr ⟨s, hs, rfl⟩, hn⟩)
  have h2 : Printed [.function l (.mk name gen ps (.mk l' []))] := by
    intro n hn
    simp only [moduleNodes, List.flatMap_cons, List.flatMap_nil, List.append_nil, Node.all_eq (.stmt (.function ..)), Node.children,
      Node.all_eq (.func _)] at hn
    simp only [List.mem_cons, List.mem_flatMap, List.mem_append, List.mem_map] at hn
    rcases hn with hn | hn | ⟨k, hk, hn⟩
    · subst hn; rfl
    · subst hn; rfl
    · refine h n ?_
      simp only [moduleNodes, List.flatMap_cons, List.flatMap_nil, List.append_nil, Node.all_eq (.stmt (.function ..)), Node.children,
        Node.all_eq (.func _)]
      simp only [List.mem_cons, List.mem_flatMap, List.mem_append, List.mem_map]
      rcases hk with hk | ⟨s, hs, _⟩
      · exact .inr (.inr ⟨k, .inl hk, hn⟩)
      · cases hs
  obtain ⟨pre, hpre⟩ : ∃ pre : List Piece, ∀ m, codeStmt (.function l (.mk name gen ps (.mk l' m))) = pre ++ writeBraces (codeStmts m) :=
    ⟨codeKeyword bs!"function" name ++ codeName name ++ [.text bs!"("] ++ writeList (codePatterns ps) ++ [.text bs!")", pSp],
      fun m => by simp only [codeStmt, codeFunc, codeBlock]⟩
  have h0 : writeBraces (codeStmts []) = [.text bs!"{", .text bs!"}"] := by simp [writeBraces, codeStmts_eq, writeBlock]
  cases minify
  · obtain ⟨z, hz⟩ := C24_statement_balanced _ (fun n hn => h2 n (by simpa [moduleNodes] using hn)) 0
    rw [hpre, h0, runPretty_append] at hz
    obtain ⟨⟨p, d⟩, h3, h4⟩ := Out.bind_eq_ok.1 hz
    simp [runPretty] at h4
    obtain ⟨h4, h5⟩ := h4
    subst h5
    have h6 := braces_pretty h1 (ho rfl) hm hx []
    rw [List.append_nil] at h6
    refine ⟨p, ?_, ?_⟩
    · simp [codegen, codeModulePretty, codeStmts_eq, hpre, writeLines, runPretty_append, h3, writeBraces, writeBlock, runPretty]
    · rw [codeStmts_eq] at h6
      simp [codegen, codeModulePretty, codeStmts_eq, hpre, writeLines, runPretty_append, h3, h6, runPretty]
  · obtain ⟨z, hz⟩ := C22_codegen_no_panic _ h2 true
    have hz' : runMin (pre ++ writeBraces (codeStmts [])) = .ok z := by simpa [codegen, codeModuleMin, codeStmts_eq, hpre] using hz
    obtain ⟨p, hp⟩ := runMin_ok_left hz'
    have h6 := braces_min hx []
    rw [List.append_nil] at h6
    refine ⟨p, ?_, ?_⟩
    · rw [h0] at hz'
      rw [hz]
      rw [runMin_append hp] at hz'
      simp [runMin] at hz'
      rw [hz']
    · rw [codeStmts_eq] at h6
      simp [codegen, codeModuleMin, codeStmts_eq, hpre, runMin_append hp, h6, runMin]

/-! ### Statements made of others -/

/-- The pieces are printed as `x` (and, pretty printed, end at depth 0). -/
def Prints (minify : Bool) (l : List Piece) (x : Bytes) : Prop :=
  if minify then runMin l = .ok x else runPretty 0 l = .ok (x, 0)

theorem Prints.append {c : Bool} {a b : List Piece} {x y : Bytes} (ha : Prints c a x) (hb : Prints c b y) :
    Prints c (a ++ b) (x ++ y) := by
  cases c
  · simp [Prints] at *
    simp [runPretty_append, ha, hb]
  · simp [Prints] at *
    simp [runMin_append ha, hb]

theorem Prints.txt {c : Bool} (t : Bytes) : Prints c [.text t] t := by
  cases c <;> simp [Prints, runPretty, runMin]

/-- An optional blank. -/
def Spec.blank (minify : Bool) : Bytes := if minify then [] else bs!" "

theorem Prints.sp {c : Bool} : Prints c [pSp] (blank c) := by
  cases c <;> simp [Prints, runPretty, runMin, blank]

theorem Prints.cons {c : Bool} {p : Piece} {l : List Piece} {x y : Bytes} (ha : Prints c [p] x) (hb : Prints c l y) :
    Prints c (p :: l) (x ++ y) := ha.append hb

theorem Prints.codegen {c : Bool} {s : Stmt} {x : Bytes} (h : Prints c (codeStmt s) x) : codegen [s] c = .ok x := by
  cases c
  · simp [Prints] at h
    simp [Ratel.codegen, codeModulePretty, codeStmts_eq, writeLines, h]
  · simp [Prints] at h
    simp [Ratel.codegen, codeModuleMin, codeStmts_eq, h]

theorem prints_of_codegen {c : Bool} {s : Stmt} {x : Bytes} (hp : Printed [s]) (h : codegen [s] c = .ok x) :
    Prints c (codeStmt s) x := by
  cases c
  · obtain ⟨y, hy⟩ := C24_statement_balanced s (fun n hn => hp n (by simpa [moduleNodes] using hn)) 0
    simp [codegen, codeModulePretty, codeStmts_eq, writeLines, hy] at h
    simp [Prints, hy, h]
  · simpa [codegen, codeModuleMin, codeStmts_eq, Prints] using h

/-- What is in front of the last text is printed too. -/
theorem Prints.cut {c : Bool} {t u : Bytes} {l : List Piece} {x : Bytes} (h : Prints c ([.text t] ++ l ++ [.text u]) (t ++ x ++ u)) :
    Prints c l x := by
  cases c
  · simp [Prints] at h ⊢
    obtain ⟨⟨y, d⟩, h1, h2⟩ : ∃ y, runPretty 0 l = .ok y ∧ runPretty y.2 [.text u] >>= (fun z => Out.ok (y.1 ++ z.1, z.2)) = .ok (x ++ u, 0) := by
      have h' : (runPretty 0 (l ++ [.text u]) >>= fun z => Out.ok (t ++ z.1, z.2)) = .ok (t ++ (x ++ u), 0) := by simpa [runPretty] using h
      obtain ⟨⟨w, e⟩, h3, h4⟩ := Out.bind_eq_ok.1 h'
      simp at h4
      obtain ⟨h4, h5⟩ := h4
      subst h4; subst h5
      rw [runPretty_append] at h3
      exact Out.bind_eq_ok.1 h3
    simp [runPretty] at h2
    obtain ⟨h2, h3⟩ := h2
    subst h2; subst h3
    exact h1
  · simp [Prints] at h ⊢
    obtain ⟨w, h3, h4⟩ : ∃ w, runMin (l ++ [.text u]) = .ok w ∧ w = x ++ u := by
      have h' : (runMin (l ++ [.text u]) >>= fun z => Out.ok (t ++ z)) = .ok (t ++ (x ++ u)) := by simpa [runMin] using h
      obtain ⟨w, h3, h4⟩ := Out.bind_eq_ok.1 h'
      simp at h4
      exact ⟨w, h3, h4⟩
    subst h4
    obtain ⟨y, hy⟩ := runMin_ok_left h3
    rw [runMin_append hy] at h3
    simp [runMin] at h3
    rw [hy, h3]

/-- `x` is the code of the expression `e`: it is what is printed between `return ` and `;`. -/
def CodeOf (e : Expr) (minify : Bool) (x : Bytes) : Prop := codegen [.ret z (some e)] minify = .ok (bs!"return " ++ x ++ bs!";")

theorem CodeOf.prints {e : Expr} {c : Bool} {x : Bytes} (hp : Printed [.ret z (some e)]) (h : CodeOf e c x) : Prints c (codeExpr e) x := by
  have h1 := prints_of_codegen hp h
  simp only [codeStmt] at h1
  exact h1.cut

theorem Printed.child {s : Stmt} (h : Printed [s]) {k : Node} (hk : k ∈ (Node.stmt s).children) : ∀ n ∈ k.all, n.isErrorMember = false := by
  intro n hn
  refine h n ?_
  simp only [moduleNodes, List.flatMap_cons, List.flatMap_nil, List.append_nil]
  rw [Node.all_eq]
  exact List.mem_cons_of_mem _ (List.mem_flatMap.2 ⟨k, hk, hn⟩)

theorem Printed.stmt {s t : Stmt} (h : Printed [s]) (hk : .stmt t ∈ (Node.stmt s).children) : Printed [t] := by
  intro n hn
  exact h.child hk n (by simpa [moduleNodes] using hn)

theorem Printed.expr {s : Stmt} {e : Expr} (h : Printed [s]) (hk : .expr e ∈ (Node.stmt s).children) : Printed [.ret z (some e)] := by
  intro n hn
  simp only [moduleNodes, List.flatMap_cons, List.flatMap_nil, List.append_nil] at hn
  rw [Node.all_eq] at hn
  simp [Node.children] at hn
  rcases hn with hn | hn
  · subst hn; rfl
  · exact h.child hk n hn

/-- C78: `while`. -/
theorem C78_while (l : Loc) {e : Expr} {s : Stmt} (h : Printed [.whileS l e s]) {c : Bool} {x y : Bytes} (hx : CodeOf e c x)
    (hy : codegen [s] c = .ok y) :
    codegen [.whileS l e s] c = .ok (bs!"while" ++ blank c ++ bs!"(" ++ x ++ bs!")" ++ blank c ++ y) := by
  have h1 := hx.prints (h.expr (by simp [Node.children]))
  have h2 := prints_of_codegen (h.stmt (by simp [Node.children])) hy
  refine Prints.codegen ?_
  have := (((Prints.txt bs!"while").append (.append .sp (.txt bs!"("))).append h1).append ((Prints.txt bs!")").append (.append .sp h2))
  simpa [codeStmt] using this

/-- C78: `if` without `else`. -/
theorem C78_if (l : Loc) {e : Expr} {s : Stmt} (h : Printed [.ifS l e s none]) {c : Bool} {x y : Bytes} (hx : CodeOf e c x)
    (hy : codegen [s] c = .ok y) :
    codegen [.ifS l e s none] c = .ok (bs!"if" ++ blank c ++ bs!"(" ++ x ++ bs!")" ++ blank c ++ y) := by
  have h1 := hx.prints (h.expr (by simp [Node.children]))
  have h2 := prints_of_codegen (h.stmt (by simp [Node.children])) hy
  refine Prints.codegen ?_
  have := (((Prints.txt bs!"if").append (.append .sp (.txt bs!"("))).append h1).append ((Prints.txt bs!")").append (.append .sp h2))
  simpa [codeStmt] using this

/-- Between a keyword and the statement: an optional blank if it is a block, a blank if not. -/
def Spec.beside (minify : Bool) : Stmt → Bytes
  | .block _ _ => blank minify
  | _ => bs!" "

theorem Prints.gap {c : Bool} {s : Stmt} : Prints c [if s.isBlock then pSp else .text bs!" "] (beside c s) := by
  cases s
  case block => exact Prints.sp
  all_goals exact Prints.txt bs!" "

/-- C78: `if` with `else`: the blanks around `else` are left out in minified code exactly on the side of a block. -/
theorem C78_if_else (l : Loc) {e : Expr} {s t : Stmt} (h : Printed [.ifS l e s (some t)]) {c : Bool} {x y w : Bytes} (hx : CodeOf e c x)
    (hy : codegen [s] c = .ok y) (hw : codegen [t] c = .ok w) :
    codegen [.ifS l e s (some t)] c = .ok (bs!"if" ++ blank c ++ bs!"(" ++ x ++ bs!")" ++ blank c ++ y ++
      beside c s ++ bs!"else" ++ beside c t ++ w) := by
  have h1 := hx.prints (h.expr (by simp [Node.children]))
  have h2 := prints_of_codegen (h.stmt (by simp [Node.children])) hy
  have h3 := prints_of_codegen (h.stmt (by simp [Node.children])) hw
  refine Prints.codegen ?_
  have := (((Prints.txt bs!"if").append (.append .sp (.txt bs!"("))).append h1).append ((Prints.txt bs!")").append (.append .sp
    (h2.append ((Prints.gap (s := s)).append ((Prints.txt bs!"else").append ((Prints.gap (s := t)).append h3))))))
  simpa [codeStmt] using this

/-- C78: `do`. -/
theorem C78_do (l : Loc) {e : Expr} {s : Stmt} (h : Printed [.doS l s e]) {c : Bool} {x y : Bytes} (hx : CodeOf e c x)
    (hy : codegen [s] c = .ok y) :
    codegen [.doS l s e] c = .ok (bs!"do" ++ beside c s ++ y ++ bs!"while" ++ blank c ++
      bs!"(" ++ x ++ bs!")") := by
  have h1 := hx.prints (h.expr (by simp [Node.children]))
  have h2 := prints_of_codegen (h.stmt (by simp [Node.children])) hy
  refine Prints.codegen ?_
  have := (((Prints.txt bs!"do").append ((Prints.gap (s := s)).append h2)).append
    ((Prints.txt bs!"while").append (.append .sp (.txt bs!"(")))).append (h1.append (Prints.txt bs!")"))
  simpa [codeStmt] using this

/-- C78: a statement with a label. -/
theorem C78_labeled (l : Loc) (n : Bytes) {s : Stmt} (h : Printed [.labeled l n s]) {c : Bool} {y : Bytes}
    (hy : codegen [s] c = .ok y) : codegen [.labeled l n s] c = .ok (n ++ bs!":" ++ blank c ++ y) := by
  have h2 := prints_of_codegen (h.stmt (by simp [Node.children])) hy
  refine Prints.codegen ?_
  have := ((Prints.txt n).append (.append (.txt bs!":") .sp)).append h2
  simpa [codeStmt] using this

/-- C78: `throw`. -/
theorem C78_throw (l : Loc) {e : Expr} (h : Printed [.throw l e]) {c : Bool} {x : Bytes} (hx : CodeOf e c x) :
    codegen [.throw l e] c = .ok (bs!"throw " ++ x ++ bs!";") := by
  have h1 := hx.prints (h.expr (by simp [Node.children]))
  refine Prints.codegen ?_
  have := (Prints.txt bs!"throw ").append (h1.append (Prints.txt bs!";"))
  simpa [codeStmt] using this

/-- C78: every expression without error members in its classes has a code. -/
theorem C78_expression {e : Expr} (h : Printed [.ret z (some e)]) (c : Bool) : ∃ x, CodeOf e c x := by
  cases c
  · obtain ⟨x, hx⟩ := C24_expression_balanced e (fun n hn => h.child (k := .expr e) (by simp [Node.children]) n hn) 0
    exact ⟨x, Prints.codegen (by
      have := (Prints.txt (c := false) bs!"return ").append (Prints.append (x := x) (a := codeExpr e) hx (Prints.txt bs!";"))
      simpa [codeStmt] using this)⟩
  · obtain ⟨w, hw⟩ := C22_codegen_no_panic _ h true
    have h1 : runMin ([.text bs!"return "] ++ codeExpr e ++ [.text bs!";"]) = .ok w := by
      simpa [codegen, codeModuleMin, codeStmts_eq, codeStmt] using hw
    have h2 : (runMin (codeExpr e ++ [.text bs!";"]) >>= fun y => Out.ok (bs!"return " ++ y)) = .ok w := by simpa [runMin] using h1
    obtain ⟨y, h3, h4⟩ := Out.bind_eq_ok.1 h2
    obtain ⟨x, hx⟩ := runMin_ok_left h3
    exact ⟨x, Prints.codegen (by
      have := (Prints.txt (c := true) bs!"return ").append (Prints.append (x := x) (a := codeExpr e) hx (Prints.txt bs!";"))
      simpa [codeStmt] using this)⟩

/-! ### Accepted modules -/

section
variable [Unicode]

/-- The hypothesis holds for accepted modules. -/
theorem accepted_printed {fuel : Nat} {src : Bytes} {m : List Stmt} (h : parse fuel src = .ok (.ok m)) : Printed m :=
  fun _ hn => (C13_no_placeholders h hn).1

/-- C78 for accepted modules: the code is that of the statements, minified one directly behind the other, pretty printed one
below the other. -/
theorem C78_accepted {fuel : Nat} {src : Bytes} {m : List Stmt} (h : parse fuel src = .ok (.ok m)) :
    (∃ xs : List Bytes, m.map (fun s => codegen [s] true) = xs.map .ok ∧ codegen m true = .ok xs.flatten) ∧
    ∃ xs : List Bytes, m.map (fun s => codegen [s] false) = xs.map .ok ∧ codegen m false = .ok (lined xs) :=
  ⟨C78_minified (accepted_printed h), C78_pretty (accepted_printed h)⟩

end

/-! ### The hypotheses are met -/

/-- The module `while (a) { b; } c;`. -/
def composeModule : List Stmt :=
  [.whileS ⟨0, 16⟩ (.ident ⟨7, 8⟩ bs!"a") (.block ⟨10, 16⟩ [.expr ⟨12, 14⟩ (.ident ⟨12, 13⟩ bs!"b")]),
   .expr ⟨17, 19⟩ (.ident ⟨17, 18⟩ bs!"c")]

example : Printed composeModule := by
  simp [Printed, composeModule, moduleNodes, Node.all_eq, Node.children, Node.isErrorMember]

example : OneLine composeModule := by
  simp [OneLine, composeModule, moduleNodes, Node.all_eq, Node.children, Node.texts]

example : Printed [.function z (.mk (.mandatory ⟨z, bs!"f"⟩) false [.ident z bs!"x"] (.mk z composeModule))] := by
  simp [Printed, composeModule, moduleNodes, Node.all_eq, Node.children, Node.isErrorMember]

example : codegen composeModule false = .ok bs!"while (a) {\n    b;\n}\nc;" := by decide +kernel

example : inBraces false bs!"while (a) {\n    b;\n}\nc;" = bs!"{\n    while (a) {\n        b;\n    }\n    c;\n}" := by
  decide +kernel

example : CodeOf (.binary z .Addition (.ident z bs!"a") (.ident z bs!"b")) false bs!"a + b" := by
  unfold CodeOf; decide +kernel

example : codegen [.ifS z (.ident z bs!"a") (.expr z (.ident z bs!"b")) (some (.block z []))] true = .ok bs!"if(a)b; else{}" := by
  decide +kernel

/-- A template with a line break is not indented: `OneLine` is needed. -/
theorem C78_template : codegen [.block z [.expr z (.template z [] [⟨z, bs!"\n"⟩])]] false = .ok bs!"{\n    `\n`;\n}" ∧
    inBraces false bs!"`\n`;" = bs!"{\n    `\n    `;\n}" := by
  decide +kernel

end Ratel
